import Verif.Proofs.AeroForm
import Verif.Proofs.VonKarman
import Verif.Props.C23

/-!
# C22: the aerodynamic matrix is the piston-theory operator

`Shell.calc_kA` stores the upper triangle of the operator `-beta w_d,x w_c + gamma w_d w_c`
(flow along `y`: `-beta w_d,y w_c`) and completes it by `make_skew_symmetric`.
-/

namespace Verif.C22

open Spec Model Finset

/-- Work density of the pressure of a flow along `x`: rows `d`, columns `c`. -/
noncomputable def pistonX (beta gamma : ℝ) (wd wc : ℝ → ℝ → ℝ) (x y : ℝ) : ℝ :=
  - beta * dx wd x y * wc x y + gamma * wd x y * wc x y

/-- Flow along `y`. -/
noncomputable def pistonY (beta : ℝ) (wd wc : ℝ → ℝ → ℝ) (x y : ℝ) : ℝ :=
  - beta * dy wd x y * wc x y

/-- The vectors `d` and `c` meet only on and above the diagonal: `d_r c_q ≠ 0` only for `r ≤ q`. -/
def Ordered (d c : ℕ → ℝ) : Prop := ∀ r q, d r ≠ 0 → c q ≠ 0 → r ≤ q

section builders

variable {S : Shape ℝ} (hS : S.C2) (G : GaussTab ℝ) (P : Panel ℝ) (ha : P.a ≠ 0) (hb : P.b ≠ 0)

include hS ha hb

/-- The numeric builder for flow along `x`, on vectors that meet in the stored half. -/
theorem plate_x (beta gamma : ℝ) (row0 col0 nx ny : ℕ) {d c : ℕ → ℝ} (h : Ordered d c) :
    Coo.bilin (plateFkAxNum S G P beta gamma row0 col0 nx ny) d c
      = gaussP G nx ny P fun _ _ => pistonX beta gamma (u S P row0 d 2) (u S P col0 c 2) := by
  unfold plateFkAxNum
  rw [Coo.bilin_pad, show Gen.PlateNum.fkAx_num_pat = [(2, 2)] from rfl,
    bilin_accum22 _ _ _ _ _ _ _ _ _ (fun p i k j l => Aero.ax_val S G P beta gamma nx ny p i k j l)
      d c h]
  have e := grid_gauss G P ha hb nx ny fun _ _ ξ η =>
    (gamma * disp S P row0 d 2 0 0 ξ η - beta * disp S P row0 d 2 1 0 ξ η)
      * disp S P col0 c 2 0 0 ξ η
  have e2 : (fun (_ _ : ℕ) => pistonX beta gamma (u S P row0 d 2) (u S P col0 c 2))
      = fun _ _ x y => (gamma * disp S P row0 d 2 0 0 (2 / P.a * x - 1) (2 / P.b * y - 1)
          - beta * disp S P row0 d 2 1 0 (2 / P.a * x - 1) (2 / P.b * y - 1))
        * disp S P col0 c 2 0 0 (2 / P.a * x - 1) (2 / P.b * y - 1) := by
    funext _ _ x y
    simp only [pistonX, u_dx hS, u_disp]
    ring
  rw [e2, ← e]
  congr 1
  refine List.map_congr_left fun p _ => ?_
  simp only [Aero.disp_w, Shape.D, pow_zero, pow_one, one_mul, mul_one]
  congr 2
  rw [Finset.mul_sum, Finset.mul_sum, ← Finset.sum_sub_distrib]
  refine sum_congr rfl fun i _ => ?_
  rw [Finset.mul_sum, Finset.mul_sum, ← Finset.sum_sub_distrib]
  refine sum_congr rfl fun j _ => ?_
  ring

theorem cyl_x (beta gamma : ℝ) (row0 col0 nx ny : ℕ) {d c : ℕ → ℝ} (h : Ordered d c) :
    Coo.bilin (cylFkAxNum S G P beta gamma row0 col0 nx ny) d c
      = gaussP G nx ny P fun _ _ => pistonX beta gamma (u S P row0 d 2) (u S P col0 c 2) := by
  rw [Aero.cyl_eq_plate]
  exact plate_x hS G P ha hb beta gamma row0 col0 nx ny h

/-- Flow along `y`, plate and cylinder. -/
theorem both_y (beta : ℝ) (row0 col0 nx ny : ℕ) {d c : ℕ → ℝ} (h : Ordered d c) :
    Coo.bilin (fkAyNum S G P beta row0 col0 nx ny) d c
      = gaussP G nx ny P fun _ _ => pistonY beta (u S P row0 d 2) (u S P col0 c 2) := by
  unfold fkAyNum
  rw [Coo.bilin_pad, show Gen.PlateNum.fkAy_num_pat = [(2, 2)] from rfl,
    bilin_accum22 _ _ _ _ _ _ _ _ _ (fun p i k j l => Aero.ay_val S G P beta nx ny p i k j l)
      d c h]
  have e := grid_gauss G P ha hb nx ny fun _ _ ξ η =>
    (- (beta * disp S P row0 d 2 0 1 ξ η)) * disp S P col0 c 2 0 0 ξ η
  have e2 : (fun (_ _ : ℕ) => pistonY beta (u S P row0 d 2) (u S P col0 c 2))
      = fun _ _ x y => (- (beta * disp S P row0 d 2 0 1 (2 / P.a * x - 1) (2 / P.b * y - 1)))
        * disp S P col0 c 2 0 0 (2 / P.a * x - 1) (2 / P.b * y - 1) := by
    funext _ _ x y
    simp only [pistonY, u_dy hS, u_disp]
    ring
  rw [e2, ← e]
  congr 1
  refine List.map_congr_left fun p _ => ?_
  simp only [Aero.disp_w, Shape.D, pow_zero, pow_one, one_mul, mul_one]
  congr 2
  rw [Finset.mul_sum, ← Finset.sum_neg_distrib]
  refine sum_congr rfl fun i _ => ?_
  rw [Finset.mul_sum, ← Finset.sum_neg_distrib]
  refine sum_congr rfl fun j _ => ?_
  ring

end builders

/-- The operator of a flow along `x` (`true`) or `y` on the modes number `r` (row) and `q` (column)
of the vector of unknowns, integrated by the rule of the panel. -/
noncomputable def coeff (E : Env ℝ) (s : Shell ℝ) (alongX : Bool) (beta gamma : ℝ) (row0 col0 : ℕ)
    (r q : ℕ) : ℝ :=
  gaussP E.G s.nx s.ny s.panel fun _ _ x y =>
    if alongX then
      pistonX beta gamma (u E.S s.panel row0 (unit r) 2) (u E.S s.panel col0 (unit q) 2) x y
    else pistonY beta (u E.S s.panel row0 (unit r) 2) (u E.S s.panel col0 (unit q) 2) x y

theorem fkA_entry {E : Env ℝ} (hS : E.S.C2) {k : Kind} {s : Shell ℝ} (ha : s.panel.a ≠ 0)
    (hb : s.panel.b ≠ 0) {beta gamma : ℝ} {row0 col0 : ℕ} {L : Coo ℝ}
    (h : s.fkA E k beta gamma row0 col0 = .ok L) (r q : ℕ) :
    Coo.entry L r q
      = if r ≤ q then coeff E s (decide (lower s.flow = "x")) beta gamma row0 col0 r q else 0 := by
  unfold Shell.fkA at h
  unfold coeff
  by_cases hx : lower s.flow = "x"
  · rw [if_pos hx] at h
    have e : L = plateFkAxNum E.S E.G s.panel beta gamma row0 col0 s.nx s.ny := by
      cases k
      · cases h; rfl
      · cases h; exact Aero.cyl_eq_plate ..
    rw [e]
    split
    · rw [Coo.entry_bilin, plate_x hS E.G s.panel ha hb beta gamma row0 col0 s.nx s.ny
        (unit_ordered ‹_›)]
      simp only [hx, decide_true, if_true]
    · unfold plateFkAxNum
      rw [Coo.entry_pad]
      exact entry_accum22_lower _ _ _ _ _ _ (by omega)
  · rw [if_neg hx] at h
    split at h
    · cases h
      split
      · rw [Coo.entry_bilin, both_y hS E.G s.panel ha hb beta row0 col0 s.nx s.ny
          (unit_ordered ‹_›)]
        simp only [hx, decide_false, Bool.false_eq_true, if_false]
      · unfold fkAyNum
        rw [Coo.entry_pad]
        exact entry_accum22_lower _ _ _ _ _ _ (by omega)
    · cases h

/-- `calc_kA` without finalisation: `dᵀ kA c` is the sum over the stored upper triangle of the
operator with the parameters that the call leaves in the panel. -/
theorem stored {root : ℝ → ℝ} {E : Env ℝ} (hS : E.S.C2) {s s' : Shell ℝ} (ha : s.pan.a ≠ 0)
    (hb : s.pan.b ≠ 0) {size : SizeArg} {row0 col0 : ℕ} {L : Coo ℝ}
    (h : s.calcKA root E size row0 col0 false = .ok (L, s')) :
    ∃ beta gamma, s'.beta = some beta ∧ s'.gamma = some gamma ∧
      (lower s.flow = "x" ∨ lower s.flow = "y") ∧
      ∀ d c, Coo.bilin L d c =
        ∑ r ∈ range (size.value (3 * s.pan.m * s.pan.n)),
        ∑ q ∈ range (size.value (3 * s.pan.m * s.pan.n)),
          (if r ≤ q then coeff E s' (decide (lower s.flow = "x")) beta gamma row0 col0 r q else 0)
            * d r * c q := by
  obtain ⟨k, b, g, M, L0, -, -, hL, hT, e, rfl⟩ := calcKA_ok.1 h
  refine ⟨b, g, rfl, rfl, ?_, fun d c => ?_⟩
  · unfold Shell.fkA at hL
    by_cases hx : lower s.flow = "x"
    · exact .inl hx
    · have hx' : ¬ lower (afterKA s b g M).flow = "x" := hx
      rw [if_neg hx'] at hL
      split at hL
      · exact .inr ‹_›
      · cases hL
  · have e : L = L0 := e
    rw [e, bilin_sum_entry (toSparse_bound hT)]
    refine sum_congr rfl fun r _ => sum_congr rfl fun q _ => ?_
    rw [fkA_entry hS (s := afterKA s b g M) ha hb hL]
    rfl

/-- The finalised matrix: the operator above the diagonal and minus its transpose below. -/
theorem finalised {root : ℝ → ℝ} {E : Env ℝ} (hS : E.S.C2) {s s' : Shell ℝ} (ha : s.pan.a ≠ 0)
    (hb : s.pan.b ≠ 0) {size : SizeArg} {row0 col0 : ℕ} {L : Coo ℝ}
    (h : s.calcKA root E size row0 col0 true = .ok (L, s')) :
    ∃ beta gamma, s'.beta = some beta ∧ s'.gamma = some gamma ∧
      ∀ r q, Coo.entry L r q =
        if r ≤ q then coeff E s' (decide (lower s.flow = "x")) beta gamma row0 col0 r q
        else - coeff E s' (decide (lower s.flow = "x")) beta gamma row0 col0 q r := by
  obtain ⟨k, b, g, M, L0, -, -, hL, hT, rfl, rfl⟩ := calcKA_ok.1 h
  refine ⟨b, g, rfl, rfl, fun r q => ?_⟩
  have e : finSkew true L0 = Coo.finalizeSkew L0 := rfl
  rw [e, Coo.entry_finalizeSkew, fkA_entry hS (s := afterKA s b g M) ha hb hL,
    fkA_entry hS (s := afterKA s b g M) ha hb hL]
  split
  · rfl
  · rw [if_pos (by omega)]
    rfl

/-- Off the diagonal the finalised matrix is skew-symmetric. -/
theorem skew {root : ℝ → ℝ} {E : Env ℝ} {s s' : Shell ℝ} {size : SizeArg} {row0 col0 : ℕ}
    {L : Coo ℝ} (h : s.calcKA root E size row0 col0 true = .ok (L, s')) {r q : ℕ} (hrq : r ≠ q) :
    Coo.entry L r q = - Coo.entry L q r := by
  obtain ⟨k, b, g, M, L0, -, -, -, -, rfl, -⟩ := calcKA_ok.1 h
  have e : finSkew true L0 = Coo.finalizeSkew L0 := rfl
  rw [e, Coo.entry_finalizeSkew, Coo.entry_finalizeSkew]
  by_cases h : r ≤ q
  · rw [if_pos h, if_neg (by omega), neg_neg]
  · rw [if_neg h, if_pos (by omega)]

/-! ## Concrete cases -/

/-- Boole's rule (for `n = 5`). -/
noncomputable def boole : GaussTab ℝ where
  pt := fun _ g => (g : ℝ) / 2 - 1
  wt := fun _ g => if g = 0 then 7 / 45 else if g = 1 then 32 / 45 else if g = 2 then 12 / 45
    else if g = 3 then 32 / 45 else 7 / 45

noncomputable def env : Env ℝ := { C40.env with G := boole }

theorem env_C2 : env.S.C2 := bardellShape_C2

/-- The panel of C23 with this rule in both directions. -/
noncomputable def panel : Shell ℝ :=
  { C23.panel with
    nx := 5
    ny := 5 }

/-- `calc_kA` succeeds for this panel, with and without finalisation, at an offset. -/
theorem panel_ok (fi : Bool) : ∃ L s', panel.calcKA Real.sqrt env (.num 200) 9 9 fi = .ok (L, s') :=
  C23.exists_call fi (k := .plate) rfl rfl (by norm_num) rfl rfl (.inl rfl)
    (by constructor <;> simp [SizeArg.value, panel, C23.panel, C40.shell, Witness.panel])

example : ∃ L s' beta gamma, panel.calcKA Real.sqrt env (.num 200) 9 9 false = .ok (L, s') ∧
    s'.beta = some beta ∧ s'.gamma = some gamma ∧
    ∀ d c, Coo.bilin L d c = ∑ r ∈ range 200, ∑ q ∈ range 200,
      (if r ≤ q then coeff env s' true beta gamma 9 9 r q else 0) * d r * c q := by
  obtain ⟨L, s', h⟩ := panel_ok false
  obtain ⟨b, g, hb, hg, -, hd⟩ := stored env_C2 (by simp [panel, C23.panel, C40.shell, Witness.panel])
    (by simp [panel, C23.panel, C40.shell, Witness.panel]) h
  refine ⟨L, s', b, g, h, hb, hg, fun d c => ?_⟩
  rw [hd, decide_eq_true (show lower panel.flow = "x" from lower_x.2 (.inl rfl))]
  rfl

example : ∃ L s', panel.calcKA Real.sqrt env (.num 200) 9 9 true = .ok (L, s') ∧
    ∀ r q, r ≠ q → Coo.entry L r q = - Coo.entry L q r := by
  obtain ⟨L, s', h⟩ := panel_ok true
  exact ⟨L, s', h, fun r q => skew h⟩

/-- Vectors that meet only above the diagonal. -/
example : Ordered (fun k => if k < 10 then 1 else 0) (fun k => if 10 ≤ k then 2 else 0) := by
  intro r q h1 h2
  have : r < 10 := by by_contra h; simp [h] at h1
  have : 10 ≤ q := by by_contra h; simp [h] at h2
  omega

end Verif.C22
