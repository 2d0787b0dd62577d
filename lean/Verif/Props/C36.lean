import Verif.Proofs.PdEnergy
import Verif.Proofs.Joint
import Verif.Proofs.Bardell
import Verif.Props.C21
import Verif.Spec.Witness

/-!
# C36: prescribed line displacements

The matrices for a line `x = xp` or `y = yp` should give the energy of springs `ku`, `kv`, `kw` per
unit length.  The code writes all three values to the `w`-`w` position, so the claim holds exactly
for `ku = kv = 0`.
-/

namespace Verif.C36

open Spec Model

/-- Springs along the line `x = xp`. -/
noncomputable def springX (S : Shape ℝ) (P : Panel ℝ) (ku kv kw xp : ℝ) (s : ℕ) (c : ℕ → ℝ) : ℝ :=
  ∫ y in (0 : ℝ)..P.b, (ku * u S P s c 0 xp y ^ 2 + kv * u S P s c 1 xp y ^ 2
    + kw * u S P s c 2 xp y ^ 2)

/-- Springs along the line `y = yp`. -/
noncomputable def springY (S : Shape ℝ) (P : Panel ℝ) (ku kv kw yp : ℝ) (s : ℕ) (c : ℕ → ℝ) : ℝ :=
  ∫ x in (0 : ℝ)..P.a, (ku * u S P s c 0 x yp ^ 2 + kv * u S P s c 1 x yp ^ 2
    + kw * u S P s c 2 x yp ^ 2)

/-- The claim for one set of penalties: all panels, positions, offsets and vectors. -/
def Claim (ku kv kw : ℝ) : Prop :=
  ∀ P : Panel ℝ, 0 < P.a → 0 < P.b → ∀ (s : ℕ) (c : ℕ → ℝ),
    let S := bardellShape ℝ
    let I := Tab.of S Mean.integral
    (∀ xp, Coo.quad (Coo.finalizeSym (fkCldXcte S I P ku kv kw xp s s)) c
      = springX S P ku kv kw xp s c) ∧
    ∀ yp, Coo.quad (Coo.finalizeSym (fkCldYcte S I P ku kv kw yp s s)) c
      = springY S P ku kv kw yp s c

/-- What the code computes on `x = xp`: three times the deflection, where the first two use the edge
conditions of `u` and `v` with the coefficients of `w`. -/
theorem actual_x {I : Tab ℝ} {S : Shape ℝ} (hI : I.Exact S Mean.integral) (hS : S.C2)
    (P : Panel ℝ) (hb : P.b ≠ 0) (ku kv kw xp : ℝ) (s : ℕ) (c : ℕ → ℝ) :
    Coo.quad (Coo.finalizeSym (fkCldXcte S I P ku kv kw xp s s)) c
      = ∫ y in (0 : ℝ)..P.b, (ku * u S (asW P 0) s c 2 xp y ^ 2
          + kv * u S (asW P 1) s c 2 xp y ^ 2 + kw * u S P s c 2 xp y ^ 2) := by
  rw [fkCldXcte_form hI hS.inMean, ← integral_line P.b hb]
  refine intervalIntegral.integral_congr fun y _ => ?_
  simp only [u_disp, mul_div_right_comm, asW]

theorem actual_y {I : Tab ℝ} {S : Shape ℝ} (hI : I.Exact S Mean.integral) (hS : S.C2)
    (P : Panel ℝ) (ha : P.a ≠ 0) (ku kv kw yp : ℝ) (s : ℕ) (c : ℕ → ℝ) :
    Coo.quad (Coo.finalizeSym (fkCldYcte S I P ku kv kw yp s s)) c
      = ∫ x in (0 : ℝ)..P.a, (ku * u S (asW P 0) s c 2 x yp ^ 2
          + kv * u S (asW P 1) s c 2 x yp ^ 2 + kw * u S P s c 2 x yp ^ 2) := by
  rw [fkCldYcte_form hI hS.inMean, ← integral_line P.a ha]
  refine intervalIntegral.integral_congr fun y _ => ?_
  simp only [u_disp, mul_div_right_comm, asW]

/-- The part of the claim that holds: no penalty on `u` and `v`.  Missing: any `ku` or `kv` other
than zero, see `claim_iff`. -/
theorem line_springs_partial {I : Tab ℝ} {S : Shape ℝ} (hI : I.Exact S Mean.integral) (hS : S.C2)
    (P : Panel ℝ) (ha : P.a ≠ 0) (hb : P.b ≠ 0) (kw : ℝ) (s : ℕ) (c : ℕ → ℝ) :
    (∀ xp, Coo.quad (Coo.finalizeSym (fkCldXcte S I P 0 0 kw xp s s)) c
      = springX S P 0 0 kw xp s c) ∧
    ∀ yp, Coo.quad (Coo.finalizeSym (fkCldYcte S I P 0 0 kw yp s s)) c
      = springY S P 0 0 kw yp s c :=
  ⟨fun xp => by rw [actual_x hI hS P hb, springX]; simp only [zero_mul],
    fun yp => by rw [actual_y hI hS P ha, springY]; simp only [zero_mul]⟩

/-- If `u`, `v`, `w` have the same edge conditions, the code penalises only `w`, by the sum of the
three. -/
theorem actual_same_flags {I : Tab ℝ} {S : Shape ℝ} (hI : I.Exact S Mean.integral) (hS : S.C2)
    (P : Panel ℝ) (ha : P.a ≠ 0) (hb : P.b ≠ 0) (hu : P.xu = P.xw) (hu' : P.yu = P.yw)
    (hv : P.xv = P.xw) (hv' : P.yv = P.yw) (ku kv kw : ℝ) (s : ℕ) (c : ℕ → ℝ) :
    (∀ xp, Coo.quad (Coo.finalizeSym (fkCldXcte S I P ku kv kw xp s s)) c
      = springX S P 0 0 (ku + kv + kw) xp s c) ∧
    ∀ yp, Coo.quad (Coo.finalizeSym (fkCldYcte S I P ku kv kw yp s s)) c
      = springY S P 0 0 (ku + kv + kw) yp s c := by
  have h0 : asW P 0 = P := by
    cases P; simp_all [asW, Panel.xf, Panel.yf]
  have h1 : asW P 1 = P := by
    cases P; simp_all [asW, Panel.xf, Panel.yf]
  refine ⟨fun xp => ?_, fun yp => ?_⟩
  · rw [actual_x hI hS P hb, springX, h0, h1]
    exact intervalIntegral.integral_congr fun y _ => by beta_reduce; ring
  · rw [actual_y hI hS P ha, springY, h0, h1]
    exact intervalIntegral.integral_congr fun y _ => by beta_reduce; ring

/-- The matrices do not see `u` and `v` at all. -/
theorem blind {I : Tab ℝ} {S : Shape ℝ} (hI : I.Exact S Mean.integral) (hS : S.C2) (P : Panel ℝ)
    (ha : P.a ≠ 0) (hb : P.b ≠ 0) (ku kv kw : ℝ) (s : ℕ) (c : ℕ → ℝ)
    (hc : ∀ i j, c (s + dof P.m i j + 2) = 0) :
    (∀ xp, Coo.quad (Coo.finalizeSym (fkCldXcte S I P ku kv kw xp s s)) c = 0) ∧
    ∀ yp, Coo.quad (Coo.finalizeSym (fkCldYcte S I P ku kv kw yp s s)) c = 0 := by
  have h : ∀ α x y, u S (asW P α) s c 2 x y = 0 := fun α x y => by
    rw [u_disp, disp]
    simp only [dof] at hc
    simp [asW, hc]
  have h2 : ∀ x y, u S P s c 2 x y = 0 := fun x y => h 2 x y
  refine ⟨fun xp => ?_, fun yp => ?_⟩
  · rw [actual_x hI hS P hb]; simp [h, h2]
  · rw [actual_y hI hS P ha]; simp [h, h2]

/-! ## Exactly when the claim holds -/

/-- Unit vector of the one-term plate. -/
def e (α k : ℕ) : ℝ := if k = α then 1 else 0

theorem plate_spring (ku kv kw : ℝ) (α : ℕ) (hα : α < 3) :
    springX (bardellShape ℝ) C21.plate1 ku kv kw 0 0 (e α)
      = (if α = 0 then ku else if α = 1 then kv else kw) * (26 / 35) := by
  have hb : C21.plate1.b = 2 := rfl
  have hu : ∀ β y, β < 3 → u (bardellShape ℝ) C21.plate1 0 (e α) β 0 y
      = if β = α then (bardellShape ℝ).f 0 (2 / 2 * y - 1) ⟨1, 0, 0, 0⟩ else 0 := fun β y hβ => by
    rw [u_disp, disp]
    interval_cases β <;> simp [C21.plate1, e, Shape.D, Panel.xf, Panel.yf, C21.f0, eq_comm] <;>
      norm_num
  rw [springX, hb]
  have key : ∀ k : ℝ, ∫ y in (0 : ℝ)..2, k * ((bardellShape ℝ).f 0 (2 / 2 * y - 1) ⟨1, 0, 0, 0⟩) ^ 2
      = k * (26 / 35) := fun k => by
    rw [integral_line 2 two_ne_zero
      (fun η => k * ((bardellShape ℝ).f 0 η ⟨1, 0, 0, 0⟩) ^ 2), ← C21.ff0]
    simp only [Mean.integral, Tab.of, pow_two, intervalIntegral.integral_const_mul]
    norm_num
  simp only [hu 0 _ (by norm_num), hu 1 _ (by norm_num), hu 2 _ (by norm_num)]
  interval_cases α <;> simpa using key _

/-- The claim holds exactly when `ku` and `kv` are zero. -/
theorem claim_iff (ku kv kw : ℝ) : Claim ku kv kw ↔ ku = 0 ∧ kv = 0 := by
  constructor
  · intro h
    have hp := fun α => (h C21.plate1 (by norm_num [C21.plate1]) (by norm_num [C21.plate1]) 0
      (e α)).1 0
    have hz : ∀ α, α < 2 → springX (bardellShape ℝ) C21.plate1 ku kv kw 0 0 (e α) = 0 :=
      fun α hα => by
        rw [← hp α]
        refine (blind (Tab.of_exact _ _) bardellShape_C2 C21.plate1 (by norm_num [C21.plate1])
          (by norm_num [C21.plate1]) ku kv kw 0 (e α) fun i j => ?_).1 0
        rw [e, if_neg]
        omega
    have h0 := hz 0 (by norm_num)
    have h1 := hz 1 (by norm_num)
    rw [plate_spring _ _ _ _ (by norm_num)] at h0 h1
    simp at h0 h1
    exact ⟨h0, h1⟩
  · rintro ⟨rfl, rfl⟩ P ha hb s c
    exact line_springs_partial (Tab.of_exact _ _) bardellShape_C2 P ha.ne' hb.ne' kw s c

/-- Concrete case: a penalty on `u` alone, as in `tests/tests_shell/test_lb_pd.py`, is not the
energy of springs on `u`. -/
example : ¬ Claim 1000 0 0 := fun h => by
  have := ((claim_iff 1000 0 0).1 h).1
  norm_num at this

example (c : ℕ → ℝ) (xp : ℝ) :
    Coo.quad (Coo.finalizeSym (fkCldXcte (bardellShape ℝ) (Tab.of (bardellShape ℝ) Mean.integral)
      Witness.panel 0 0 50 xp 9 9)) c = springX (bardellShape ℝ) Witness.panel 0 0 50 xp 9 c :=
  (line_springs_partial (Tab.of_exact _ _) bardellShape_C2 Witness.panel
    (by simp [Witness.panel]) (by simp [Witness.panel]) 50 9 c).1 xp

end Verif.C36
