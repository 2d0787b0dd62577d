import Verif.Proofs.TAero
import Verif.Props.C59
import Verif.Props.C66Energy

/-!
# C69: flutter of the panel with one T stiffener

The function gives stiffness, mass and geometric matrices of the assembly (as C66), and above the
diagonal the work of the pressure of the flow on the nine panels of the skin.  Below the diagonal one
`make_skew_symmetric` of the sum puts minus the transposed entries; the panels are free along the seams,
so this is not the work of the pressure (`below_x`, `lower_violated`).
-/

set_option linter.unusedSectionVars false

namespace Verif.C69

open Model Spec Finset C66

/-- A supersonic or sonic flight condition. -/
structure Flight (q : TArgs ℝ) (Mc V rho : ℝ) : Prop where
  mach : q.Mach = some Mc
  sonic : 1 ≤ Mc
  speed : q.airSpeed = some V
  density : q.rhoAir = some rho
  flow : q.flow = "x" ∨ q.flow = "X" ∨ q.flow = "y" ∨ q.flow = "Y"

/-- Work of the pressure caused by the motion `d` of the skin on the motion `c`. -/
noncomputable def pressure (E : Env ℝ) (A : Assy ℝ) (alongX : Bool) (beta gamma : ℝ) (d c : ℕ → ℝ) : ℝ :=
  (((List.range A.count).filter fun k => (A.part k).group = "skin").map
    (panelAir E A alongX beta gamma d c)).sum

/-- The matrix holds this work above the diagonal. -/
def Upper (E : Env ℝ) (A : Assy ℝ) (alongX : Bool) (beta gamma : ℝ) (kA : Coo ℝ) : Prop :=
  ∀ r s, Coo.entry kA r s = if r ≤ s then pressure E A alongX beta gamma (unit r) (unit s)
    else - pressure E A alongX beta gamma (unit s) (unit r)

variable {E : Env ℝ} {q : TArgs ℝ} {x1u : ℝ} {dn : ℕ} {T : ℕ → Shell ℝ} {lam : ℕ → LamObj ℝ}

theorem skin_list : (List.range (q.assy x1u dn).count).filter
    (fun k => ((q.assy x1u dn).part k).group = "skin") = List.range 9 := by
  have e : ∀ k ∈ List.range (q.assy x1u dn).count,
      decide (((q.assy x1u dn).part k).group = "skin") = decide (k < 9) := fun k hk => by
    have hk' : k < 15 := List.mem_range.1 hk
    interval_cases k <;> rfl
  rw [List.filter_congr e]
  rfl

theorem noLoad_air (alongX : Bool) (beta gamma : ℝ) (d c : ℕ → ℝ) :
    pressure E (q.noLoad.assy x1u dn) alongX beta gamma d c
      = pressure E (q.assy x1u dn) alongX beta gamma d c := by
  unfold pressure
  rw [skin_list, skin_list]
  refine congrArg List.sum (List.map_congr_left fun k hk => ?_)
  have hk' : k < 15 := (List.mem_range.1 hk).trans (by decide)
  have hA : (q.noLoad.assy x1u dn).part k = q.noLoad.part x1u dn k := rfl
  have hB : (q.assy x1u dn).part k = q.part x1u dn k := rfl
  unfold panelAir
  rw [noLoad_start, hA, hB, noLoad_part hk']
  generalize q.part x1u dn k = t
  rfl

/-- The last part of the function. -/
theorem flutter_end (h : TBuilt E q x1u dn T lam) {Mc V rho : ℝ} (hf : Flight q Mc V rho) {M : Multi ℝ}
    (hs : ∀ p < (q.assy x1u dn).count, M.shells p = (T p).fixR)
    (hp : M.place = (q.assy x1u dn).multi.place) (hl : M.panels = (q.assy x1u dn).multi.panels)
    {c : Option (CArg ℝ)} {kG : Coo ℝ} (hG : M.calcKG E c = .ok (kG, M)) :
    ∃ kM kA beta gamma, tFlutterEnd Real.sqrt E M c = .ok (kM, kG, kA) ∧
      (∀ v, Coo.quad kM v = moving E.S q (q.assy x1u dn) v) ∧
      C23.Follows Mc V rho (q.r.getD 0) beta gamma ∧
      Upper E (q.assy x1u dn) (decide (lower q.flow = "x")) beta gamma kA := by
  obtain ⟨kM, m1, m2⟩ := kM_moving h hs hp hl
  obtain ⟨beta, gamma, hF⟩ := follows_exists hf.sonic V rho (q.r.getD 0)
  obtain ⟨M', L, a1, a2⟩ := h.aero hf.mach hf.sonic hf.speed hf.density hf.flow hF (List.range 9)
    List.nodup_range (fun p hp => List.mem_range.1 hp) M [] hp
    (fun p hp => hs p (show p < 15 from (List.mem_range.1 hp).trans (by decide)))
  rw [← h.fit.size hs hl] at a1
  refine ⟨kM, Coo.finalizeSkew L, beta, gamma, ?_, m2, hF, fun r s => ?_⟩
  · unfold tFlutterEnd
    simp only [m1, hG, a1, bind, Except.bind]
    rfl
  · have e0 : ∀ r s, Coo.entry ([] : Coo ℝ) r s = 0 := fun r s => by simp [Coo.entry]
    have e1 : ∀ r s, r ≤ s → Coo.entry L r s
        = pressure E (q.assy x1u dn) (decide (lower q.flow = "x")) beta gamma (unit r) (unit s) := by
      intro r s hrs
      rw [a2, e0, zero_add, pressure, skin_list]
      simp only [if_pos hrs]
    rw [Coo.entry_finalizeSkew]
    split
    · exact e1 r s ‹_›
    · rw [e1 s r (by omega)]

/-- **C69, flutter under given axial loads.**  Full claim: `kA` holds the work of the pressure in both
triangles.  Proved: above and on the diagonal.  Missing: below the diagonal it is false, see
`lower_violated`. -/
theorem flutter_partial (h : TBuilt E q 1 2 T lam) {Mc V rho : ℝ} (hf : Flight q Mc V rho)
    (solve : Coo ℝ → (ℕ → ℝ) → Except Fail (ℕ → ℝ)) :
    ∃ k0 kM kG kA kt kr beta gamma, let A := q.assy 1 2
      tstiffFlutter Real.sqrt E solve q false = .ok (A, k0, none, kM, kG, kA) ∧ Springs A kt kr ∧
      (∀ v, Coo.quad k0 v = stored E.S q A lam kt kr v) ∧ (∀ v, Coo.quad kM v = moving E.S q A v) ∧
      (∀ v, Coo.quad kG v = loadWork E.S q A v) ∧ C23.Follows Mc V rho (q.r.getD 0) beta gamma ∧
      Upper E A (decide (lower q.flow = "x")) beta gamma kA := by
  obtain ⟨k0, M, kt, kr, h1, h2, h3, h4, h5, h6⟩ := energy h
  obtain ⟨kG, g1, g2⟩ := kG_loads h h4 h5 h6
  obtain ⟨kM, kA, beta, gamma, e1, e2, e3, e4⟩ := flutter_end h hf h4 h5 h6 g1
  refine ⟨k0, kM, kG, kA, kt, kr, beta, gamma, ?_, h2, h3, e2, g2, e3, e4⟩
  unfold tstiffFlutter
  simp only [h1, bind, Except.bind, e1]
  rfl

/-- **C69, flutter with a static case.**  The geometric matrix is that of the displacements the solver
gives for the axial loads on the edge `x = 0`.  As `flutter_partial` for `kA`. -/
theorem flutter_static_partial (h : TBuilt E q 1 2 T lam) {Mc V rho : ℝ} (hf : Flight q Mc V rho)
    (solve : Coo ℝ → (ℕ → ℝ) → Except Fail (ℕ → ℝ)) :
    ∃ A' k0 f kt kr, let A := q.assy 1 2
      Springs A kt kr ∧ (∀ v, Coo.quad k0 v = stored E.S q A lam kt kr v) ∧
      (∀ c, ∑ k ∈ range A.multi.getSize, f k * c k = (((List.range A.count).filter fun k =>
        (A.part k).x0 = 0).map fun k => endWork E.G E.S (A.part k).shell.panel (tNxx q (A.part k).group)
          (A.start k) c).sum) ∧
      (∀ e, solve k0 f = .error e → tstiffFlutter Real.sqrt E solve q true = .error e) ∧
      ∀ c, solve k0 f = .ok c → ∃ kM kG kA beta gamma,
        tstiffFlutter Real.sqrt E solve q true = .ok (A', k0, some (f, c), kM, kG, kA) ∧
        (∀ v, Coo.quad kM v = moving E.S q A v) ∧ (∀ v, Coo.quad kG v = tStateWork E A lam c v) ∧
        C23.Follows Mc V rho (q.r.getD 0) beta gamma ∧
        Upper E A (decide (lower q.flow = "x")) beta gamma kA := by
  obtain ⟨k0, M, kt, kr, h1, h2, h3, h4, h5, h6⟩ := energy h
  obtain ⟨A', M', f, g1, g2, g3, g4, g5, g6⟩ := h.tStatic solve k0 h4 h5 h6
  refine ⟨A', k0, f, kt, kr, h2, h3, g6, fun e he => ?_, fun c hc => ?_⟩
  · unfold tstiffFlutter
    simp only [h1, bind, Except.bind, g1 e he]
  · obtain ⟨kG, e1, e2⟩ := h.kGstate g3 g4 g5 c
    have hf' : Flight q.noLoad Mc V rho := ⟨hf.1, hf.2, hf.3, hf.4, hf.5⟩
    obtain ⟨kM, kA, beta, gamma, d1, d2, d3, d4⟩ := flutter_end h.noLoad hf' g3 g4 g5 e1
    refine ⟨kM, kG, kA, beta, gamma, ?_, fun v => ?_, e2, d3, fun r s => ?_⟩
    · unfold tstiffFlutter
      simp only [h1, bind, Except.bind, g2 c hc, d1]
      rfl
    · rw [d2 v, moving, moving]
      refine congrArg List.sum (List.map_congr_left fun k hk => ?_)
      have hk' : k < 15 := List.mem_range.1 hk
      have hA : (q.noLoad.assy 1 2).part k = q.noLoad.part 1 2 k := rfl
      have hB : (q.assy 1 2).part k = q.part 1 2 k := rfl
      rw [noLoad_start, hA, hB, noLoad_part hk']
      generalize q.part 1 2 k = t
      rfl
    · rw [d4 r s, noLoad_air, noLoad_air]
      have hfl : q.noLoad.flow = q.flow := rfl
      rw [hfl]

/-- Without a Mach number, or with a subsonic one, the function refuses. -/
theorem subsonic (h : TBuilt E q 1 2 T lam) (hM : ∀ Mc, q.Mach = some Mc → Mc < 1)
    (solve : Coo ℝ → (ℕ → ℝ) → Except Fail (ℕ → ℝ)) :
    tstiffFlutter Real.sqrt E solve q false = .error (.raised .valueError) := by
  obtain ⟨k0, M, kt, kr, h1, h2, h3, h4, h5, h6⟩ := energy h
  obtain ⟨kG, g1, g2⟩ := kG_loads h h4 h5 h6
  obtain ⟨kM, m1, m2⟩ := kM_moving h h4 h5 h6
  have h0 : 0 < (q.assy 1 2).count := show 0 < 15 by decide
  obtain ⟨pl, hq, -⟩ := multi_place (A := q.assy 1 2) h0
  obtain ⟨k, -, -, -, hk, -⟩ := rebuild_built E _ _ (h.built 0 h0)
  obtain ⟨f1, -, -, -, f5, -⟩ := skin_flow (q := q) (x1u := 1) (dn := 2) (k := 0) (by decide)
  have hkept : (T 0).fixR.Mach = q.Mach ∧ (T 0).fixR.beta = none := by
    obtain ⟨-, -, -, -, lam', -, e⟩ := (C54.rebuild_ok_iff E _ _).1 (h.built 0 h0)
    rw [e, ← f1, ← f5]
    exact ⟨rfl, rfl⟩
  have hstep : tAeroStep Real.sqrt E M.getSize (M, []) 0 = .error (.raised .valueError) := by
    unfold tAeroStep
    have : ∀ size r0 c0, (T 0).fixR.calcKA Real.sqrt E size r0 c0 false = .error (.raised .valueError) := by
      intro size r0 c0
      cases hm : q.Mach with
      | none => exact C23.no_mach size r0 c0 false hk hkept.2 (hkept.1.trans hm)
      | some Mc => exact C23.subsonic size r0 c0 false hk hkept.2 (hkept.1.trans hm) (hM Mc hm)
    simp only [h5, hq, h4 0 h0, this, bind, Except.bind]
  unfold tstiffFlutter tFlutterEnd
  rw [show List.range 9 = 0 :: [1, 2, 3, 4, 5, 6, 7, 8] from rfl]
  simp only [h1, m1, g1, bind, Except.bind, List.foldlM_cons, hstep]

/-! ## Below the diagonal -/

/-- Panels of the skin are integrated over their whole domain. -/
theorem full {k : ℕ} (hk : k < 15) : FullDomain (q.part x1u dn k).shell.panel := by
  interval_cases k <;> constructor <;>
    simp [xdom, ydom, Shell.panel, TArgs.part, TArgs.parts, TArgs.skin, TArgs.air, TArgs.base,
      TArgs.flange, tPart, Shell.new]

theorem air_x {S : Shape ℝ} (hS : S.C2) (G : GaussTab ℝ) (s : Shell ℝ) (nx ny : ℕ) (ha : s.pan.a ≠ 0)
    (hb : s.pan.b ≠ 0) (hP : FullDomain s.panel) (hx : C59.PartsExact S G nx s.panel.m s.panel.xw)
    (beta gamma : ℝ) (s0 r c : ℕ) : let w := fun r => u S s.panel s0 (unit r) 2
    gaussP G nx ny s.panel (fun _ _ x y => C22.pistonX beta gamma (w r) (w c) x y)
      + gaussP G nx ny s.panel (fun _ _ x y => C22.pistonX beta gamma (w c) (w r) x y)
      = - beta * C59.edgeX G ny s.panel (fun x y => w r x y * w c x y)
        + 2 * gamma * gaussP G nx ny s.panel fun _ _ x y => w r x y * w c x y :=
  C59.coeff_x (E := { C40.env with S := S, G := G }) hS (s := { s with nx := nx, ny := ny }) ha hb hP hx
    beta gamma s0 r c

/-- What misses below the diagonal for a flow along `x`: the flux through the edges of every panel of the
skin, also those inside the skin, and twice the curvature term. -/
theorem below_x (h : TBuilt E q x1u dn T lam)
    (hx : ∀ fl, C59.PartsExact E.S E.G (max (q.nx.getD (dn * q.m)) q.m) q.m fl) (beta gamma : ℝ)
    (r s : ℕ) :
    - pressure E (q.assy x1u dn) true beta gamma (unit s) (unit r)
      = pressure E (q.assy x1u dn) true beta gamma (unit r) (unit s)
        + ((List.range 9).map fun k => let P := (q.part x1u dn k).shell.panel
          let w := fun r => u E.S P ((q.assy x1u dn).start k) (unit r) 2
          beta * C59.edgeX E.G (max (q.ny.getD (dn * q.n)) q.n) P (fun x y => w r x y * w s x y)
            - 2 * gamma * gaussP E.G (max (q.nx.getD (dn * q.m)) q.m)
              (max (q.ny.getD (dn * q.n)) q.n) P fun _ _ x y => w r x y * w s x y).sum := by
  unfold pressure
  rw [skin_list, ← List.sum_map_add, neg_eq_neg_one_mul, ← List.sum_map_mul_left]
  refine congrArg List.sum (List.map_congr_left fun k hk => ?_)
  have hk9 := List.mem_range.1 hk
  have hk' : k < 15 := hk9.trans (by decide)
  obtain ⟨s1, s2⟩ := h.dims.sides x1u dn hk'
  have e : (q.part x1u dn k).shell.pan.m = q.m ∧ (q.part x1u dn k).shell.pan.n = q.n ∧
      (q.part x1u dn k).shell.nx = q.nx.getD (dn * q.m) ∧
      (q.part x1u dn k).shell.ny = q.ny.getD (dn * q.n) := by
    interval_cases k <;> exact ⟨rfl, rfl, rfl, rfl⟩
  have key := air_x h.smooth E.G (q.part x1u dn k).shell (max (q.nx.getD (dn * q.m)) q.m)
    (max (q.ny.getD (dn * q.n)) q.n) s1.ne' s2.ne' (full hk')
    (by
      rw [show (q.part x1u dn k).shell.panel.m = q.m from e.1]
      exact hx _) beta gamma ((q.assy x1u dn).start k) r s
  have hB : (q.assy x1u dn).part k = q.part x1u dn k := rfl
  unfold panelAir
  simp only [if_true, hB, e] at key ⊢
  linarith [key]

/-- Deflection of an unknown of another panel. -/
theorem u_out (S : Shape ℝ) (P : Panel ℝ) {s0 r : ℕ} (h : r < s0 ∨ s0 + 3 * P.m * P.n ≤ r) (x y : ℝ) :
    u S P s0 (unit r) 2 x y = 0 := by
  unfold u
  refine sum_eq_zero fun i hi => sum_eq_zero fun j hj => ?_
  have := dof_lt (mem_range.1 hi) (mem_range.1 hj)
  unfold dof at this
  rw [← mul_assoc] at this
  have hne : s0 + 3 * (j * P.m + i) + 2 ≠ r := by omega
  simp [unit, hne]

/-- Deflection of unknown `(i, j)`. -/
theorem u_unit (S : Shape ℝ) (P : Panel ℝ) (s0 : ℕ) {i j : ℕ} (hi : i < P.m) (hj : j < P.n) (x y : ℝ) :
    u S P s0 (unit (s0 + 3 * (j * P.m + i) + 2)) 2 x y
      = S.f i (2 / P.a * x - 1) P.xw * S.f j (2 / P.b * y - 1) P.yw := by
  unfold u
  rw [sum_eq_single i, sum_eq_single j]
  · simp [unit]
    rfl
  · intro l _ hl
    have hne : s0 + 3 * (l * P.m + i) + 2 ≠ s0 + 3 * (j * P.m + i) + 2 := fun h => by
      have : l * P.m = j * P.m := by omega
      exact hl (Nat.eq_of_mul_eq_mul_right (by omega) this)
    simp only [unit, if_neg hne, zero_mul]
  · exact fun h => absurd (mem_range.2 hj) h
  · intro k hk hki
    refine sum_eq_zero fun l _ => ?_
    have hne : s0 + 3 * (l * P.m + k) + 2 ≠ s0 + 3 * (j * P.m + i) + 2 := fun h =>
      hki (dof_inj (j := l) (l := j) (mem_range.1 hk) hi (by unfold dof; omega)).1
    simp only [unit, if_neg hne, zero_mul]
  · exact fun h => absurd (mem_range.2 hi) h

/-- The panel over the defect is free along its four edges. -/
theorem free_panel : (q.part x1u dn 4).shell.panel.xw = ⟨1, 1, 1, 1⟩ ∧
    (q.part x1u dn 4).shell.panel.yw = ⟨1, 1, 1, 1⟩ := ⟨rfl, rfl⟩

theorem start_ne {k : ℕ} (hk : k < 9) (h4 : k ≠ 4) {i : ℕ} (hi : i < 3 * q.m * q.n) :
    (q.assy x1u dn).start 4 + i < (q.assy x1u dn).start k ∨
      (q.assy x1u dn).start k + 3 * q.m * q.n ≤ (q.assy x1u dn).start 4 + i := by
  have e : ∀ k < 9, (q.assy x1u dn).start k = k * (3 * q.m * q.n) := by
    intro k hk
    induction k with
    | zero => simp [Assy.start, C40.start]
    | succ k ih =>
      have hB : ((q.assy x1u dn).part k).shell.pan.m = q.m ∧
          ((q.assy x1u dn).part k).shell.pan.n = q.n := by
        have : k < 8 := by omega
        interval_cases k <;> exact ⟨rfl, rfl⟩
      rw [Assy_start_succ (show k < 15 by omega), ih (by omega), hB.1, hB.2]
      ring
  rw [e k hk, e 4 (by decide)]
  rcases Nat.lt_or_gt_of_ne h4 with h | h
  · right
    have := Nat.mul_le_mul_right (3 * q.m * q.n) (show k + 1 ≤ 4 from h)
    linarith
  · left
    have := Nat.mul_le_mul_right (3 * q.m * q.n) (show 4 + 1 ≤ k from h)
    linarith

/-- A flat panel in a flow along `x`, with any rule exact for these functions: below the diagonal `kA` does
not hold the work of the pressure, already for two deflections of the panel over the defect. -/
theorem lower_violated (h : TBuilt E q 1 2 T lam) {Mc V rho : ℝ} (hf : Flight q Mc V rho)
    (hS : E.S = bardellShape ℝ) (hr : q.r = none) (hV : V ≠ 0) (hrho : rho ≠ 0)
    (hfl : q.flow = "x" ∨ q.flow = "X") (hn : 3 ≤ q.n)
    (hx : ∀ fl, C59.PartsExact E.S E.G (max (q.nx.getD (2 * q.m)) q.m) q.m fl)
    (hy : let N := max (q.ny.getD (2 * q.n)) q.n
      0 < ∑ g ∈ range N, E.G.wt N g * ((2 - 3 * E.G.pt N g + E.G.pt N g ^ 3) / 4
        * ((2 + 3 * E.G.pt N g - E.G.pt N g ^ 3) / 4)))
    (solve : Coo ℝ → (ℕ → ℝ) → Except Fail (ℕ → ℝ)) :
    ∃ k0 kM kG kA beta gamma r s,
      tstiffFlutter Real.sqrt E solve q false = .ok (q.assy 1 2, k0, none, kM, kG, kA) ∧
      C23.Follows Mc V rho 0 beta gamma ∧
      Coo.entry kA r s ≠ pressure E (q.assy 1 2) true beta gamma (unit r) (unit s) := by
  obtain ⟨k0, kM, kG, kA, kt, kr, beta, gamma, h1, -, -, -, -, h6, h7⟩ := flutter_partial h hf solve
  rw [hr] at h6
  have h6 : C23.Follows Mc V rho 0 beta gamma := h6
  have hgam : gamma = 0 := h6.2.2 rfl
  have hbeta : beta ≠ 0 := fun h0 => by
    have := h6.1
    rw [h0, zero_mul] at this
    exact mul_ne_zero hrho (pow_ne_zero 2 hV) this.symm
  have hm : 0 < q.m := h.terms.1
  set P := (q.part 1 2 4).shell.panel with hP
  have Pm : P.m = q.m := rfl
  have Pn : P.n = q.n := rfl
  set s0 := (q.assy 1 2).start 4 with hs0
  have hlt : ∀ j < 3, 3 * (j * q.m + 0) + 2 < 3 * q.m * q.n := fun j hj => by
    have h1 : q.m * 3 ≤ q.m * q.n := Nat.mul_le_mul_left _ hn
    have h2 : j * q.m ≤ 2 * q.m := Nat.mul_le_mul_right _ (by omega)
    rw [mul_assoc]
    omega
  obtain ⟨r, er⟩ : ∃ r, r = s0 + 3 * (2 * P.m + 0) + 2 := ⟨_, rfl⟩
  obtain ⟨s, es⟩ : ∃ s, s = s0 + 3 * (0 * P.m + 0) + 2 := ⟨_, rfl⟩
  refine ⟨k0, kM, kG, kA, beta, gamma, r, s, h1, h6, ?_⟩
  rw [h7, if_neg (by rw [er, es, Pm]; omega), show decide (lower q.flow = "x") = true from
    decide_eq_true (Verif.lower_x.2 hfl), below_x h hx]
  intro hc
  have hc := add_eq_left.1 hc
  rw [show (List.range 9) = [0, 1, 2, 3, 4, 5, 6, 7, 8] from rfl, hgam] at hc
  have hz : ∀ k < 9, k ≠ 4 → ∀ x y, u E.S (q.part 1 2 k).shell.panel ((q.assy 1 2).start k)
      (unit r) 2 x y = 0 := fun k hk h4 x y => by
    refine u_out _ _ ?_ x y
    have e : (q.part 1 2 k).shell.panel.m = q.m ∧ (q.part 1 2 k).shell.panel.n = q.n := by
      interval_cases k <;> exact ⟨rfl, rfl⟩
    rw [e.1, e.2, er, add_assoc]
    exact start_ne hk h4 (hlt 2 (by decide))
  have hz0 : ∀ k < 9, k ≠ 4 → C59.edgeX E.G (max (q.ny.getD (2 * q.n)) q.n) (q.part 1 2 k).shell.panel
      (fun x y => u E.S (q.part 1 2 k).shell.panel ((q.assy 1 2).start k) (unit r) 2 x y
        * u E.S (q.part 1 2 k).shell.panel ((q.assy 1 2).start k) (unit s) 2 x y) = 0 := fun k hk h4 => by
    unfold C59.edgeX
    refine sum_eq_zero fun g _ => ?_
    beta_reduce
    rw [hz k hk h4, hz k hk h4, zero_mul, zero_mul, sub_zero, mul_zero]
  simp only [List.map_cons, List.map_nil, List.sum_cons, List.sum_nil, mul_zero, zero_mul, sub_zero] at hc
  rw [hz0 0 (by decide) (by decide), hz0 1 (by decide) (by decide), hz0 2 (by decide) (by decide),
    hz0 3 (by decide) (by decide), hz0 5 (by decide) (by decide), hz0 6 (by decide) (by decide),
    hz0 7 (by decide) (by decide), hz0 8 (by decide) (by decide), ← hP, ← hs0] at hc
  simp only [mul_zero, zero_add, add_zero] at hc
  have hc := (mul_eq_zero.1 hc).resolve_left hbeta
  obtain ⟨s1, s2⟩ := h.dims.sides 1 2 (show 4 < 15 by decide)
  have Pa : P.a ≠ 0 := s1.ne'
  have Pb : P.b ≠ 0 := s2.ne'
  unfold C59.edgeX at hc
  have ur : ∀ x y, u E.S P s0 (unit r) 2 x y = E.S.f 0 (2 / P.a * x - 1) P.xw
      * E.S.f 2 (2 / P.b * y - 1) P.yw := fun x y => by
    rw [er]; exact u_unit E.S P s0 (by omega) (by omega) x y
  have us : ∀ x y, u E.S P s0 (unit s) 2 x y = E.S.f 0 (2 / P.a * x - 1) P.xw
      * E.S.f 0 (2 / P.b * y - 1) P.yw := fun x y => by
    rw [es]; exact u_unit E.S P s0 (by omega) (by omega) x y
  generalize max (q.ny.getD (2 * q.n)) q.n = N at hc hy
  simp only [ur, us] at hc
  simp only [hS, C59.f0, C59.f2] at hc
  have x1 : P.xw = ⟨1, 1, 1, 1⟩ := rfl
  have x2 : P.yw = ⟨1, 1, 1, 1⟩ := rfl
  have e2 : 2 / P.a * P.a - 1 = 1 := by field_simp; ring
  have e3 : 2 / P.a * 0 - 1 = -1 := by ring
  have e4 : ∀ t : ℝ, 2 / P.b * ((0 + P.b) / 2 + (P.b - 0) / 2 * t) - 1 = t := fun t => by
    field_simp; ring
  simp only [x1, x2, e2, e3, node, e4] at hc
  have hc : -(P.b / 2) * ∑ g ∈ range N, E.G.wt N g * ((2 - 3 * E.G.pt N g + E.G.pt N g ^ 3) / 4
      * ((2 + 3 * E.G.pt N g - E.G.pt N g ^ 3) / 4)) = 0 := by
    rw [mul_sum, ← hc]
    refine sum_congr rfl fun g _ => ?_
    ring
  rcases mul_eq_zero.1 hc with h0 | h0
  · exact Pb (by linarith)
  · exact hy.ne' h0

/-! ## A case -/

/-- Boole's rule, also in tables of more points. -/
noncomputable def rule : GaussTab ℝ where
  pt := C22.boole.pt
  wt := fun n g => if g < 5 then C22.boole.wt n g else 0

noncomputable def env : Env ℝ := { C40.env with G := rule }

/-- The panel of C66, flat, in a supersonic flow. -/
noncomputable def args : TArgs ℝ :=
  { C66.args with
    r := none
    m := 3
    n := 3
    Mach := some 2
    airSpeed := some 3
    rhoAir := some 1 }

theorem args_built (x1u : ℝ) (dn : ℕ) : ∃ T lam, TBuilt env args x1u dn T lam := by
  have hd : TDims args := by constructor <;> norm_num [args, C66.args]
  refine built_of (E := env) rfl rfl rfl hd (by norm_num [args, C66.args]) (by simp [args, C66.args])
    (by simp [args, C66.args]) (by simp [args, C66.args]) (by simp [args, C66.args]) (by decide)
    (by decide) (by decide) (by simp [args]) x1u dn

theorem args_flight : Flight args 2 3 1 := ⟨rfl, by norm_num, rfl, rfl, .inl rfl⟩

theorem f1 (x : ℝ) (fl : Flags ℝ) :
    (bardellShape ℝ).f 1 x fl = fl.r1 * ((1 - x - x ^ 2 + x ^ 3) / 8) := by
  simp only [bardellShape, flag, bardell, pev]
  push_cast
  ring

theorem fp1 (x : ℝ) (fl : Flags ℝ) :
    (bardellShape ℝ).fp 1 x fl = fl.r1 * ((-1 - 2 * x + 3 * x ^ 2) / 8) := by
  have : pder (bardell 1) = [-1/8, -1/4, 3/8] := by decide +kernel
  simp only [bardellShape, flag, this, pev]
  push_cast
  ring

theorem fp2 (x : ℝ) (fl : Flags ℝ) :
    (bardellShape ℝ).fp 2 x fl = fl.t2 * (3 * (1 - x ^ 2) / 4) := by
  have : pder (bardell 2) = [3/4, 0, -3/4] := by decide +kernel
  simp only [bardellShape, flag, this, pev]
  push_cast
  ring

theorem rule_parts (fl : Flags ℝ) : C59.PartsExact (bardellShape ℝ) rule 6 3 fl := by
  intro i k hi hk
  interval_cases i <;> interval_cases k <;>
    simp only [C59.f0, C59.fp0, f1, fp1, C59.f2, fp2, Finset.sum_range_succ, Finset.sum_range_zero, rule,
      C22.boole] <;> norm_num <;> ring

/-- The functions succeed, also with a static case, and the matrix is wrong below the diagonal. -/
example (solve : Coo ℝ → (ℕ → ℝ) → Except Fail (ℕ → ℝ)) (hs : ∀ k f, ∃ c, solve k f = .ok c) :
    (∃ A k0 f c kM kG kA, tstiffFlutter Real.sqrt env solve args true
      = .ok (A, k0, some (f, c), kM, kG, kA)) ∧
    ∃ k0 kM kG kA beta gamma r s,
      tstiffFlutter Real.sqrt env solve args false = .ok (args.assy 1 2, k0, none, kM, kG, kA) ∧
      C23.Follows 2 3 1 0 beta gamma ∧
      Coo.entry kA r s ≠ pressure env (args.assy 1 2) true beta gamma (unit r) (unit s) := by
  obtain ⟨T, lam, h⟩ := args_built 1 2
  constructor
  · obtain ⟨A, k0, f, kt, kr, -, -, -, -, h2⟩ := flutter_static_partial h args_flight solve
    obtain ⟨c, hc⟩ := hs k0 f
    obtain ⟨kM, kG, kA, beta, gamma, h3, -⟩ := h2 c hc
    exact ⟨A, k0, f, c, kM, kG, kA, h3⟩
  · refine lower_violated h args_flight rfl rfl (by norm_num) (by norm_num) (.inl rfl) (by decide)
      rule_parts ?_ solve
    show 0 < ∑ g ∈ range 6, _
    norm_num [Finset.sum_range_succ, env, rule, C22.boole]

/-- Without a Mach number, the default, nothing is computed. -/
example (solve : Coo ℝ → (ℕ → ℝ) → Except Fail (ℕ → ℝ)) :
    tstiffFlutter Real.sqrt C40.env solve C66.args false = .error (.raised .valueError) := by
  obtain ⟨T, lam, h⟩ := C66.args_built 1 2
  exact subsonic h (fun Mc hM => by cases hM) solve

end Verif.C69
