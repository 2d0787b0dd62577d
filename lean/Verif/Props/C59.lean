import Verif.Props.C22

/-!
# C59: the finalised aerodynamic matrix is the operator in both triangles

Above and on the diagonal it is (C22).  Below the diagonal `make_skew_symmetric` puts minus the
transposed entry.  This is the operator only if `gamma = 0` and the deflection vanishes on the two
edges crossed by the flow: `x_defect` gives the difference.
-/

namespace Verif.C59

open Spec Model Finset C22

/-- The `n`-point rule integrates the derivative of a product of two of the first `m` functions
exactly. -/
def PartsExact (S : Shape ℝ) (G : GaussTab ℝ) (n m : ℕ) (fl : Flags ℝ) : Prop :=
  ∀ i k, i < m → k < m →
    ∑ g ∈ range n, G.wt n g * (S.fp i (G.pt n g) fl * S.f k (G.pt n g) fl
        + S.f i (G.pt n g) fl * S.fp k (G.pt n g) fl)
      = S.f i 1 fl * S.f k 1 fl - S.f i (-1) fl * S.f k (-1) fl

theorem parts_sum {S : Shape ℝ} {G : GaussTab ℝ} {n m : ℕ} {fl : Flags ℝ} (h : PartsExact S G n m fl)
    (A B : ℕ → ℝ) :
    ∑ g ∈ range n, G.wt n g *
        ((∑ i ∈ range m, A i * S.fp i (G.pt n g) fl) * (∑ k ∈ range m, B k * S.f k (G.pt n g) fl)
          + (∑ i ∈ range m, A i * S.f i (G.pt n g) fl) *
            (∑ k ∈ range m, B k * S.fp k (G.pt n g) fl))
      = (∑ i ∈ range m, A i * S.f i 1 fl) * (∑ k ∈ range m, B k * S.f k 1 fl)
        - (∑ i ∈ range m, A i * S.f i (-1) fl) * (∑ k ∈ range m, B k * S.f k (-1) fl) := by
  have e : ∀ g, G.wt n g *
        ((∑ i ∈ range m, A i * S.fp i (G.pt n g) fl) * (∑ k ∈ range m, B k * S.f k (G.pt n g) fl)
          + (∑ i ∈ range m, A i * S.f i (G.pt n g) fl) *
            (∑ k ∈ range m, B k * S.fp k (G.pt n g) fl))
      = ∑ i ∈ range m, ∑ k ∈ range m, A i * B k *
          (G.wt n g * (S.fp i (G.pt n g) fl * S.f k (G.pt n g) fl
            + S.f i (G.pt n g) fl * S.fp k (G.pt n g) fl)) := by
    intro g
    rw [Finset.sum_mul_sum, Finset.sum_mul_sum, ← Finset.sum_add_distrib, Finset.mul_sum]
    refine sum_congr rfl fun i _ => ?_
    rw [← Finset.sum_add_distrib, Finset.mul_sum]
    refine sum_congr rfl fun k _ => ?_
    ring
  simp only [e]
  rw [Finset.sum_comm, Finset.sum_mul_sum, Finset.sum_mul_sum, ← Finset.sum_sub_distrib]
  refine sum_congr rfl fun i hi => ?_
  rw [Finset.sum_comm, ← Finset.sum_sub_distrib]
  refine sum_congr rfl fun k hk => ?_
  rw [← Finset.mul_sum, h i k (mem_range.1 hi) (mem_range.1 hk)]
  ring

/-- A rule that is exact for products of the functions and their derivatives is exact in this
sense. -/
theorem parts_of_exact {S : Shape ℝ} (hS : S.C2) {G : GaussTab ℝ} {n m : ℕ}
    (h : ∀ i k fl, i < m → k < m →
      ∑ g ∈ range n, G.wt n g * (S.fp i (G.pt n g) fl * S.f k (G.pt n g) fl)
        = ∫ x in (-1 : ℝ)..1, S.fp i x fl * S.f k x fl) (fl : Flags ℝ) : PartsExact S G n m fl := by
  intro i k hi hk
  have c0 : ∀ i, Continuous fun x => S.f i x fl := fun i =>
    continuous_iff_continuousAt.2 fun x => (hS.d1 i x fl).continuousAt
  have c1 : ∀ i, Continuous fun x => S.fp i x fl := fun i =>
    continuous_iff_continuousAt.2 fun x => (hS.d2 i x fl).continuousAt
  have e := intervalIntegral.integral_deriv_mul_eq_sub (a := (-1 : ℝ)) (b := 1)
    (fun x _ => hS.d1 i x fl) (fun x _ => hS.d1 k x fl)
    ((c1 i).intervalIntegrable _ _) ((c1 k).intervalIntegrable _ _)
  have e2 : ∫ x in (-1 : ℝ)..1, (S.fp i x fl * S.f k x fl + S.f i x fl * S.fp k x fl)
      = (∫ x in (-1 : ℝ)..1, S.fp i x fl * S.f k x fl)
        + ∫ x in (-1 : ℝ)..1, S.f i x fl * S.fp k x fl :=
    intervalIntegral.integral_add (((c1 i).mul (c0 k)).intervalIntegrable _ _)
      (((c0 i).mul (c1 k)).intervalIntegrable _ _)
  have e3 : ∀ x, S.f i x fl * S.fp k x fl = S.fp k x fl * S.f i x fl := fun x => mul_comm _ _
  rw [e2] at e
  simp only [mul_add, Finset.sum_add_distrib]
  rw [h i k fl hi hk]
  simp only [e3] at e ⊢
  rw [h k i fl hk hi, e]

section

variable {S : Shape ℝ} (hS : S.C2) {G : GaussTab ℝ} {P : Panel ℝ} (ha : P.a ≠ 0) (hb : P.b ≠ 0)
  (hP : FullDomain P)

/-- Jump of `g` between the edges `x = a` and `x = 0`, integrated along `y`. -/
noncomputable def edgeX (G : GaussTab ℝ) (ny : ℕ) (P : Panel ℝ) (g : ℝ → ℝ → ℝ) : ℝ :=
  ∑ q ∈ range ny, (G.wt ny q * (P.b / 2)) *
    (g P.a (node G ny 0 P.b q) - g 0 (node G ny 0 P.b q))

/-- Jump of `g` between the edges `y = b` and `y = 0`, integrated along `x`. -/
noncomputable def edgeY (G : GaussTab ℝ) (nx : ℕ) (P : Panel ℝ) (g : ℝ → ℝ → ℝ) : ℝ :=
  ∑ p ∈ range nx, (G.wt nx p * (P.a / 2)) *
    (g (node G nx 0 P.a p) P.b - g (node G nx 0 P.a p) 0)

include hS ha hb hP

/-- Integration by parts along `x`. -/
theorem parts_x {nx : ℕ} (ny : ℕ) (hx : PartsExact S G nx P.m P.xw) (s0 : ℕ) (d c : ℕ → ℝ) :
    (gaussP G nx ny P fun _ _ x y =>
        dx (u S P s0 d 2) x y * u S P s0 c 2 x y + u S P s0 d 2 x y * dx (u S P s0 c 2) x y)
      = edgeX G ny P fun x y => u S P s0 d 2 x y * u S P s0 c 2 x y := by
  simp only [u_dx hS, u_disp]
  rw [gaussP_full G nx ny P ha hb hP fun _ _ ξ η =>
    disp S P s0 d 2 1 0 ξ η * disp S P s0 c 2 0 0 ξ η
      + disp S P s0 d 2 0 0 ξ η * disp S P s0 c 2 1 0 ξ η]
  unfold edgeX
  rw [Finset.sum_comm, Finset.mul_sum]
  refine sum_congr rfl fun q _ => ?_
  have e1 : 2 / P.b * node G ny 0 P.b q - 1 = G.pt ny q := by
    unfold node; field_simp; ring
  have e2 : 2 / P.a * P.a - 1 = 1 := by field_simp; ring
  have e3 : 2 / P.a * 0 - 1 = -1 := by ring
  beta_reduce
  rw [e1, e2, e3]
  have hD : ∀ (c : ℕ → ℝ) (p : ℕ) (ξ : ℝ), disp S P s0 c 2 p 0 ξ (G.pt ny q)
      = (2 / P.a) ^ p * ∑ i ∈ range P.m, (∑ j ∈ range P.n, c (s0 + dof P.m i j + 2)
          * S.f j (G.pt ny q) P.yw) * S.D p i ξ P.xw := by
    intro c p ξ
    rw [Aero.disp_w, Finset.mul_sum]
    refine sum_congr rfl fun i _ => ?_
    rw [Finset.sum_mul, Finset.mul_sum]
    refine sum_congr rfl fun j _ => ?_
    simp only [Shape.D, pow_zero, mul_one]
    ring
  simp only [hD, Shape.D, pow_zero, pow_one, one_mul]
  rw [← parts_sum hx, Finset.mul_sum, Finset.mul_sum]
  refine sum_congr rfl fun p _ => ?_
  field_simp
  ring

/-- Integration by parts along `y`. -/
theorem parts_y (nx : ℕ) {ny : ℕ} (hy : PartsExact S G ny P.n P.yw) (s0 : ℕ) (d c : ℕ → ℝ) :
    (gaussP G nx ny P fun _ _ x y =>
        dy (u S P s0 d 2) x y * u S P s0 c 2 x y + u S P s0 d 2 x y * dy (u S P s0 c 2) x y)
      = edgeY G nx P fun x y => u S P s0 d 2 x y * u S P s0 c 2 x y := by
  simp only [u_dy hS, u_disp]
  rw [gaussP_full G nx ny P ha hb hP fun _ _ ξ η =>
    disp S P s0 d 2 0 1 ξ η * disp S P s0 c 2 0 0 ξ η
      + disp S P s0 d 2 0 0 ξ η * disp S P s0 c 2 0 1 ξ η]
  unfold edgeY
  rw [Finset.mul_sum]
  refine sum_congr rfl fun p _ => ?_
  have e1 : 2 / P.a * node G nx 0 P.a p - 1 = G.pt nx p := by
    unfold node; field_simp; ring
  have e2 : 2 / P.b * P.b - 1 = 1 := by field_simp; ring
  have e3 : 2 / P.b * 0 - 1 = -1 := by ring
  beta_reduce
  rw [e1, e2, e3]
  have hD : ∀ (c : ℕ → ℝ) (q : ℕ) (η : ℝ), disp S P s0 c 2 0 q (G.pt nx p) η
      = (2 / P.b) ^ q * ∑ j ∈ range P.n, (∑ i ∈ range P.m, c (s0 + dof P.m i j + 2)
          * S.f i (G.pt nx p) P.xw) * S.D q j η P.yw := by
    intro c q η
    rw [Aero.disp_w, Finset.mul_sum, Finset.sum_comm]
    refine sum_congr rfl fun j _ => ?_
    rw [Finset.sum_mul, Finset.mul_sum]
    refine sum_congr rfl fun i _ => ?_
    simp only [Shape.D, pow_zero, one_mul]
    ring
  simp only [hD, Shape.D, pow_zero, pow_one, one_mul]
  rw [← parts_sum hy, Finset.mul_sum, Finset.mul_sum]
  refine sum_congr rfl fun q _ => ?_
  field_simp
  ring

end

/-- Deflection of unknown number `r`. -/
noncomputable def w (E : Env ℝ) (s : Shell ℝ) (s0 r : ℕ) : ℝ → ℝ → ℝ := u E.S s.panel s0 (unit r) 2

theorem coeff_x {E : Env ℝ} (hS : E.S.C2) {s : Shell ℝ} (ha : s.panel.a ≠ 0) (hb : s.panel.b ≠ 0)
    (hP : FullDomain s.panel) (hx : PartsExact E.S E.G s.nx s.panel.m s.panel.xw) (beta gamma : ℝ)
    (s0 r q : ℕ) :
    coeff E s true beta gamma s0 s0 r q + coeff E s true beta gamma s0 s0 q r
      = - beta * edgeX E.G s.ny s.panel (fun x y => w E s s0 r x y * w E s s0 q x y)
        + 2 * gamma * gaussP E.G s.nx s.ny s.panel (fun _ _ x y => w E s s0 r x y * w E s s0 q x y)
        := by
  rw [show (fun x y => w E s s0 r x y * w E s s0 q x y)
    = fun x y => u E.S s.panel s0 (unit r) 2 x y * u E.S s.panel s0 (unit q) 2 x y from rfl,
    ← parts_x hS ha hb hP s.ny hx s0 (unit r) (unit q)]
  unfold coeff
  simp only [if_true]
  rw [← gaussP_smul, ← gaussP_smul, ← gaussP_add, ← gaussP_add]
  congr 1
  funext _ _ x y
  simp only [pistonX]
  ring

theorem coeff_y {E : Env ℝ} (hS : E.S.C2) {s : Shell ℝ} (ha : s.panel.a ≠ 0) (hb : s.panel.b ≠ 0)
    (hP : FullDomain s.panel) (hy : PartsExact E.S E.G s.ny s.panel.n s.panel.yw) (beta gamma : ℝ)
    (s0 r q : ℕ) :
    coeff E s false beta gamma s0 s0 r q + coeff E s false beta gamma s0 s0 q r
      = - beta * edgeY E.G s.nx s.panel (fun x y => w E s s0 r x y * w E s s0 q x y) := by
  rw [show (fun x y => w E s s0 r x y * w E s s0 q x y)
    = fun x y => u E.S s.panel s0 (unit r) 2 x y * u E.S s.panel s0 (unit q) 2 x y from rfl,
    ← parts_y hS ha hb hP s.nx hy s0 (unit r) (unit q)]
  unfold coeff
  simp only [Bool.false_eq_true, if_false]
  rw [← gaussP_smul, ← gaussP_add]
  congr 1
  funext _ _ x y
  simp only [pistonY]
  ring

/-- Flow along `x`: what the entries below the diagonal are. -/
theorem x_defect {root : ℝ → ℝ} {E : Env ℝ} (hS : E.S.C2) {s s' : Shell ℝ} (ha : s.pan.a ≠ 0)
    (hb : s.pan.b ≠ 0) {size : SizeArg} {s0 : ℕ} {L : Coo ℝ} (hf : lower s.flow = "x")
    (h : s.calcKA root E size s0 s0 true = .ok (L, s')) (hP : FullDomain s'.panel)
    (hx : PartsExact E.S E.G s'.nx s'.panel.m s'.panel.xw) :
    ∃ beta gamma, s'.beta = some beta ∧ s'.gamma = some gamma ∧
      ∀ r q, Coo.entry L r q = coeff E s' true beta gamma s0 s0 r q +
        if r ≤ q then 0 else
          beta * edgeX E.G s'.ny s'.panel (fun x y => w E s' s0 r x y * w E s' s0 q x y)
            - 2 * gamma * gaussP E.G s'.nx s'.ny s'.panel
                fun _ _ x y => w E s' s0 r x y * w E s' s0 q x y := by
  obtain ⟨b, g, h1, h2, h3⟩ := finalised hS ha hb h
  refine ⟨b, g, h1, h2, fun r q => ?_⟩
  obtain ⟨k, b', g', M, L0, -, -, -, -, -, e⟩ := calcKA_ok.1 h
  have ha' : s'.panel.a ≠ 0 := by rw [e]; exact ha
  have hb' : s'.panel.b ≠ 0 := by rw [e]; exact hb
  rw [h3, decide_eq_true hf]
  split
  · rw [add_zero]
  · linear_combination (-1 : ℝ) * coeff_x hS ha' hb' hP hx b g s0 r q

/-- Flow along `y`. -/
theorem y_defect {root : ℝ → ℝ} {E : Env ℝ} (hS : E.S.C2) {s s' : Shell ℝ} (ha : s.pan.a ≠ 0)
    (hb : s.pan.b ≠ 0) {size : SizeArg} {s0 : ℕ} {L : Coo ℝ} (hf : lower s.flow = "y")
    (h : s.calcKA root E size s0 s0 true = .ok (L, s')) (hP : FullDomain s'.panel)
    (hy : PartsExact E.S E.G s'.ny s'.panel.n s'.panel.yw) :
    ∃ beta gamma, s'.beta = some beta ∧ s'.gamma = some gamma ∧
      ∀ r q, Coo.entry L r q = coeff E s' false beta gamma s0 s0 r q +
        if r ≤ q then 0 else
          beta * edgeY E.G s'.nx s'.panel (fun x y => w E s' s0 r x y * w E s' s0 q x y) := by
  obtain ⟨b, g, h1, h2, h3⟩ := finalised hS ha hb h
  refine ⟨b, g, h1, h2, fun r q => ?_⟩
  obtain ⟨k, b', g', M, L0, -, -, -, -, -, e⟩ := calcKA_ok.1 h
  have ha' : s'.panel.a ≠ 0 := by rw [e]; exact ha
  have hb' : s'.panel.b ≠ 0 := by rw [e]; exact hb
  have hn : ¬ lower s.flow = "x" := by rw [hf]; decide
  rw [h3, decide_eq_false hn]
  split
  · rw [add_zero]
  · linear_combination (-1 : ℝ) * coeff_y hS ha' hb' hP hy b g s0 r q

/-- Without curvature term and with the edges crossed by the flow supported, both triangles hold the
operator.  Missing for the full claim: it fails without these conditions (`gamma_violated`,
`edge_violated`). -/
theorem full_x_partial {root : ℝ → ℝ} {E : Env ℝ} (hS : E.S.C2) {s s' : Shell ℝ} (ha : s.pan.a ≠ 0)
    (hb : s.pan.b ≠ 0) {size : SizeArg} {s0 : ℕ} {L : Coo ℝ} (hf : lower s.flow = "x")
    (h : s.calcKA root E size s0 s0 true = .ok (L, s')) (hP : FullDomain s'.panel)
    (hx : PartsExact E.S E.G s'.nx s'.panel.m s'.panel.xw) (hg : s'.gamma = some 0)
    (hw : ∀ r y, w E s' s0 r 0 y = 0 ∧ w E s' s0 r s'.panel.a y = 0) :
    ∃ beta, s'.beta = some beta ∧
      ∀ r q, Coo.entry L r q = coeff E s' true beta 0 s0 s0 r q := by
  obtain ⟨b, g, h1, h2, h3⟩ := x_defect hS ha hb hf h hP hx
  rw [hg] at h2
  cases h2
  refine ⟨b, h1, fun r q => ?_⟩
  rw [h3]
  simp [edgeX, (hw _ _).1, (hw _ _).2]

/-- Flow along `y`. -/
theorem full_y_partial {root : ℝ → ℝ} {E : Env ℝ} (hS : E.S.C2) {s s' : Shell ℝ} (ha : s.pan.a ≠ 0)
    (hb : s.pan.b ≠ 0) {size : SizeArg} {s0 : ℕ} {L : Coo ℝ} (hf : lower s.flow = "y")
    (h : s.calcKA root E size s0 s0 true = .ok (L, s')) (hP : FullDomain s'.panel)
    (hy : PartsExact E.S E.G s'.ny s'.panel.n s'.panel.yw)
    (hw : ∀ r x, w E s' s0 r x 0 = 0 ∧ w E s' s0 r x s'.panel.b = 0) :
    ∃ beta gamma, s'.beta = some beta ∧
      ∀ r q, Coo.entry L r q = coeff E s' false beta gamma s0 s0 r q := by
  obtain ⟨b, g, h1, h2, h3⟩ := y_defect hS ha hb hf h hP hy
  refine ⟨b, g, h1, fun r q => ?_⟩
  rw [h3]
  simp [edgeY, (hw _ _).1, (hw _ _).2]

/-! ## Concrete cases -/

/-- Clamped along the edges `x = 0` and `x = a`, free along the others; in the flow of C23. -/
noncomputable def clamped : Shell ℝ :=
  { C23.panel with
    pan := { Witness.panel with m := 5, n := 3, xw := ⟨0, 0, 0, 0⟩, yw := ⟨1, 1, 1, 1⟩ }
    nx := 5
    ny := 5 }

/-- The same panel, curved. -/
noncomputable def curved : Shell ℝ :=
  { clamped with
    model := some "cylshell_clpt_donnell_bardell"
    r := some 2 }

/-- A panel whose leading edge is free. -/
noncomputable def free : Shell ℝ :=
  { clamped with
    pan := { Witness.panel with m := 1, n := 3, xw := ⟨1, 0, 0, 0⟩, yw := ⟨1, 1, 1, 1⟩ } }

theorem after {root : ℝ → ℝ} {E : Env ℝ} {s s' : Shell ℝ} {size : SizeArg} {r0 c0 : ℕ} {fi : Bool}
    {L : Coo ℝ} (h : s.calcKA root E size r0 c0 fi = .ok (L, s')) :
    s'.panel = s.fixR.panel ∧ s'.nx = s.nx ∧ s'.ny = s.ny := by
  obtain ⟨k, b', g', M, L0, -, -, -, -, -, rfl⟩ := calcKA_ok.1 h
  exact ⟨rfl, rfl, rfl⟩

theorem f4 (x : ℝ) (fl : Flags ℝ) : (bardellShape ℝ).f 4 x fl = (1 - x ^ 2) ^ 2 / 8 := by
  have : bardell 4 = [1/8, 0, -1/4, 0, 1/8] := by decide +kernel
  simp only [bardellShape, flag, this, pev]
  push_cast
  ring

theorem fp4 (x : ℝ) (fl : Flags ℝ) : (bardellShape ℝ).fp 4 x fl = - (x * (1 - x ^ 2) / 2) := by
  have : pder (bardell 4) = [0, -1/2, 0, 1/2] := by decide +kernel
  simp only [bardellShape, flag, this, pev]
  push_cast
  ring

theorem f0 (x : ℝ) (fl : Flags ℝ) : (bardellShape ℝ).f 0 x fl = fl.t1 * ((2 - 3 * x + x ^ 3) / 4) := by
  simp only [bardellShape, flag, bardell, pev]
  push_cast
  ring

theorem fp0 (x : ℝ) (fl : Flags ℝ) : (bardellShape ℝ).fp 0 x fl = fl.t1 * (3 * (x ^ 2 - 1) / 4) := by
  have : pder (bardell 0) = [-3/4, 0, 3/4] := by decide +kernel
  simp only [bardellShape, flag, this, pev]
  push_cast
  ring

theorem f2 (x : ℝ) (fl : Flags ℝ) : (bardellShape ℝ).f 2 x fl = fl.t2 * ((2 + 3 * x - x ^ 3) / 4) := by
  simp only [bardellShape, flag, bardell, pev]
  push_cast
  ring

theorem lowZero {i : ℕ} (hi : i < 4) (x : ℝ) : (bardellShape ℝ).f i x ⟨0, 0, 0, 0⟩ = 0 ∧
    (bardellShape ℝ).fp i x ⟨0, 0, 0, 0⟩ = 0 := by
  interval_cases i <;> simp [bardellShape, flag]

theorem clamped_parts : PartsExact (bardellShape ℝ) boole 5 5 ⟨0, 0, 0, 0⟩ := by
  intro i k hi hk
  by_cases h1 : i < 4
  · simp [(lowZero h1 _).1, (lowZero h1 _).2]
  · by_cases h2 : k < 4
    · simp [(lowZero h2 _).1, (lowZero h2 _).2]
    · obtain rfl : i = 4 := by omega
      obtain rfl : k = 4 := by omega
      simp only [f4, fp4, Finset.sum_range_succ, Finset.sum_range_zero, boole]
      norm_num

theorem free_parts : PartsExact (bardellShape ℝ) boole 5 1 ⟨1, 0, 0, 0⟩ := by
  intro i k hi hk
  obtain rfl : i = 0 := by omega
  obtain rfl : k = 0 := by omega
  simp only [f0, fp0, Finset.sum_range_succ, Finset.sum_range_zero, boole]
  norm_num

theorem clamped_ok : ∃ L s', clamped.calcKA Real.sqrt env .none 0 0 = .ok (L, s') :=
  C23.exists_call true (k := .plate) rfl rfl (by norm_num) rfl rfl (.inl rfl)
    (by constructor <;> simp [SizeArg.value])

theorem curved_ok : ∃ L s', curved.calcKA Real.sqrt env .none 0 0 = .ok (L, s') :=
  C23.exists_call true (k := .cyl) rfl rfl (by norm_num) rfl rfl (.inl rfl)
    (by constructor <;> simp [SizeArg.value])

theorem free_ok : ∃ L s', free.calcKA Real.sqrt env .none 0 0 = .ok (L, s') :=
  C23.exists_call true (k := .plate) rfl rfl (by norm_num) rfl rfl (.inl rfl)
    (by constructor <;> simp [SizeArg.value])

/-- Deflections of a panel clamped along `x = 0`, `x = a` vanish there. -/
theorem clamped_edges (P : Panel ℝ) (ha : P.a ≠ 0) (hm : P.m = 5) (hx : P.xw = ⟨0, 0, 0, 0⟩) (s0 : ℕ)
    (c : ℕ → ℝ) (y : ℝ) : u (bardellShape ℝ) P s0 c 2 0 y = 0 ∧
      u (bardellShape ℝ) P s0 c 2 P.a y = 0 := by
  have e2 : 2 / P.a * P.a - 1 = 1 := by field_simp; ring
  have e3 : 2 / P.a * 0 - 1 = -1 := by ring
  have hz : ∀ i, i < 5 → ∀ ξ : ℝ, ξ = 1 ∨ ξ = -1 → (bardellShape ℝ).f i ξ ⟨0, 0, 0, 0⟩ = 0 := by
    intro i hi ξ hξ
    by_cases h : i < 4
    · exact (lowZero h ξ).1
    · obtain rfl : i = 4 := by omega
      rw [f4]
      rcases hξ with rfl | rfl <;> norm_num
  have hf : P.xf 2 = ⟨0, 0, 0, 0⟩ := hx
  unfold u
  rw [e2, e3, hf, hm]
  constructor
  · refine sum_eq_zero fun i hi => sum_eq_zero fun j _ => ?_
    rw [hz i (mem_range.1 hi) _ (.inr rfl)]; ring
  · refine sum_eq_zero fun i hi => sum_eq_zero fun j _ => ?_
    rw [hz i (mem_range.1 hi) _ (.inl rfl)]; ring

/-- The hypotheses of `full_x_partial` are met by `clamped`. -/
example : ∃ L s', clamped.calcKA Real.sqrt env .none 0 0 = .ok (L, s') ∧
    ∃ beta, s'.beta = some beta ∧ ∀ r q, Coo.entry L r q = coeff env s' true beta 0 0 0 r q := by
  obtain ⟨L, s', h⟩ := clamped_ok
  obtain ⟨h1, h2, h3⟩ := after h
  refine ⟨L, s', h, full_x_partial env_C2 (by norm_num [clamped, C23.panel, Witness.panel])
    (by norm_num [clamped, C23.panel, Witness.panel]) (lower_x.2 (.inl rfl)) h ?_ ?_ ?_ fun r y => ?_⟩
  · rw [h1]
    constructor <;> simp [xdom, ydom, Shell.panel, Shell.fixR, clamped, Witness.panel]
  · rw [h1, h2]
    exact clamped_parts
  · obtain ⟨M, V, rho, b, g, -, -, -, -, -, hg, hf, -⟩ := C23.first_call rfl h
    rw [hg, hf.2.2 rfl]
  · unfold w
    rw [h1]
    exact clamped_edges _ (by norm_num [Shell.panel, Shell.fixR, clamped, Witness.panel]) rfl rfl _ _ _

/-- A curved panel: the entries below the diagonal are not those of the operator, the curvature term
has the wrong sign there. -/
theorem gamma_violated : ∃ L s' beta gamma, curved.calcKA Real.sqrt env .none 0 0 = .ok (L, s') ∧
    s'.beta = some beta ∧ s'.gamma = some gamma ∧
    Coo.entry L 44 14 ≠ coeff env s' true beta gamma 0 0 44 14 := by
  obtain ⟨L, s', h⟩ := curved_ok
  obtain ⟨h1, h2, h3⟩ := after h
  have hP : FullDomain s'.panel := by
    rw [h1]
    constructor <;> simp [xdom, ydom, Shell.panel, Shell.fixR, curved, clamped, Witness.panel]
  obtain ⟨b, g, hb, hg, he⟩ := x_defect env_C2
    (by norm_num [curved, clamped, C23.panel, Witness.panel])
    (by norm_num [curved, clamped, C23.panel, Witness.panel]) (lower_x.2 (.inl rfl)) h hP (by
      rw [h1, h2]; exact clamped_parts)
  refine ⟨L, s', b, g, h, hb, hg, ?_⟩
  have hg0 : g ≠ 0 := by
    obtain ⟨M, V, rho, b', g', hM, hV, hr, h1M, hb', hg', hf, -⟩ := C23.first_call rfl h
    rw [hg] at hg'
    cases hg'
    cases hV
    cases hr
    intro h0
    have e1 := hf.2.1 (by norm_num [curved])
    rw [h0, mul_zero] at e1
    have e2 := hf.1
    rw [← e1] at e2
    norm_num at e2
  have hedge : edgeX env.G s'.ny s'.panel (fun x y => w env s' 0 44 x y * w env s' 0 14 x y) = 0 := by
    unfold edgeX w
    refine sum_eq_zero fun q _ => ?_
    have := fun c y => clamped_edges s'.panel (by
      rw [h1]; norm_num [Shell.panel, Shell.fixR, curved, clamped, Witness.panel])
      (by rw [h1]; rfl) (by rw [h1]; rfl) 0 c y
    beta_reduce
    rw [show env.S = bardellShape ℝ from rfl, (this _ _).1, (this _ _).2]
    ring
  have hmass : gaussP env.G s'.nx s'.ny s'.panel
      (fun _ _ x y => w env s' 0 44 x y * w env s' 0 14 x y) ≠ 0 := by
    unfold w
    simp only [u_disp]
    rw [gaussP_full _ _ _ _ (by
        rw [h1]; norm_num [Shell.panel, Shell.fixR, curved, clamped, Witness.panel])
      (by rw [h1]; norm_num [Shell.panel, Shell.fixR, curved, clamped, Witness.panel]) hP
      fun _ _ ξ η => disp env.S s'.panel 0 (unit 44) 2 0 0 ξ η
        * disp env.S s'.panel 0 (unit 14) 2 0 0 ξ η]
    have e44 : ∀ ξ η, disp env.S s'.panel 0 (unit 44) 2 0 0 ξ η
        = (1 - ξ ^ 2) ^ 2 / 8 * ((2 + 3 * η - η ^ 3) / 4) := by
      intro ξ η
      rw [h1]
      simp [disp, unit, Finset.sum_range_succ, Shell.panel, Shell.fixR, curved, clamped,
        Witness.panel, Shape.D, Panel.xf, Panel.yf, env, C40.env, f4, f2]
    have e14 : ∀ ξ η, disp env.S s'.panel 0 (unit 14) 2 0 0 ξ η
        = (1 - ξ ^ 2) ^ 2 / 8 * ((2 - 3 * η + η ^ 3) / 4) := by
      intro ξ η
      rw [h1]
      simp [disp, unit, Finset.sum_range_succ, Shell.panel, Shell.fixR, curved, clamped,
        Witness.panel, Shape.D, Panel.xf, Panel.yf, env, C40.env, f4, f0]
    simp only [e44, e14]
    rw [h1, h2, h3]
    norm_num [Finset.sum_range_succ, Shell.panel, Shell.fixR, curved, clamped, Witness.panel, env,
      boole]
  rw [he, if_neg (by norm_num), hedge]
  intro hc
  have : g * gaussP env.G s'.nx s'.ny s'.panel
      (fun _ _ x y => w env s' 0 44 x y * w env s' 0 14 x y) = 0 := by linarith
  rcases mul_eq_zero.1 this with h | h
  · exact hg0 h
  · exact hmass h

/-- A flat panel with a free leading edge: the entries below the diagonal lack the flux through this
edge. -/
theorem edge_violated : ∃ L s' beta, free.calcKA Real.sqrt env .none 0 0 = .ok (L, s') ∧
    s'.beta = some beta ∧ s'.gamma = some 0 ∧
    Coo.entry L 8 2 ≠ coeff env s' true beta 0 0 0 8 2 := by
  obtain ⟨L, s', h⟩ := free_ok
  obtain ⟨h1, h2, h3⟩ := after h
  have hP : FullDomain s'.panel := by
    rw [h1]
    constructor <;> simp [xdom, ydom, Shell.panel, Shell.fixR, free, clamped, Witness.panel]
  obtain ⟨b, g, hb, hg, he⟩ := x_defect env_C2
    (by norm_num [free, clamped, C23.panel, Witness.panel])
    (by norm_num [free, clamped, C23.panel, Witness.panel]) (lower_x.2 (.inl rfl)) h hP (by
      rw [h1, h2]; exact free_parts)
  obtain ⟨M, V, rho, b', g', hM, hV, hr, h1M, hb', hg', hf, -⟩ := C23.first_call rfl h
  rw [hb] at hb'
  cases hb'
  rw [hg] at hg'
  cases hg'
  have hg0 : g = 0 := hf.2.2 rfl
  subst hg0
  refine ⟨L, s', b, h, hb, hg, ?_⟩
  have hb0 : b ≠ 0 := by
    intro h0
    cases hV
    cases hr
    have e2 := hf.1
    rw [h0] at e2
    norm_num at e2
  have hedge : edgeX env.G s'.ny s'.panel (fun x y => w env s' 0 8 x y * w env s' 0 2 x y) ≠ 0 := by
    unfold edgeX w
    have e8 : ∀ x y, u env.S s'.panel 0 (unit 8) 2 x y
        = (2 - 3 * (2 / 3 * x - 1) + (2 / 3 * x - 1) ^ 3) / 4
          * ((2 + 3 * (2 * y - 1) - (2 * y - 1) ^ 3) / 4) := by
      intro x y
      rw [h1]
      simp [u, unit, Finset.sum_range_succ, Shell.panel, Shell.fixR, free, clamped,
        Witness.panel, Panel.xf, Panel.yf, env, C40.env, f0, f2]
    have e2 : ∀ x y, u env.S s'.panel 0 (unit 2) 2 x y
        = (2 - 3 * (2 / 3 * x - 1) + (2 / 3 * x - 1) ^ 3) / 4
          * ((2 - 3 * (2 * y - 1) + (2 * y - 1) ^ 3) / 4) := by
      intro x y
      rw [h1]
      simp [u, unit, Finset.sum_range_succ, Shell.panel, Shell.fixR, free, clamped,
        Witness.panel, Panel.xf, Panel.yf, env, C40.env, f0]
    simp only [e8, e2]
    rw [h1, h3]
    norm_num [Finset.sum_range_succ, Shell.panel, Shell.fixR, free, clamped, Witness.panel, env,
      boole, node]
  rw [he, if_neg (by norm_num)]
  intro hc
  have : b * edgeX env.G s'.ny s'.panel (fun x y => w env s' 0 8 x y * w env s' 0 2 x y) = 0 := by
    linarith
  rcases mul_eq_zero.1 this with h | h
  · exact hb0 h
  · exact hedge h

end Verif.C59
