import Verif.Proofs.AeroMean
import Verif.Proofs.GeoMass
import Verif.Props.C22
import Verif.Props.C59

/-!
# C68: the closed-form aerodynamic matrices

`fkAx`, `fkAy` and `fcA` of the two models hold the upper triangle of the piston-theory operator,
integrated exactly over the panel.  With the curvature term this is false: the plate drops it, the
cylinder has it with the sign opposite to `fkAx_num` (`gamma_violated`).
-/

namespace Verif.C68

open Spec Model Finset C22

/-- Integral over the panel. -/
noncomputable def over (P : Panel ℝ) (g : ℝ → ℝ → ℝ) : ℝ :=
  ∫ x in (0 : ℝ)..P.a, ∫ y in (0 : ℝ)..P.b, g x y

section
variable {I : Tab ℝ} {S : Shape ℝ} (hI : I.Exact S Mean.integral) (hS : S.C2) (P : Panel ℝ)
  (ha : P.a ≠ 0) (hb : P.b ≠ 0)

include hI hS ha hb

/-- Flow along `x`.  Full claim: both closed forms are `pistonX beta gamma`.  Proved part: the plate
is the operator without the curvature term, the cylinder the operator with the opposite one.  Missing
part: false for `gamma ≠ 0`, see `gamma_violated`. -/
theorem flow_x_partial (beta gamma : ℝ) (row0 col0 : ℕ) {d c : ℕ → ℝ} (h : Ordered d c) :
    Coo.bilin (plateFkAx I P beta row0 col0) d c
      = over P (pistonX beta 0 (u S P row0 d 2) (u S P col0 c 2)) ∧
    Coo.bilin (cylFkAx I P beta gamma row0 col0) d c
      = over P (pistonX beta (-gamma) (u S P row0 d 2) (u S P col0 c 2)) := by
  have key : ∀ g v, (∀ i k j l, v i k j l 2 2 = P.a * P.b / 4 * ∑ s ∈ range 2,
      (if s = 0 then g else - beta) * ((2 / P.a) ^ s * (2 / P.b) ^ 0) *
      (Mean.integral.L (fun ξ => S.D s i ξ P.xw * S.D 0 k ξ P.xw)
        * Mean.integral.L fun η => S.D 0 j η P.yw * S.D 0 l η P.yw)) →
      Coo.bilin (symBuild row0 col0 P.m P.n [(2, 2)] v) d c
        = over P (pistonX beta g (u S P row0 d 2) (u S P col0 c 2)) := by
    intro g v hv
    rw [bilin_mean22 hS.inMean P row0 col0 2 (P.a * P.b / 4) (fun s => if s = 0 then g else - beta)
      (fun s => s) (fun _ => 0) v hv d c h, ← integral_rect P.a P.b ha hb, over]
    congr 1; funext x; congr 1; funext y
    simp only [pistonX, u_dx hS, u_disp, Finset.sum_range_succ, Finset.sum_range_zero]
    norm_num
    ring
  have e0 : ∀ i k j l, I.ff i k P.xw P.xw = Mean.integral.L (fun ξ => S.D 0 i ξ P.xw * S.D 0 k ξ P.xw) ∧
      I.ff j l P.yw P.yw = Mean.integral.L (fun ξ => S.D 0 j ξ P.yw * S.D 0 l ξ P.yw) ∧
      I.ffp k i P.xw P.xw = Mean.integral.L (fun ξ => S.D 1 i ξ P.xw * S.D 0 k ξ P.xw) := by
    intro i k j l
    refine ⟨hI.ff .., hI.ff .., ?_⟩
    rw [hI.ffp]
    congr 1
    funext ξ
    exact mul_comm _ _
  constructor
  · rw [plateFkAx, Coo.bilin_pad]
    refine key 0 _ fun i k j l => ?_
    obtain ⟨h1, h2, h3⟩ := e0 i k j l
    simp only [Gen.PlateAna.fkAx, Gen.PlateAna.fkAx_22, h2, h3, Finset.sum_range_succ,
      Finset.sum_range_zero]
    field_simp
    norm_num
    ring
  · rw [cylFkAx, Coo.bilin_pad]
    refine key (-gamma) _ fun i k j l => ?_
    obtain ⟨h1, h2, h3⟩ := e0 i k j l
    simp only [Gen.CylAna.fkAx, Gen.CylAna.fkAx_22, h1, h2, h3, Finset.sum_range_succ,
      Finset.sum_range_zero]
    field_simp
    norm_num
    ring

/-- Flow along `y`, plate and cylinder. -/
theorem flow_y (beta : ℝ) (row0 col0 : ℕ) {d c : ℕ → ℝ} (h : Ordered d c) :
    Coo.bilin (plateFkAy I P beta row0 col0) d c
      = over P (pistonY beta (u S P row0 d 2) (u S P col0 c 2)) ∧
    Coo.bilin (cylFkAy I P beta row0 col0) d c
      = over P (pistonY beta (u S P row0 d 2) (u S P col0 c 2)) := by
  have key : ∀ v, (∀ i k j l, v i k j l 2 2 = P.a * P.b / 4 * ∑ s ∈ range 1,
      (- beta) * ((2 / P.a) ^ 0 * (2 / P.b) ^ 1) *
      (Mean.integral.L (fun ξ => S.D 0 i ξ P.xw * S.D 0 k ξ P.xw)
        * Mean.integral.L fun η => S.D 1 j η P.yw * S.D 0 l η P.yw)) →
      Coo.bilin (symBuild row0 col0 P.m P.n [(2, 2)] v) d c
        = over P (pistonY beta (u S P row0 d 2) (u S P col0 c 2)) := by
    intro v hv
    rw [bilin_mean22 hS.inMean P row0 col0 1 (P.a * P.b / 4) (fun _ => - beta)
      (fun _ => 0) (fun _ => 1) v hv d c h, ← integral_rect P.a P.b ha hb, over]
    congr 1; funext x; congr 1; funext y
    simp only [pistonY, u_dy hS, u_disp, Finset.sum_range_one]
  have e0 : ∀ i k j l, I.ff i k P.xw P.xw = Mean.integral.L (fun ξ => S.D 0 i ξ P.xw * S.D 0 k ξ P.xw) ∧
      I.ffp l j P.yw P.yw = Mean.integral.L (fun ξ => S.D 1 j ξ P.yw * S.D 0 l ξ P.yw) := by
    intro i k j l
    refine ⟨hI.ff .., ?_⟩
    rw [hI.ffp]
    congr 1
    funext ξ
    exact mul_comm _ _
  constructor
  · rw [plateFkAy, Coo.bilin_pad]
    refine key _ fun i k j l => ?_
    obtain ⟨h1, h2⟩ := e0 i k j l
    simp only [Gen.PlateAna.fkAy, Gen.PlateAna.fkAy_22, h1, h2, Finset.sum_range_one]
    field_simp
    norm_num
    ring
  · rw [cylFkAy, Coo.bilin_pad]
    refine key _ fun i k j l => ?_
    obtain ⟨h1, h2⟩ := e0 i k j l
    simp only [Gen.CylAna.fkAy, Gen.CylAna.fkAy_22, h1, h2, Finset.sum_range_one]
    field_simp
    norm_num
    ring

/-- Damping: with both triangles, `-mu` times the integral of `w²`, for every vector. -/
theorem damping (mu : ℝ) (s0 : ℕ) (c : ℕ → ℝ) :
    Coo.quad (Coo.finalizeSym (plateFcA I P mu s0 s0)) c
      = over P (fun x y => - mu * u S P s0 c 2 x y ^ 2) ∧
    Coo.quad (Coo.finalizeSym (cylFcA I P mu s0 s0)) c
      = over P (fun x y => - mu * u S P s0 c 2 x y ^ 2) := by
  have key : ∀ v, (∀ i k j l a b, (a, b) ∉ pat1 → v i k j l a b = 0) →
      (∀ i k j l, v i k j l 2 2
        = - (P.a * P.b / 4 * mu * (I.ff i k P.xw P.xw * I.ff j l P.yw P.yw))) →
      Coo.quad (Coo.finalizeSym (symBuild s0 s0 P.m P.n pat1 v)) c
        = over P (fun x y => - mu * u S P s0 c 2 x y ^ 2) := by
    intro v hz hv
    rw [quad_ana hI hS.inMean P s0 c 1 (fun _ _ => - mu) (fun _ _ => rfl)
      (fun _ a => if a = 2 then ⟨1, 0, 0⟩ else ⟨0, 0, 0⟩) (P.a * P.b / 4) pat1 pat1_ok pat1_full v hz
      (fun i k j l a b ha hb => ?_), over]
    · simp only [u_disp]
      rw [integral_rect P.a P.b ha hb fun ξ η => - mu * disp S P s0 c 2 0 0 ξ η ^ 2]
      congr 2; funext ξ; congr 1; funext η
      have e : applyB S P s0 c (fun _ a => if a = 2 then ⟨1, 0, 0⟩ else ⟨0, 0, 0⟩) 0 ξ η
          = disp S P s0 c 2 0 0 ξ η := by
        rw [applyB_eq]
        simp only [disp_eq, Finset.sum_range_succ, Finset.sum_range_zero]
        simp
      simp only [Spec.dens, Finset.sum_range_one, e]
      ring
    · by_cases h : a = 2 ∧ b = 2
      · obtain ⟨rfl, rfl⟩ := h
        rw [hv]
        simp only [Finset.sum_range_one, if_true, Tab.get, Panel.xf, Panel.yf]
        ring
      · rw [hz _ _ _ _ _ _ (by simpa [pat1] using h)]
        simp only [Finset.sum_range_one]
        by_cases h2 : a = 2
        · rw [if_neg fun h3 => h ⟨h2, h3⟩]; ring
        · rw [if_neg h2]; ring
  constructor
  · rw [plateFcA, Coo.quad_finalizeSym_pad]
    exact key _ (fun i k j l a b => plateAna_fcA_zero I P mu i k j l a b) fun i k j l => by
      simp only [Gen.PlateAna.fcA, Gen.PlateAna.fcA_22]; ring
  · rw [cylFcA, Coo.quad_finalizeSym_pad]
    exact key _ (fun i k j l a b => cylAna_fcA_zero I P mu i k j l a b) fun i k j l => by
      simp only [Gen.CylAna.fcA, Gen.CylAna.fcA_22]; ring

omit ha hb in
/-- Hence never positive for `mu ≥ 0`. -/
theorem damping_sign (mu : ℝ) (hmu : 0 ≤ mu) (s0 : ℕ) (c : ℕ → ℝ) (ha : 0 < P.a) (hb : 0 < P.b) :
    Coo.quad (Coo.finalizeSym (plateFcA I P mu s0 s0)) c ≤ 0 ∧
    Coo.quad (Coo.finalizeSym (cylFcA I P mu s0 s0)) c ≤ 0 := by
  obtain ⟨h1, h2⟩ := damping hI hS P ha.ne' hb.ne' mu s0 c
  have e : over P (fun x y => - mu * u S P s0 c 2 x y ^ 2)
      = - over P (fun x y => mu * u S P s0 c 2 x y ^ 2) := by
    unfold over
    rw [← intervalIntegral.integral_neg]
    congr 1; funext x
    rw [← intervalIntegral.integral_neg]
    congr 1; funext y
    ring
  rw [h1, h2, and_self, e, neg_nonpos]
  exact intervalIntegral.integral_nonneg ha.le fun x _ =>
    intervalIntegral.integral_nonneg hb.le fun y _ => by positivity

end

/-! ## Concrete cases -/

theorem f4_sq (fl : Flags ℝ) : ∫ x in (-1 : ℝ)..1, (bardellShape ℝ).f 4 x fl ^ 2 = 4 / 315 := by
  have e : ∀ x : ℝ, (bardellShape ℝ).f 4 x fl ^ 2
      = pev [1/64, 0, -4/64, 0, 6/64, 0, -4/64, 0, 1/64] x := by
    intro x
    rw [C59.f4]
    simp only [pev]
    push_cast
    ring
  simp only [e]
  rw [integral_pev]
  norm_num [pint, pintFrom, mom]

theorem f4_slope (fl : Flags ℝ) :
    ∫ x in (-1 : ℝ)..1, (bardellShape ℝ).fp 4 x fl * (bardellShape ℝ).f 4 x fl = 0 := by
  have e : ∀ x : ℝ, (bardellShape ℝ).fp 4 x fl * (bardellShape ℝ).f 4 x fl
      = pev [0, -1/16, 0, 3/16, 0, -3/16, 0, 1/16] x := by
    intro x
    rw [C59.f4, C59.fp4]
    simp only [pev]
    push_cast
    ring
  simp only [e]
  rw [integral_pev]
  norm_num [pint, pintFrom, mom]

/-- One deflection shape of the panel of the examples: the operator on it with itself. -/
theorem shape_value (beta g : ℝ) :
    let w := u (bardellShape ℝ) Witness.panel 0 (unit 74) 2
    over Witness.panel (pistonX beta g w w) = g * (3 / 4 * (4 / 315) ^ 2) := by
  intro w
  have hw : ∀ x y, w x y = disp (bardellShape ℝ) Witness.panel 0 (unit 74) 2 0 0
      (2 / (3 : ℝ) * x - 1) (2 / (1 : ℝ) * y - 1) := fun x y => u_disp ..
  have hd : ∀ x y, dx w x y = disp (bardellShape ℝ) Witness.panel 0 (unit 74) 2 1 0
      (2 / (3 : ℝ) * x - 1) (2 / (1 : ℝ) * y - 1) := fun x y => u_dx bardellShape_C2 ..
  have e : ∀ p ξ η, disp (bardellShape ℝ) Witness.panel 0 (unit 74) 2 p 0 ξ η
      = (2 / 3) ^ p * ((bardellShape ℝ).D p 4 ξ ⟨0, 0, 0, 1⟩
          * (bardellShape ℝ).f 4 η ⟨1, 1, 1, 1⟩) := by
    intro p ξ η
    simp [disp, unit, Finset.sum_range_succ, Witness.panel, Shape.D, Panel.xf, Panel.yf, C59.f4]
  unfold over
  simp only [pistonX, hw, hd]
  rw [show (Witness.panel : Panel ℝ).a = 3 from rfl, show (Witness.panel : Panel ℝ).b = 1 from rfl,
    integral_rect 3 1 (by norm_num) (by norm_num) fun ξ η =>
      -beta * disp (bardellShape ℝ) Witness.panel 0 (unit 74) 2 1 0 ξ η
          * disp (bardellShape ℝ) Witness.panel 0 (unit 74) 2 0 0 ξ η
        + g * disp (bardellShape ℝ) Witness.panel 0 (unit 74) 2 0 0 ξ η
        * disp (bardellShape ℝ) Witness.panel 0 (unit 74) 2 0 0 ξ η]
  simp only [e, Shape.D, pow_zero, pow_one, one_mul]
  have h1 : ∀ ξ, Mean.integral.L (fun η =>
      -beta * (2 / 3 * ((bardellShape ℝ).fp 4 ξ ⟨0, 0, 0, 1⟩ * (bardellShape ℝ).f 4 η ⟨1, 1, 1, 1⟩))
          * ((bardellShape ℝ).f 4 ξ ⟨0, 0, 0, 1⟩ * (bardellShape ℝ).f 4 η ⟨1, 1, 1, 1⟩)
        + g * ((bardellShape ℝ).f 4 ξ ⟨0, 0, 0, 1⟩ * (bardellShape ℝ).f 4 η ⟨1, 1, 1, 1⟩)
          * ((bardellShape ℝ).f 4 ξ ⟨0, 0, 0, 1⟩ * (bardellShape ℝ).f 4 η ⟨1, 1, 1, 1⟩))
      = (-beta * (8 / 945)) * ((bardellShape ℝ).fp 4 ξ ⟨0, 0, 0, 1⟩ * (bardellShape ℝ).f 4 ξ ⟨0, 0, 0, 1⟩)
        + (g * (4 / 315)) * (bardellShape ℝ).f 4 ξ ⟨0, 0, 0, 1⟩ ^ 2 := by
    intro ξ
    rw [show (-beta * (8 / 945)) * ((bardellShape ℝ).fp 4 ξ ⟨0, 0, 0, 1⟩
          * (bardellShape ℝ).f 4 ξ ⟨0, 0, 0, 1⟩)
        + (g * (4 / 315)) * (bardellShape ℝ).f 4 ξ ⟨0, 0, 0, 1⟩ ^ 2
      = (-beta * (2 / 3) * ((bardellShape ℝ).fp 4 ξ ⟨0, 0, 0, 1⟩
          * (bardellShape ℝ).f 4 ξ ⟨0, 0, 0, 1⟩)
        + g * (bardellShape ℝ).f 4 ξ ⟨0, 0, 0, 1⟩ ^ 2) * (4 / 315) by ring,
      ← f4_sq ⟨1, 1, 1, 1⟩, ← intervalIntegral.integral_const_mul]
    show intervalIntegral _ _ _ _ = _
    congr 1; funext η
    ring
  simp only [h1]
  show 3 * 1 / 4 * (∫ ξ in (-1 : ℝ)..1, _) = _
  rw [intervalIntegral.integral_add, intervalIntegral.integral_const_mul,
    intervalIntegral.integral_const_mul, f4_sq, f4_slope]
  · ring
  · simp only [C59.f4, C59.fp4]
    exact Continuous.intervalIntegrable (by fun_prop) _ _
  · simp only [C59.f4]
    exact Continuous.intervalIntegrable (by fun_prop) _ _

/-- With a curvature term neither closed form is the operator. -/
theorem gamma_violated (beta gamma : ℝ) (hg : gamma ≠ 0) :
    let S := bardellShape ℝ
    let P : Panel ℝ := Witness.panel
    let I := Tab.of S Mean.integral
    ∃ d : ℕ → ℝ, Ordered d d ∧
      Coo.bilin (plateFkAx I P beta 0 0) d d
        ≠ over P (pistonX beta gamma (u S P 0 d 2) (u S P 0 d 2)) ∧
      Coo.bilin (cylFkAx I P beta gamma 0 0) d d
        ≠ over P (pistonX beta gamma (u S P 0 d 2) (u S P 0 d 2)) := by
  intro S P I
  have ho : Ordered (unit 74 : ℕ → ℝ) (unit 74) := fun p q => unit_ordered le_rfl p q
  obtain ⟨h1, h2⟩ := flow_x_partial (Tab.of_exact S Mean.integral) bardellShape_C2 P
    (by norm_num [P, Witness.panel]) (by norm_num [P, Witness.panel]) beta gamma 0 0 ho
  refine ⟨unit 74, ho, ?_, ?_⟩
  · rw [h1, shape_value, shape_value]
    intro h
    exact hg (by linarith)
  · rw [h2, shape_value, shape_value]
    intro h
    exact hg (by linarith)

/-- The hypotheses hold for the panel of the examples; the two vectors cover several unknowns. -/
example : let S := bardellShape ℝ
    let P : Panel ℝ := Witness.panel
    let I := Tab.of S Mean.integral
    ∃ d c : ℕ → ℝ, Ordered d c ∧ d 17 ≠ 0 ∧ d 20 ≠ 0 ∧ c 20 ≠ 0 ∧ c 86 ≠ 0 ∧
      Coo.bilin (cylFkAx I P 5 (1 / 4) 12 12) d c
        = over P (pistonX 5 (-(1 / 4)) (u S P 12 d 2) (u S P 12 c 2)) ∧
      Coo.bilin (cylFkAy I P 5 12 12) d c = over P (pistonY 5 (u S P 12 d 2) (u S P 12 c 2)) := by
  intro S P I
  have ho : Ordered (fun r => if r ≤ 20 then (r : ℝ) else 0) (fun r => if 20 ≤ r then 1 else 0) := by
    intro p q hp hq
    have h1 : p ≤ 20 := by by_contra h; exact hp (if_neg h)
    have h2 : 20 ≤ q := by by_contra h; exact hq (if_neg h)
    exact h1.trans h2
  have hI := Tab.of_exact S Mean.integral
  have ha : P.a ≠ 0 := by norm_num [P, Witness.panel]
  have hb : P.b ≠ 0 := by norm_num [P, Witness.panel]
  exact ⟨_, _, ho, by norm_num, by norm_num, by norm_num, by norm_num,
    (flow_x_partial hI bardellShape_C2 P ha hb 5 (1 / 4) 12 12 ho).2,
    (flow_y hI bardellShape_C2 P ha hb 5 12 12 ho).2⟩

example (c : ℕ → ℝ) : let S := bardellShape ℝ
    Coo.quad (Coo.finalizeSym (cylFcA (Tab.of S Mean.integral) Witness.panel 3 12 12)) c ≤ 0 :=
  (damping_sign (Tab.of_exact _ _) bardellShape_C2 Witness.panel 3 (by norm_num) 12 c
    (by norm_num [Witness.panel]) (by norm_num [Witness.panel])).2

end Verif.C68
