import Verif.Props.C40Conn
import Verif.Proofs.Rigid
import Verif.Spec.Meet

/-!
# Joints of panels that move without strain
-/

namespace Verif

open Spec Model

theorem meets_congr {func : String} {P1 P2 : Panel ℝ} {z1 z2 : ℝ} {f1 f2 g1 g2 : ℕ → ℝ → ℝ → ℝ}
    (h1 : ∀ c < 3, f1 c = g1 c) (h2 : ∀ c < 3, f2 c = g2 c) :
    Meets func P1 P2 z1 z2 f1 f2 ↔ Meets func P1 P2 z1 z2 g1 g2 := by
  unfold Meets
  rw [h1 0 (by norm_num), h1 1 (by norm_num), h1 2 (by norm_num), h2 0 (by norm_num),
    h2 1 (by norm_num), h2 2 (by norm_num)]

theorem meets_zero {func : String} {P1 P2 : Panel ℝ} {z1 z2 : ℝ} {f1 f2 : ℕ → ℝ → ℝ → ℝ}
    (h1 : ∀ c < 3, ∀ x y, f1 c x y = 0) (h2 : ∀ c < 3, ∀ x y, f2 c x y = 0) :
    Meets func P1 P2 z1 z2 f1 f2 := by
  have e1 : ∀ c < 3, f1 c = fun _ _ => 0 := fun c hc => funext fun x => funext fun y => h1 c hc x y
  have e2 : ∀ c < 3, f2 c = fun _ _ => 0 := fun c hc => funext fun x => funext fun y => h2 c hc x y
  rw [meets_congr (g1 := fun _ _ _ => 0) (g2 := fun _ _ _ => 0) e1 e2]
  unfold Meets
  split_ifs <;> simp [dx, dy]

/-- The springs of a joint store no energy exactly when the panels fit together. -/
theorem springs_zero {S : Shape ℝ} (hS : S.C2) {P1 P2 : Panel ℝ} (ha : 0 < P1.a) (hb : 0 < P1.b)
    (a b : ℕ) (v : ℕ → ℝ) (func : String) {kt kr : ℝ} (z1 z2 : ℝ) (hkt : 0 < kt)
    (hkr : func = "SSxcte" ∨ func = "SSycte" ∨ func = "BFxcte" ∨ func = "BFycte" → 0 < kr) :
    0 ≤ C40.springs S P1 P2 a b v func kt kr z1 z2 ∧
    (C40.springs S P1 P2 a b v func kt kr z1 z2 = 0 ↔
      Meets func P1 P2 z1 z2 (u S P1 a v) (u S P2 b v)) := by
  have x1 : ∀ α, Continuous fun y : ℝ => u S P1 a v α z1 y := fun α =>
    u_line hS P1 a v α continuous_const continuous_id
  have x2 : ∀ α, Continuous fun y : ℝ => u S P2 b v α z2 (P2.b / P1.b * y) := fun α =>
    u_line hS P2 b v α continuous_const (continuous_const_mul _)
  have dx1 : Continuous fun y : ℝ => dx (u S P1 a v 2) z1 y :=
    dx_line hS P1 a v 2 continuous_const continuous_id
  have dx2 : Continuous fun y : ℝ => dx (u S P2 b v 2) z2 (P2.b / P1.b * y) :=
    dx_line hS P2 b v 2 continuous_const (continuous_const_mul _)
  have y1 : ∀ α, Continuous fun x : ℝ => u S P1 a v α x z1 := fun α =>
    u_line hS P1 a v α continuous_id continuous_const
  have y2 : ∀ α, Continuous fun x : ℝ => u S P2 b v α (P2.a / P1.a * x) z2 := fun α =>
    u_line hS P2 b v α (continuous_const_mul _) continuous_const
  have dy1 : Continuous fun x : ℝ => dy (u S P1 a v 2) x z1 :=
    dy_line hS P1 a v 2 continuous_id continuous_const
  have dy2 : Continuous fun x : ℝ => dy (u S P2 b v 2) (P2.a / P1.a * x) z2 :=
    dy_line hS P2 b v 2 (continuous_const_mul _) continuous_const
  unfold C40.springs Meets
  split_ifs with h1 h2 h3 h4
  · have hr := hkr (.inl h1)
    refine ⟨jointEnergy_nonneg hb.le hkt.le hr.le _ _ _ _, ?_⟩
    rw [jointEnergy_zero hb hkt hr ((x1 0).fun_sub (x2 0)) ((x1 1).fun_sub (x2 1))
      ((x1 2).fun_sub (x2 2)) (dx1.fun_sub dx2)]
    exact forall₂_congr fun y _ => by rw [sub_eq_zero, sub_eq_zero, sub_eq_zero, sub_eq_zero]
  · have hr := hkr (.inr (.inl h2))
    refine ⟨jointEnergy_nonneg ha.le hkt.le hr.le _ _ _ _, ?_⟩
    rw [jointEnergy_zero ha hkt hr ((y1 0).fun_sub (y2 0)) ((y1 1).fun_sub (y2 1))
      ((y1 2).fun_sub (y2 2)) (dy1.fun_sub dy2)]
    exact forall₂_congr fun y _ => by rw [sub_eq_zero, sub_eq_zero, sub_eq_zero, sub_eq_zero]
  · have hr := hkr (.inr (.inr (.inl h3)))
    refine ⟨jointEnergy_nonneg hb.le hkt.le hr.le _ _ _ _, ?_⟩
    rw [jointEnergy_zero hb hkt hr ((x1 0).fun_sub (x2 2)) ((x1 1).fun_sub (x2 1))
      ((x1 2).fun_add (x2 0)) (dx1.fun_sub dx2)]
    exact forall₂_congr fun y _ => by
      rw [sub_eq_zero, sub_eq_zero, sub_eq_zero, ← eq_neg_iff_add_eq_zero]
  · have hr := hkr (.inr (.inr (.inr h4)))
    refine ⟨jointEnergy_nonneg ha.le hkt.le hr.le _ _ _ _, ?_⟩
    rw [jointEnergy_zero ha hkt hr ((y1 0).fun_sub (y2 0)) ((y1 1).fun_sub (y2 2))
      ((y1 2).fun_add (y2 1)) (dy1.fun_sub dy2)]
    exact forall₂_congr fun y _ => by
      rw [sub_eq_zero, sub_eq_zero, sub_eq_zero, ← eq_neg_iff_add_eq_zero]
  · refine ⟨areaEnergy_nonneg ha.le hb.le hkt.le _ _ _, ?_⟩
    have c1 := u_continuous hS P1 a v
    have c2 := fun α => cont_scale (F := u S P2 b v α) (u_continuous hS P2 b v α) (P2.a / P1.a) (P2.b / P1.b)
    rw [areaEnergy_zero ha hb hkt
      (((c1 0).fun_add (continuous_const.fun_mul (dx_continuous hS P1 a v 2))).fun_sub (c2 0))
      (((c1 1).fun_add (continuous_const.fun_mul (dy_continuous hS P1 a v 2))).fun_sub (c2 1))
      ((c1 2).fun_sub (c2 2))]
    exact forall₂_congr fun x _ => forall₂_congr fun y _ => by
      rw [sub_eq_zero, sub_eq_zero, sub_eq_zero]

/-- A motion that is zero, with its slope, along a line `x = const`. -/
theorem rest_lineX {κ : ℝ} {M : Motion} {l : ℝ} (hl : 0 < l) {z : ℝ}
    (h : ∀ y ∈ Set.Icc 0 l, M.field κ 0 z y = 0 ∧ M.field κ 1 z y = 0 ∧ M.field κ 2 z y = 0 ∧
      dx (M.field κ 2) z y = 0) : ∀ c < 3, ∀ x y, M.field κ c x y = 0 := by
  obtain ⟨u0, v0, w0, d0⟩ := h 0 ⟨le_rfl, hl.le⟩
  obtain ⟨u1, -, w1, -⟩ := h l ⟨hl.le, le_rfl⟩
  rw [(Indep.dx_field κ M z 0).2.2] at d0
  simp only [Motion.field, d0] at u0 v0 w0 u1 w1
  have eγ : M.γ = 0 := (mul_eq_zero.1 (by linarith : M.γ * l = 0)).resolve_right hl.ne'
  have eα : M.α = 0 := by linarith
  have ep : M.p = 0 := by linarith
  have eθ : M.θ = 0 := (mul_eq_zero.1 (by linarith : M.θ * l = 0)).resolve_right hl.ne'
  rw [eγ, eα, eθ] at v0
  have eq : M.q = 0 := by linarith
  intro c hc x y
  match c, hc with
  | 0, _ => simp only [Motion.field, ep, eθ, d0]; ring
  | 1, _ => simp only [Motion.field, eq, eθ, eα, d0, eγ]; ring
  | 2, _ => simp only [Motion.field, eα, d0, eγ]; ring

/-- A motion that is zero, with its slope, along a line `y = const`. -/
theorem rest_lineY {κ : ℝ} {M : Motion} {l : ℝ} (hl : 0 < l) {z : ℝ}
    (h : ∀ x ∈ Set.Icc 0 l, M.field κ 0 x z = 0 ∧ M.field κ 1 x z = 0 ∧ M.field κ 2 x z = 0 ∧
      dy (M.field κ 2) x z = 0) : ∀ c < 3, ∀ x y, M.field κ c x y = 0 := by
  obtain ⟨u0, v0, w0, d0⟩ := h 0 ⟨le_rfl, hl.le⟩
  obtain ⟨-, v1, w1, -⟩ := h l ⟨hl.le, le_rfl⟩
  rw [(Indep.dy_field κ M 0 z).2.2] at d0
  simp only [Motion.field, d0] at u0 v0 w0 v1 w1
  have eβ : M.β = 0 := (mul_eq_zero.1 (by linarith : M.β * l = 0)).resolve_right hl.ne'
  have eα : M.α = 0 := by linarith
  rw [eβ, eα] at v0 v1
  rw [eβ] at u0
  have eθ : M.θ = 0 := (mul_eq_zero.1 (by linarith : M.θ * l = 0)).resolve_right hl.ne'
  have eq : M.q = 0 := by linarith
  rw [eθ] at u0
  have ep : M.p = 0 := by linarith
  intro c hc x y
  match c, hc with
  | 0, _ => simp only [Motion.field, ep, eθ, eβ]; ring
  | 1, _ => simp only [Motion.field, eq, eθ, eα, eβ, d0]; ring
  | 2, _ => simp only [Motion.field, eα, eβ, d0]; ring

/-- A motion that is zero over a rectangle. -/
theorem rest_area {κ : ℝ} {M : Motion} {a b : ℝ} (ha : 0 < a) (hb : 0 < b)
    (h : ∀ x ∈ Set.Icc 0 a, ∀ y ∈ Set.Icc 0 b, M.field κ 0 x y = 0 ∧ M.field κ 1 x y = 0 ∧
      M.field κ 2 x y = 0) : ∀ c < 3, ∀ x y, M.field κ c x y = 0 := by
  refine rest_lineX hb (z := 0) fun y hy => ?_
  obtain ⟨u0, v0, w0⟩ := h 0 ⟨le_rfl, ha.le⟩ y hy
  obtain ⟨-, -, w1⟩ := h a ⟨ha.le, le_rfl⟩ y hy
  refine ⟨u0, v0, w0, ?_⟩
  rw [(Indep.dx_field κ M 0 y).2.2]
  simp only [Motion.field] at w0 w1
  exact (mul_eq_zero.1 (by linarith : M.β * a = 0)).resolve_right ha.ne'

theorem scale_line {l1 l2 t : ℝ} (h1 : 0 < l1) (h2 : 0 < l2) (ht : t ∈ Set.Icc 0 l2) :
    l1 / l2 * t ∈ Set.Icc 0 l1 ∧ l2 / l1 * (l1 / l2 * t) = t := by
  refine ⟨⟨mul_nonneg (by positivity) ht.1, ?_⟩, by field_simp⟩
  have : l1 / l2 * t ≤ l1 / l2 * l2 := mul_le_mul_of_nonneg_left ht.2 (by positivity)
  rwa [div_mul_cancel₀ _ h2.ne'] at this

/-- A panel that moves without strain and is joined to a panel at rest is at rest. -/
theorem meets_rest {func : String} {P1 P2 : Panel ℝ} (a1 : 0 < P1.a) (b1 : 0 < P1.b) (a2 : 0 < P2.a)
    (b2 : 0 < P2.b) {z1 z2 κ1 κ2 : ℝ} {M1 M2 : Motion}
    (h : Meets func P1 P2 z1 z2 (M1.field κ1) (M2.field κ2)) :
    ((∀ c < 3, ∀ x y, M2.field κ2 c x y = 0) → ∀ c < 3, ∀ x y, M1.field κ1 c x y = 0) ∧
    ((∀ c < 3, ∀ x y, M1.field κ1 c x y = 0) → ∀ c < 3, ∀ x y, M2.field κ2 c x y = 0) := by
  have zx : ∀ {κ : ℝ} {M : Motion}, (∀ c < 3, ∀ x y, M.field κ c x y = 0) → ∀ x y,
      dx (M.field κ 2) x y = 0 ∧ dy (M.field κ 2) x y = 0 := by
    intro κ M h x y
    have : M.field κ 2 = fun _ _ => 0 := funext fun x => funext fun y => h 2 (by norm_num) x y
    rw [this]
    simp [dx, dy]
  have n0 : 0 < 3 := by norm_num
  have n1 : 1 < 3 := by norm_num
  have n2 : 2 < 3 := by norm_num
  unfold Meets at h
  constructor
  · intro hz
    have hd := zx hz
    split_ifs at h
    · exact rest_lineX b1 fun y hy => by
        simpa only [hz 0 n0, hz 1 n1, hz 2 n2, (hd _ _).1] using h y hy
    · exact rest_lineY a1 fun y hy => by
        simpa only [hz 0 n0, hz 1 n1, hz 2 n2, (hd _ _).2] using h y hy
    · exact rest_lineX b1 fun y hy => by
        simpa only [hz 0 n0, hz 1 n1, hz 2 n2, (hd _ _).1, neg_zero] using h y hy
    · exact rest_lineY a1 fun y hy => by
        simpa only [hz 0 n0, hz 1 n1, hz 2 n2, (hd _ _).2, neg_zero] using h y hy
    · simp only [hz 0 n0, hz 1 n1, hz 2 n2] at h
      have w := fun x hx y hy => (h x hx y hy).2.2
      have w00 := w 0 ⟨le_rfl, a1.le⟩ 0 ⟨le_rfl, b1.le⟩
      have w10 := w P1.a ⟨a1.le, le_rfl⟩ 0 ⟨le_rfl, b1.le⟩
      have w01 := w 0 ⟨le_rfl, a1.le⟩ P1.b ⟨b1.le, le_rfl⟩
      simp only [Motion.field] at w00 w10 w01
      have eβ : M1.β = 0 := (mul_eq_zero.1 (by linarith : M1.β * P1.a = 0)).resolve_right a1.ne'
      have eγ : M1.γ = 0 := (mul_eq_zero.1 (by linarith : M1.γ * P1.b = 0)).resolve_right b1.ne'
      refine rest_area a1 b1 fun x hx y hy => ?_
      obtain ⟨e0, e1, e2⟩ := h x hx y hy
      rw [(Indep.dx_field κ1 M1 x y).2.2, eβ, mul_zero, add_zero] at e0
      rw [(Indep.dy_field κ1 M1 x y).2.2, eγ, mul_zero, add_zero] at e1
      exact ⟨e0, e1, e2⟩
  · intro hz
    have hd := zx hz
    split_ifs at h
    · refine rest_lineX (z := z2) b2 fun y hy => ?_
      obtain ⟨m, e⟩ := scale_line b1 b2 hy
      have := h _ m
      rw [e, hz 0 n0, hz 1 n1, hz 2 n2, (hd _ _).1] at this
      exact ⟨this.1.symm, this.2.1.symm, this.2.2.1.symm, this.2.2.2.symm⟩
    · refine rest_lineY (z := z2) a2 fun y hy => ?_
      obtain ⟨m, e⟩ := scale_line a1 a2 hy
      have := h _ m
      rw [e, hz 0 n0, hz 1 n1, hz 2 n2, (hd _ _).2] at this
      exact ⟨this.1.symm, this.2.1.symm, this.2.2.1.symm, this.2.2.2.symm⟩
    · refine rest_lineX (z := z2) b2 fun y hy => ?_
      obtain ⟨m, e⟩ := scale_line b1 b2 hy
      have := h _ m
      rw [e, hz 0 n0, hz 1 n1, hz 2 n2, (hd _ _).1] at this
      exact ⟨neg_eq_zero.1 this.2.2.1.symm, this.2.1.symm, this.1.symm, this.2.2.2.symm⟩
    · refine rest_lineY (z := z2) a2 fun y hy => ?_
      obtain ⟨m, e⟩ := scale_line a1 a2 hy
      have := h _ m
      rw [e, hz 0 n0, hz 1 n1, hz 2 n2, (hd _ _).2] at this
      exact ⟨this.1.symm, neg_eq_zero.1 this.2.2.1.symm, this.2.1.symm, this.2.2.2.symm⟩
    · refine rest_area a2 b2 fun x hx y hy => ?_
      obtain ⟨m, e⟩ := scale_line a1 a2 hx
      obtain ⟨m', e'⟩ := scale_line b1 b2 hy
      have := h _ m _ m'
      rw [e, e', hz 0 n0, hz 1 n1, hz 2 n2, (hd _ _).1, (hd _ _).2, mul_zero, add_zero] at this
      exact ⟨this.1.symm, this.2.1.symm, this.2.2.symm⟩

end Verif
