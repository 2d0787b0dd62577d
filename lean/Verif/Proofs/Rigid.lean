import Verif.Proofs.LowTerms

/-!
# Edges and motions without strain
-/

namespace Verif.Indep

open Polynomial Finset Spec Model

/-! ## Edge conditions in terms of the amplitudes -/

theorem row_iff {b k : ℝ} (hb : b ≠ 0) (hk : k ≠ 0) {f : ℕ → ℝ} {g : ℝ → ℝ} (e0 e1 e2 : ℝ)
    (hf : ∀ j < 4, f j = k * (e0 * h1 j + e1 * b * h2 j + e2 * b ^ 2 * h3 j))
    (hg : ∀ y, g y = e0 + e1 * y + e2 * y ^ 2) : (∀ j < 4, f j = 0) ↔ ∀ y, g y = 0 := by
  have a1 : (∀ y, g y = 0) ↔ e0 = 0 ∧ e1 = 0 ∧ e2 = 0 := by
    constructor
    · intro h
      have g0 := hg 0
      have g1 := hg 1
      have g2 := hg (-1)
      rw [h] at g0 g1 g2
      refine ⟨?_, ?_, ?_⟩ <;> linarith
    · rintro ⟨rfl, rfl, rfl⟩ y
      rw [hg]; ring
  rw [a1]
  constructor
  · intro h
    have z : ∀ j < 4, e0 * h1 j + e1 * b * h2 j + e2 * b ^ 2 * h3 j = 0 := fun j hj =>
      (mul_eq_zero.1 ((hf j hj).symm.trans (h j hj))).resolve_left hk
    have z0 := z 0 (by norm_num)
    have z1 := z 1 (by norm_num)
    have z2 := z 2 (by norm_num)
    simp only [h1, h2, h3] at z0 z1 z2
    have q0 : e0 = 0 := by linarith
    have q1 : e1 * b = 0 := by linarith
    have q2 : e2 * b ^ 2 = 0 := by linarith
    exact ⟨q0, (mul_eq_zero.1 q1).resolve_right hb, (mul_eq_zero.1 q2).resolve_right (by positivity)⟩
  · rintro ⟨rfl, rfl, rfl⟩ j hj
    rw [hf j hj]; ring

theorem dx_field (κ : ℝ) (M : Motion) (x y : ℝ) : dx (M.field κ 0) x y = 0 ∧
    dx (M.field κ 1) x y = -M.θ - κ * (M.β * y) ∧ dx (M.field κ 2) x y = M.β := by
  have hx := hasDerivAt_id' x
  refine ⟨?_, ?_, ?_⟩
  · exact (hasDerivAt_const x (M.p + M.θ * y + κ * M.β / 2 * y ^ 2)).deriv
  · have := (((hasDerivAt_const x M.q).sub (hx.const_mul M.θ)).sub
      (((((hx.mul_const y).const_mul M.β).const_add (M.α * y)).add_const (M.γ / 2 * y ^ 2)).const_mul
        κ)).deriv
    refine Eq.trans this ?_
    ring
  · have := (((hx.const_mul M.β).const_add M.α).add_const (M.γ * y)).deriv
    refine Eq.trans this ?_
    ring

theorem dy_field (κ : ℝ) (M : Motion) (x y : ℝ) : dy (M.field κ 0) x y = M.θ + κ * M.β * y ∧
    dy (M.field κ 1) x y = -(κ * (M.α + M.β * x + M.γ * y)) ∧ dy (M.field κ 2) x y = M.γ := by
  have hy := hasDerivAt_id' y
  refine ⟨?_, ?_, ?_⟩
  · have := (((hy.const_mul M.θ).const_add M.p).add ((hy.pow 2).const_mul (κ * M.β / 2))).deriv
    refine Eq.trans this ?_
    norm_num
    ring
  · have := (((((hy.const_mul M.α).add ((hy.const_mul x).const_mul M.β)).add
      ((hy.pow 2).const_mul (M.γ / 2))).const_mul κ).const_sub (M.q - M.θ * x)).deriv
    refine Eq.trans this ?_
    push_cast
    ring
  · have := ((hy.const_mul M.γ).const_add (M.α + M.β * x)).deriv
    refine Eq.trans this ?_
    ring

/-- What the flags of an edge fix. -/
noncomputable def edgeX (a : ℝ) (g : ℝ → ℝ → ℝ) (i : ℕ) (y : ℝ) : ℝ :=
  match i with
  | 0 => g 0 y
  | 1 => dx g 0 y
  | 2 => g a y
  | _ => dx g a y

@[inherit_doc edgeX]
noncomputable def edgeY (b : ℝ) (g : ℝ → ℝ → ℝ) (j : ℕ) (x : ℝ) : ℝ :=
  match j with
  | 0 => g x 0
  | 1 => dy g x 0
  | 2 => g x b
  | _ => dy g x b

theorem edgeX_iff {a b : ℝ} (ha : a ≠ 0) (hb : b ≠ 0) (κ : ℝ) (M : Motion) {c : ℕ} (hc : c < 3)
    {i : ℕ} (hi : i < 4) :
    (∀ j < 4, M.data κ a b c i j = 0) ↔ ∀ y, edgeX a (M.field κ c) i y = 0 := by
  match c, hc with
  | 0, _ =>
    match i, hi with
    | 0, _ =>
      exact row_iff hb one_ne_zero M.p M.θ (κ * M.β / 2)
        (fun j _ => by simp only [Motion.data, h1]) fun y => by simp only [edgeX, Motion.field]
    | 1, _ =>
      exact row_iff hb one_ne_zero 0 0 0
        (fun j _ => by simp only [Motion.data, h1]; ring) fun y => by
          simp only [edgeX, (dx_field κ M _ y).1]; ring
    | 2, _ =>
      exact row_iff hb one_ne_zero M.p M.θ (κ * M.β / 2)
        (fun j _ => by simp only [Motion.data, h1]) fun y => by simp only [edgeX, Motion.field]
    | 3, _ =>
      exact row_iff hb one_ne_zero 0 0 0
        (fun j _ => by simp only [Motion.data, h1]; ring) fun y => by
          simp only [edgeX, (dx_field κ M _ y).1]; ring
  | 1, _ =>
    match i, hi with
    | 0, _ =>
      exact row_iff hb one_ne_zero M.q (-(κ * M.α)) (-(κ * M.γ / 2))
        (fun j _ => by simp only [Motion.data, h1, h2]; ring) fun y => by
          simp only [edgeX, Motion.field]; ring
    | 1, _ =>
      exact row_iff hb ha (-M.θ) (-(κ * M.β)) 0
        (fun j _ => by simp only [Motion.data, h1, h2]; ring) fun y => by
          simp only [edgeX, (dx_field κ M _ y).2.1]; ring
    | 2, _ =>
      exact row_iff hb one_ne_zero (M.q - a * M.θ) (-(κ * M.α) - a * κ * M.β)
        (-(κ * M.γ / 2)) (fun j _ => by simp only [Motion.data, h1, h2]; ring) fun y => by
          simp only [edgeX, Motion.field]; ring
    | 3, _ =>
      exact row_iff hb ha (-M.θ) (-(κ * M.β)) 0
        (fun j _ => by simp only [Motion.data, h1, h2]; ring) fun y => by
          simp only [edgeX, (dx_field κ M _ y).2.1]; ring
  | 2, _ =>
    match i, hi with
    | 0, _ =>
      exact row_iff hb one_ne_zero M.α M.γ 0
        (fun j _ => by simp only [Motion.data, h1, h2]; ring) fun y => by
          simp only [edgeX, Motion.field]; ring
    | 1, _ =>
      exact row_iff hb ha M.β 0 0
        (fun j _ => by simp only [Motion.data, h1, h2]; ring) fun y => by
          simp only [edgeX, (dx_field κ M _ y).2.2]; ring
    | 2, _ =>
      exact row_iff hb one_ne_zero (M.α + a * M.β) M.γ 0
        (fun j _ => by simp only [Motion.data, h1, h2]; ring) fun y => by
          simp only [edgeX, Motion.field]; ring
    | 3, _ =>
      exact row_iff hb ha M.β 0 0
        (fun j _ => by simp only [Motion.data, h1, h2]; ring) fun y => by
          simp only [edgeX, (dx_field κ M _ y).2.2]; ring

theorem edgeY_iff {a b : ℝ} (ha : a ≠ 0) (hb : b ≠ 0) (κ : ℝ) (M : Motion) {c : ℕ} (hc : c < 3)
    {j : ℕ} (hj : j < 4) :
    (∀ i < 4, M.data κ a b c i j = 0) ↔ ∀ x, edgeY b (M.field κ c) j x = 0 := by
  match c, hc with
  | 0, _ =>
    match j, hj with
    | 0, _ =>
      exact row_iff ha one_ne_zero M.p 0 0
        (fun i _ => by simp only [Motion.data, h1, h2, h3]; ring) fun x => by
          simp only [edgeY, Motion.field]; ring
    | 1, _ =>
      exact row_iff ha hb M.θ 0 0
        (fun i _ => by simp only [Motion.data, h1, h2, h3]; ring) fun x => by
          simp only [edgeY, (dy_field κ M x _).1]; ring
    | 2, _ =>
      exact row_iff ha one_ne_zero (M.p + M.θ * b + κ * M.β / 2 * b ^ 2) 0 0
        (fun i _ => by simp only [Motion.data, h1, h2, h3]; ring) fun x => by
          simp only [edgeY, Motion.field]; ring
    | 3, _ =>
      exact row_iff ha hb (M.θ + κ * M.β * b) 0 0
        (fun i _ => by simp only [Motion.data, h1, h2, h3]; ring) fun x => by
          simp only [edgeY, (dy_field κ M x _).1]; ring
  | 1, _ =>
    match j, hj with
    | 0, _ =>
      exact row_iff ha one_ne_zero M.q (-M.θ) 0
        (fun i _ => by simp only [Motion.data, h1, h2, h3]; ring) fun x => by
          simp only [edgeY, Motion.field]; ring
    | 1, _ =>
      exact row_iff ha hb (-(κ * M.α)) (-(κ * M.β)) 0
        (fun i _ => by simp only [Motion.data, h1, h2, h3]; ring) fun x => by
          simp only [edgeY, (dy_field κ M x _).2.1]; ring
    | 2, _ =>
      exact row_iff ha one_ne_zero (M.q - κ * (M.α * b + M.γ / 2 * b ^ 2))
        (-M.θ - κ * M.β * b) 0 (fun i _ => by simp only [Motion.data, h1, h2, h3]; ring) fun x => by
          simp only [edgeY, Motion.field]; ring
    | 3, _ =>
      exact row_iff ha hb (-(κ * (M.α + M.γ * b))) (-(κ * M.β)) 0
        (fun i _ => by simp only [Motion.data, h1, h2, h3]; ring) fun x => by
          simp only [edgeY, (dy_field κ M x _).2.1]; ring
  | 2, _ =>
    match j, hj with
    | 0, _ =>
      exact row_iff ha one_ne_zero M.α M.β 0
        (fun i _ => by simp only [Motion.data, h1, h2]; ring) fun x => by
          simp only [edgeY, Motion.field]; ring
    | 1, _ =>
      exact row_iff ha hb M.γ 0 0
        (fun i _ => by simp only [Motion.data, h1, h2]; ring) fun x => by
          simp only [edgeY, (dy_field κ M x _).2.2]; ring
    | 2, _ =>
      exact row_iff ha one_ne_zero (M.α + M.γ * b) M.β 0
        (fun i _ => by simp only [Motion.data, h1, h2]; ring) fun x => by
          simp only [edgeY, Motion.field]; ring
    | 3, _ =>
      exact row_iff ha hb M.γ 0 0
        (fun i _ => by simp only [Motion.data, h1, h2]; ring) fun x => by
          simp only [edgeY, (dy_field κ M x _).2.2]; ring

theorem fits_edges (P : Panel ℝ) (c : ℕ) (g : ℝ → ℝ → ℝ) : EdgeFits P c g ↔
    (∀ i < 4, flag (P.xf c) i = 0 → ∀ y, edgeX P.a g i y = 0) ∧
    ∀ j < 4, flag (P.yf c) j = 0 → ∀ x, edgeY P.b g j x = 0 := by
  constructor
  · rintro ⟨x0, x1, x2, x3, y0, y1, y2, y3⟩
    constructor
    · intro i hi
      match i, hi with
      | 0, _ => exact x0
      | 1, _ => exact x1
      | 2, _ => exact x2
      | 3, _ => exact x3
    · intro j hj
      match j, hj with
      | 0, _ => exact y0
      | 1, _ => exact y1
      | 2, _ => exact y2
      | 3, _ => exact y3
  · rintro ⟨hx, hy⟩
    exact ⟨hx 0 (by norm_num), hx 1 (by norm_num), hx 2 (by norm_num), hx 3 (by norm_num),
      hy 0 (by norm_num), hy 1 (by norm_num), hy 2 (by norm_num), hy 3 (by norm_num)⟩

/-- A motion fits the edges exactly when its amplitudes that are switched off vanish. -/
theorem fits_iff {P : Panel ℝ} (ha : P.a ≠ 0) (hb : P.b ≠ 0) (κ : ℝ) (M : Motion) {c : ℕ}
    (hc : c < 3) : EdgeFits P c (M.field κ c) ↔ ∀ i < 4, ∀ j < 4,
      flag (P.xf c) i = 0 ∨ flag (P.yf c) j = 0 → M.data κ P.a P.b c i j = 0 := by
  rw [fits_edges]
  constructor
  · rintro ⟨hx, hy⟩ i hi j hj (h | h)
    · exact (edgeX_iff ha hb κ M hc hi).2 (hx i hi h) j hj
    · exact (edgeY_iff ha hb κ M hc hj).2 (hy j hj h) i hi
  · intro h
    exact ⟨fun i hi hf => (edgeX_iff ha hb κ M hc hi).1 fun j hj => h i hi j hj (Or.inl hf),
      fun j hj hf => (edgeY_iff ha hb κ M hc hj).1 fun i hi => h i hi j hj (Or.inr hf)⟩

/-- A motion at rest has no amplitudes. -/
theorem data_zero {a b κ : ℝ} (ha : a ≠ 0) (hb : b ≠ 0) {M : Motion} {c : ℕ} (hc : c < 3)
    (h : ∀ x y, M.field κ c x y = 0) {i j : ℕ} (hi : i < 4) (hj : j < 4) :
    M.data κ a b c i j = 0 := by
  refine (edgeX_iff ha hb κ M hc hi).2 (fun y => ?_) j hj
  have hg : M.field κ c = fun _ _ => 0 := funext fun x => funext fun y => h x y
  rw [hg]
  match i, hi with
  | 0, _ => rfl
  | 1, _ => simp [edgeX, dx]
  | 2, _ => rfl
  | 3, _ => simp [edgeX, dx]

/-! ## The field of a motion -/

theorem Fam.eval_quad {k N : ℕ} {q : ℕ → ℝ[X]} (hq : Fam k N q) (hk : k ≤ 2) {e : ℕ → ℝ}
    (r0 r1 r2 : ℝ) (s0 : ∑ i ∈ range 4, e i * (base k i 0 : ℝ) = r0)
    (s1 : ∑ i ∈ range 4, e i * (base k i 1 : ℝ) = r1)
    (s2 : ∑ i ∈ range 4, e i * (base k i 2 : ℝ) = r2)
    (s3 : ∑ i ∈ range 4, e i * (base k i 3 : ℝ) = 0) (ξ : ℝ) :
    (lowp q e).eval ξ = r0 + r1 * ξ + r2 * ξ ^ 2 := by
  rw [show lowp q e = C r0 + C r1 * X + C r2 * X ^ 2 from ?_]
  · simp
  · ext d
    rw [hq.coeff_lowp]
    simp only [coeff_add, coeff_C_mul, coeff_X_pow, coeff_C, coeff_X]
    match d with
    | 0 => rw [s0]; simp
    | 1 => rw [s1]; simp
    | 2 => rw [s2]; simp
    | 3 => rw [s3]; simp
    | d + 4 =>
      rw [sum_eq_zero fun i _ => by rw [base_zero (by omega) hk, Rat.cast_zero, mul_zero]]
      simp

theorem Fam.low0 {N : ℕ} {q : ℕ → ℝ[X]} (hq : Fam 0 N q) (ξ : ℝ) :
    (lowp q h1).eval ξ = 1 ∧ (lowp q h2).eval ξ = (1 + ξ) / 2 ∧
      (lowp q h3).eval ξ = ((1 + ξ) / 2) ^ 2 := by
  refine ⟨?_, ?_, ?_⟩
  · refine (hq.eval_quad (by norm_num) 1 0 0 ?_ ?_ ?_ ?_ ξ).trans (by ring) <;>
    · simp only [sum_range_succ, sum_range_zero, h1, base]; push_cast; ring
  · refine (hq.eval_quad (by norm_num) (1 / 2) (1 / 2) 0 ?_ ?_ ?_ ?_ ξ).trans (by ring) <;>
    · simp only [sum_range_succ, sum_range_zero, h2, base]; push_cast; ring
  · refine (hq.eval_quad (by norm_num) (1 / 4) (1 / 2) (1 / 4) ?_ ?_ ?_ ?_ ξ).trans (by ring) <;>
    · simp only [sum_range_succ, sum_range_zero, h3, base]; push_cast; ring

theorem Fam.low1 {N : ℕ} {q : ℕ → ℝ[X]} (hq : Fam 1 N q) (ξ : ℝ) :
    (lowp q h1).eval ξ = 0 ∧ (lowp q h2).eval ξ = 1 / 2 ∧
      (lowp q h3).eval ξ = (1 + ξ) / 2 := by
  refine ⟨?_, ?_, ?_⟩
  · refine (hq.eval_quad (by norm_num) 0 0 0 ?_ ?_ ?_ ?_ ξ).trans (by ring) <;>
    · simp only [sum_range_succ, sum_range_zero, h1, base]; push_cast; ring
  · refine (hq.eval_quad (by norm_num) (1 / 2) 0 0 ?_ ?_ ?_ ?_ ξ).trans (by ring) <;>
    · simp only [sum_range_succ, sum_range_zero, h2, base]; push_cast; ring
  · refine (hq.eval_quad (by norm_num) (1 / 2) (1 / 2) 0 ?_ ?_ ?_ ?_ ξ).trans (by ring) <;>
    · simp only [sum_range_succ, sum_range_zero, h3, base]; push_cast; ring

theorem Fam.low2 {N : ℕ} {q : ℕ → ℝ[X]} (hq : Fam 2 N q) (ξ : ℝ) :
    (lowp q h1).eval ξ = 0 ∧ (lowp q h2).eval ξ = 0 ∧
      (lowp q h3).eval ξ = 1 / 2 := by
  refine ⟨?_, ?_, ?_⟩
  · refine (hq.eval_quad (by norm_num) 0 0 0 ?_ ?_ ?_ ?_ ξ).trans (by ring) <;>
    · simp only [sum_range_succ, sum_range_zero, h1, base]; push_cast; ring
  · refine (hq.eval_quad (by norm_num) 0 0 0 ?_ ?_ ?_ ?_ ξ).trans (by ring) <;>
    · simp only [sum_range_succ, sum_range_zero, h2, base]; push_cast; ring
  · refine (hq.eval_quad (by norm_num) (1 / 2) 0 0 ?_ ?_ ?_ ?_ ξ).trans (by ring) <;>
    · simp only [sum_range_succ, sum_range_zero, h3, base]; push_cast; ring

/-- Values and derivatives of the three data. -/
theorem low_eval {N : ℕ} {q : ℕ → ℕ → ℝ[X]} (hq : ∀ k ≤ 2, Fam k N (q k)) (ξ : ℝ) :
    ((lowp (q 0) h1).eval ξ = 1 ∧ (lowp (q 0) h2).eval ξ = (1 + ξ) / 2 ∧
      (lowp (q 0) h3).eval ξ = ((1 + ξ) / 2) ^ 2) ∧
    ((lowp (q 1) h1).eval ξ = 0 ∧ (lowp (q 1) h2).eval ξ = 1 / 2 ∧
      (lowp (q 1) h3).eval ξ = (1 + ξ) / 2) ∧
    ((lowp (q 2) h1).eval ξ = 0 ∧ (lowp (q 2) h2).eval ξ = 0 ∧ (lowp (q 2) h3).eval ξ = 1 / 2) :=
  ⟨(hq 0 (by norm_num)).low0 ξ, (hq 1 (by norm_num)).low1 ξ, (hq 2 (by norm_num)).low2 ξ⟩

/-- The amplitude of term `(i, j)` times its flags; zero beyond the terms of the panel. -/
noncomputable def eff (P : Panel ℝ) (s0 : ℕ) (d : ℕ → ℝ) (c i j : ℕ) : ℝ :=
  if i < P.m ∧ j < P.n then
    d (s0 + 3 * (j * P.m + i) + c) * (flag (P.xf c) i * flag (P.yf c) j) else 0

theorem eff_zero (P : Panel ℝ) (s0 : ℕ) (d : ℕ → ℝ) (c i j : ℕ)
    (h : flag (P.xf c) i = 0 ∨ flag (P.yf c) j = 0) : eff P s0 d c i j = 0 := by
  unfold eff
  split
  · rcases h with h | h <;> rw [h] <;> ring
  · rfl

theorem rest_eff (P : Panel ℝ) (s0 : ℕ) (d : ℕ → ℝ) (c : ℕ)
    (h : ∀ i < P.m, ∀ j < P.n, eff P s0 d c i j = 0) : Rest P s0 d c := by
  intro i hi j hj h1 h2
  have := h i hi j hj
  rw [eff, if_pos ⟨hi, hj⟩] at this
  exact (mul_eq_zero.1 this).resolve_right (mul_ne_zero h1 h2)

theorem disp_ser {S : Shape ℝ} {N : ℕ} {q : ℕ → ℕ → ℝ[X]}
    (hq : ∀ k ≤ 2, ∀ i < N, ∀ x fl, S.D k i x fl = flag fl i * (q k i).eval x) {P : Panel ℝ}
    (hm : P.m ≤ N) (hn : P.n ≤ N) (s0 : ℕ) (d : ℕ → ℝ) (c : ℕ) {p k : ℕ} (hp : p ≤ 2) (hk : k ≤ 2)
    (ξ η : ℝ) : disp S P s0 d c p k ξ η = (2 / P.a) ^ p * (2 / P.b) ^ k *
      ser (max P.m 4) (max P.n 4) q (eff P s0 d c) p k ξ η := by
  rw [disp, ser]
  congr 1
  rw [← sum_subset (range_subset_range.2 (le_max_left P.m 4))]
  · refine sum_congr rfl fun i hi => ?_
    rw [← sum_subset (range_subset_range.2 (le_max_left P.n 4))]
    · refine sum_congr rfl fun j hj => ?_
      have hi' := mem_range.1 hi
      have hj' := mem_range.1 hj
      rw [eff, if_pos ⟨hi', hj'⟩, hq p hp i (by omega), hq k hk j (by omega)]
      ring
    · intro j _ hj
      rw [eff, if_neg (by rw [mem_range] at hj; omega), zero_mul]
  · intro i _ hi
    refine sum_eq_zero fun j _ => ?_
    rw [eff, if_neg (by rw [mem_range] at hi; omega), zero_mul]

/-- A series of the four cubics. -/
theorem ser_low {q : ℕ → ℕ → ℝ[X]} {m n : ℕ} (hm : 4 ≤ m) (hn : 4 ≤ n) {A : ℕ → ℕ → ℝ}
    (h : ∀ i < m, ∀ j < n, 4 ≤ i ∨ 4 ≤ j → A i j = 0) (p k : ℕ) (ξ η : ℝ) :
    ser m n q A p k ξ η = ∑ i ∈ range 4, ∑ j ∈ range 4, A i j * ((q p i).eval ξ * (q k j).eval η) := by
  rw [ser, ← sum_subset (range_subset_range.2 hm)]
  · refine sum_congr rfl fun i hi => ?_
    rw [← sum_subset (range_subset_range.2 hn)]
    intro j hj hj'
    have := mem_range.1 hi
    rw [h i (by omega) j (mem_range.1 hj) (Or.inr (by simpa using hj')), zero_mul]
  · intro i hi hi'
    refine sum_eq_zero fun j hj => ?_
    rw [h i (mem_range.1 hi) j (mem_range.1 hj) (Or.inl (by simpa using hi')), zero_mul]

theorem prod_low (q : ℕ → ℕ → ℝ[X]) (f g : ℕ → ℝ) (p k : ℕ) (ξ η : ℝ) :
    ∑ i ∈ range 4, ∑ j ∈ range 4, f i * g j * ((q p i).eval ξ * (q k j).eval η)
      = (lowp (q p) f).eval ξ * (lowp (q k) g).eval η := by
  simp only [lowp, eval_finsetSum, eval_mul, eval_C, sum_mul_sum]
  exact sum_congr rfl fun i _ => sum_congr rfl fun j _ => by ring

/-- The series of a motion, by components. -/
theorem ser_motion {q : ℕ → ℕ → ℝ[X]} {m n : ℕ} (hm : 4 ≤ m) (hn : 4 ≤ n) {A : ℕ → ℕ → ℕ → ℝ}
    {M : Motion} {κ a b : ℝ}
    (h : ∀ c < 3, (∀ i < m, ∀ j < n, 4 ≤ i ∨ 4 ≤ j → A c i j = 0) ∧
      ∀ i < 4, ∀ j < 4, A c i j = M.data κ a b c i j) (p k : ℕ) (ξ η : ℝ) :
    let L := fun f g => (lowp (q p) f).eval ξ * (lowp (q k) g).eval η
    ser m n q (A 0) p k ξ η = M.p * L h1 h1 + M.θ * b * L h1 h2 + κ * M.β / 2 * b ^ 2 * L h1 h3 ∧
    ser m n q (A 1) p k ξ η = M.q * L h1 h1 - κ * (M.α * b * L h1 h2 + M.γ / 2 * b ^ 2 * L h1 h3)
      - a * (M.θ * L h2 h1 + κ * M.β * b * L h2 h2) ∧
    ser m n q (A 2) p k ξ η = M.α * L h1 h1 + M.γ * b * L h1 h2 + a * (M.β * L h2 h1) := by
  intro L
  have e : ∀ c < 3, ser m n q (A c) p k ξ η = ∑ i ∈ range 4, ∑ j ∈ range 4,
      M.data κ a b c i j * ((q p i).eval ξ * (q k j).eval η) := fun c hc => by
    rw [ser_low hm hn (h c hc).1]
    exact sum_congr rfl fun i hi => sum_congr rfl fun j hj => by
      rw [(h c hc).2 i (mem_range.1 hi) j (mem_range.1 hj)]
  refine ⟨?_, ?_, ?_⟩
  · rw [e 0 (by norm_num)]
    simp only [L, ← prod_low, mul_sum, ← sum_add_distrib]
    exact sum_congr rfl fun i _ => sum_congr rfl fun j _ => by simp only [Motion.data]; ring
  · rw [e 1 (by norm_num)]
    simp only [L, ← prod_low, mul_sum, ← sum_add_distrib, ← sum_sub_distrib]
    exact sum_congr rfl fun i _ => sum_congr rfl fun j _ => by simp only [Motion.data]; ring
  · rw [e 2 (by norm_num)]
    simp only [L, ← prod_low, mul_sum, ← sum_add_distrib]
    exact sum_congr rfl fun i _ => sum_congr rfl fun j _ => by simp only [Motion.data]; ring

/-- The amplitudes are those of a motion. -/
def IsMotion (κ : ℝ) (P : Panel ℝ) (s0 : ℕ) (d : ℕ → ℝ) (M : Motion) : Prop :=
  ∀ c < 3, (∀ i < max P.m 4, ∀ j < max P.n 4, 4 ≤ i ∨ 4 ≤ j → eff P s0 d c i j = 0) ∧
    ∀ i < 4, ∀ j < 4, eff P s0 d c i j = M.data κ P.a P.b c i j

/-- No strain on a dense grid: the field is a motion that fits the edges. -/
theorem motion_of_strain {S : Shape ℝ} {N : ℕ} (hS : Hier S N) (hN : 4 ≤ N) {P : Panel ℝ}
    (hm : P.m ≤ N) (hn : P.n ≤ N) (ha : P.a ≠ 0) (hb : P.b ≠ 0) (κ : ℝ) {A B : Set ℝ}
    (hA : Dense P.m ((fun x => 2 / P.a * x - 1) '' A))
    (hB : Dense P.n ((fun y => 2 / P.b * y - 1) '' B)) (s0 : ℕ) (d : ℕ → ℝ)
    (h : ∀ x ∈ A, ∀ y ∈ B, ∀ s < 6, lin κ S P s0 d s x y = 0) :
    ∃ M : Motion, IsMotion κ P s0 d M ∧ ∀ c < 3, EdgeFits P c (M.field κ c) := by
  obtain ⟨q, hq⟩ := hS
  obtain ⟨s, hs, hs'⟩ := hA
  obtain ⟨t, ht, ht'⟩ := hB
  let G : Grid (max P.m 4) (max P.n 4) q :=
    { N := N
      fam := fun k hk => (hq k hk).1
      hm := max_le hm hN
      hn := max_le hn hN
      m4 := le_max_right _ _
      n4 := le_max_right _ _
      s := s
      t := t
      hs := by omega
      ht := by omega }
  have D : ∀ c {p k : ℕ}, p ≤ 2 → k ≤ 2 → ∀ ξ η, disp S P s0 d c p k ξ η = _ := fun c {p k} hp hk =>
    disp_ser (fun k hk => (hq k hk).2) hm hn s0 d c hp hk
  have z : ∀ ξ ∈ s, ∀ η ∈ t, ∃ x y, ξ = 2 / P.a * x - 1 ∧ η = 2 / P.b * y - 1 ∧
      ∀ s < 6, lin κ S P s0 d s x y = 0 := by
    intro ξ hξ η hη
    obtain ⟨x, hx, rfl⟩ := hs ξ hξ
    obtain ⟨y, hy, rfl⟩ := ht η hη
    exact ⟨x, y, rfl, rfl, fun s hs => h x hx y hy s hs⟩
  have ha' : (2 : ℝ) / P.a ≠ 0 := by positivity
  have hb' : (2 : ℝ) / P.b ≠ 0 := by positivity
  obtain ⟨M, hM⟩ := G.motion (eff P s0 d) (κ := κ) ha hb
    (fun ξ hξ η hη => by
      obtain ⟨x, y, rfl, rfl, h⟩ := z ξ hξ η hη
      have := h 0 (by norm_num)
      simp only [lin, D 0 (by norm_num : 1 ≤ 2) (by norm_num : 0 ≤ 2)] at this
      simpa [ha'] using this)
    (fun ξ hξ η hη => by
      obtain ⟨x, y, rfl, rfl, h⟩ := z ξ hξ η hη
      have := h 1 (by norm_num)
      simp only [lin, D 1 (by norm_num : 0 ≤ 2) (by norm_num : 1 ≤ 2),
        D 2 (by norm_num : 0 ≤ 2) (by norm_num : 0 ≤ 2), pow_zero, pow_one, one_mul] at this
      exact this)
    (fun ξ hξ η hη => by
      obtain ⟨x, y, rfl, rfl, h⟩ := z ξ hξ η hη
      have := h 2 (by norm_num)
      simp only [lin, D 0 (by norm_num : 0 ≤ 2) (by norm_num : 1 ≤ 2),
        D 1 (by norm_num : 1 ≤ 2) (by norm_num : 0 ≤ 2), pow_zero, pow_one, one_mul,
        mul_one] at this
      exact this)
    (fun ξ hξ η hη => by
      obtain ⟨x, y, rfl, rfl, h⟩ := z ξ hξ η hη
      have := h 3 (by norm_num)
      simp only [lin, D 2 (by norm_num : 2 ≤ 2) (by norm_num : 0 ≤ 2), neg_eq_zero] at this
      exact (mul_eq_zero.1 this).resolve_left (by positivity))
    (fun ξ hξ η hη => by
      obtain ⟨x, y, rfl, rfl, h⟩ := z ξ hξ η hη
      have := h 4 (by norm_num)
      simp only [lin, D 2 (by norm_num : 0 ≤ 2) (by norm_num : 2 ≤ 2), neg_eq_zero] at this
      exact (mul_eq_zero.1 this).resolve_left (by positivity))
    (fun ξ hξ η hη => by
      obtain ⟨x, y, rfl, rfl, h⟩ := z ξ hξ η hη
      have := h 5 (by norm_num)
      simp only [lin, D 2 (by norm_num : 1 ≤ 2) (by norm_num : 1 ≤ 2)] at this
      have := (mul_eq_zero.1 this).resolve_left (by norm_num)
      exact (mul_eq_zero.1 this).resolve_left (by positivity))
  refine ⟨M, hM, fun c hc => (fits_iff ha hb κ M hc).2 fun i hi j hj hf => ?_⟩
  rw [← (hM c hc).2 i hi j hj, eff_zero P s0 d c i j hf]

/-- The field of the amplitudes of a motion is the motion. -/
theorem disp_motion {S : Shape ℝ} {N : ℕ} (hS : Hier S N) {P : Panel ℝ} (hm : P.m ≤ N)
    (hn : P.n ≤ N) (ha : P.a ≠ 0) (hb : P.b ≠ 0) {κ : ℝ} {s0 : ℕ} {d : ℕ → ℝ} {M : Motion}
    (h : IsMotion κ P s0 d M) (x y : ℝ) :
    (∀ c < 3, disp S P s0 d c 0 0 (2 / P.a * x - 1) (2 / P.b * y - 1) = M.field κ c x y) ∧
    ∀ s, lin κ S P s0 d s x y = 0 := by
  obtain ⟨q, hq⟩ := hS
  have D : ∀ c {p k : ℕ}, p ≤ 2 → k ≤ 2 → ∀ ξ η, disp S P s0 d c p k ξ η = _ := fun c {p k} hp hk =>
    disp_ser (fun k hk => (hq k hk).2) hm hn s0 d c hp hk
  have E := fun p k => ser_motion (q := q) (le_max_right P.m 4) (le_max_right P.n 4) h p k
    (2 / P.a * x - 1) (2 / P.b * y - 1)
  obtain ⟨⟨x01, x02, x03⟩, ⟨x11, x12, x13⟩, x21, x22, x23⟩ :=
    low_eval (fun k hk => (hq k hk).1) (2 / P.a * x - 1)
  obtain ⟨⟨y01, y02, y03⟩, ⟨y11, y12, y13⟩, y21, y22, y23⟩ :=
    low_eval (fun k hk => (hq k hk).1) (2 / P.b * y - 1)
  constructor
  · intro c hc
    rw [D c (by norm_num) (by norm_num)]
    match c, hc with
    | 0, _ =>
      rw [(E 0 0).1]
      simp only [x01, y01, y02, y03, Motion.field]
      field_simp
      ring
    | 1, _ =>
      rw [(E 0 0).2.1]
      simp only [x01, x02, y01, y02, y03, Motion.field]
      field_simp
      ring
    | 2, _ =>
      rw [(E 0 0).2.2]
      simp only [x01, x02, y01, y02, Motion.field]
      field_simp
      ring
  · intro s
    unfold lin
    rcases s with _ | _ | _ | _ | _ | s
    · simp only []
      rw [D 0 (by norm_num) (by norm_num), (E 1 0).1]
      simp only [x11]
      ring
    · simp only []
      rw [D 1 (by norm_num) (by norm_num), D 2 (by norm_num) (by norm_num), (E 0 1).2.1, (E 0 0).2.2]
      simp only [x01, x02, y01, y02, y11, y12, y13]
      field_simp
      ring
    · simp only []
      rw [D 0 (by norm_num) (by norm_num), D 1 (by norm_num) (by norm_num), (E 0 1).1, (E 1 0).2.1]
      simp only [x01, x11, x12, y01, y02, y11, y12, y13]
      field_simp
      ring
    · simp only []
      rw [D 2 (by norm_num) (by norm_num), (E 2 0).2.2]
      simp only [x21, x22]
      ring
    · simp only []
      rw [D 2 (by norm_num) (by norm_num), (E 0 2).2.2]
      simp only [y21, y22]
      ring
    · simp only []
      rw [D 2 (by norm_num) (by norm_num), (E 1 1).2.2]
      simp only [x11, y11]
      ring

/-- Amplitudes of a motion that fits the edges. -/
theorem exists_motion {P : Panel ℝ} (ha : P.a ≠ 0) (hb : P.b ≠ 0) (hm : 4 ≤ P.m) (hn : 4 ≤ P.n)
    {κ : ℝ} (s0 : ℕ) {M : Motion} (h : ∀ c < 3, EdgeFits P c (M.field κ c)) :
    ∃ d : ℕ → ℝ, IsMotion κ P s0 d M := by
  let g : ℕ → ℕ → ℕ → ℝ := fun c i j => if i < 4 ∧ j < 4 then
    M.data κ P.a P.b c i j / (flag (P.xf c) i * flag (P.yf c) j) else 0
  let d : ℕ → ℝ := fun k => g ((k - s0) % 3) ((k - s0) / 3 % P.m) ((k - s0) / 3 / P.m)
  have hd : ∀ c < 3, ∀ i < P.m, ∀ j, d (s0 + 3 * (j * P.m + i) + c) = g c i j := by
    intro c hc i hi j
    have e : s0 + 3 * (j * P.m + i) + c - s0 = 3 * (j * P.m + i) + c := by omega
    have e1 : (3 * (j * P.m + i) + c) % 3 = c := by omega
    have e2 : (3 * (j * P.m + i) + c) / 3 = j * P.m + i := by omega
    have e3 : (j * P.m + i) % P.m = i := by
      rw [Nat.mul_add_mod_self_right, Nat.mod_eq_of_lt hi]
    have e4 : (j * P.m + i) / P.m = j := by
      rw [add_comm, Nat.add_mul_div_right _ _ (by omega), Nat.div_eq_of_lt hi, zero_add]
    simp only [d, e, e1, e2, e3, e4]
  refine ⟨d, fun c hc => ⟨fun i hi j hj h4 => ?_, fun i hi j hj => ?_⟩⟩
  · rw [max_eq_left hm] at hi
    rw [max_eq_left hn] at hj
    rw [eff, if_pos ⟨hi, hj⟩, hd c hc i hi, show g c i j = 0 from if_neg (by omega), zero_mul]
  · rw [eff, if_pos ⟨by omega, by omega⟩, hd c hc i (by omega),
      show g c i j = _ from if_pos ⟨hi, hj⟩]
    by_cases hf : flag (P.xf c) i = 0 ∨ flag (P.yf c) j = 0
    · rw [(fits_iff ha hb κ M hc).1 (h c hc) i hi j hj hf]; ring
    · push Not at hf
      exact div_mul_cancel₀ _ (mul_ne_zero hf.1 hf.2)

/-- Edges that leave only rest leave no amplitudes. -/
theorem rest_of_motion {P : Panel ℝ} (ha : P.a ≠ 0) (hb : P.b ≠ 0) {κ : ℝ} {s0 : ℕ} {d : ℕ → ℝ}
    {M : Motion} (h : IsMotion κ P s0 d M) (h0 : ∀ c < 3, ∀ x y, M.field κ c x y = 0) :
    ∀ c < 3, Rest P s0 d c := by
  intro c hc
  refine rest_eff P s0 d c fun i hi j hj => ?_
  by_cases h4 : 4 ≤ i ∨ 4 ≤ j
  · exact (h c hc).1 i (by omega) j (by omega) h4
  · rw [(h c hc).2 i (by omega) j (by omega), data_zero ha hb hc (h0 c hc) (by omega) (by omega)]

end Verif.Indep
