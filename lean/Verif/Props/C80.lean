import Verif.Proofs.Modes
import Verif.Props.C78Ready

/-!
# C80: frequencies and buckling loads are real, complete, and mean what they should

The pairs of matrices that panels hands to the eigenvalue solvers.  `Modes`, `Eigen`, `Critical` are in
`Spec/Modes.lean`.
-/

set_option linter.unusedSectionVars false

namespace Verif.C80

open Finset Spec Model Indep

/-! ## Symmetric matrices, one of them definite -/

/-- Positive for every set of amplitudes that is not zero. -/
def Pos (t : Finset ℕ) (L : Coo ℝ) : Prop :=
  ∀ v : ℕ → ℝ, (∃ k ∈ t, v k ≠ 0) → (∀ k ∉ t, v k = 0) → 0 < Coo.quad L v

/-- The entries are symmetric. -/
def Sym (L : Coo ℝ) : Prop := ∀ k l, Coo.entry L k l = Coo.entry L l k

section
variable {t : Finset ℕ} {K M : Coo ℝ} {φ : Fin t.card → ℕ → ℝ} {lam : Fin t.card → ℝ}

/-- **C80, existence.** -/
theorem modes (hK : Sym K) (hM : Sym M) (hp : Pos t M) : ∃ φ lam, Modes t K M φ lam :=
  exists_modes hK hM hp

theorem form_sum (L : Coo ℝ) (x : ℕ → ℝ) (q : Fin t.card → ℝ) :
    form t L x (fun k => ∑ a, q a * φ a k) = ∑ a, q a * form t L x (φ a) := by
  unfold form
  simp only [Finset.mul_sum]
  rw [Finset.sum_comm]
  conv_lhs => enter [2, l]; rw [Finset.sum_comm]
  rw [Finset.sum_comm]
  refine Finset.sum_congr rfl fun a _ => ?_
  rw [Finset.sum_comm]
  exact Finset.sum_congr rfl fun k _ => Finset.sum_congr rfl fun l _ => by ring

theorem form_eq (h : Modes t K M φ lam) (x : ℕ → ℝ) (a : Fin t.card) :
    form t K x (φ a) = lam a * form t M x (φ a) := by
  unfold form
  rw [Finset.mul_sum]
  exact Finset.sum_congr rfl fun k hk => by rw [h.eq a k hk]; ring

/-- The coordinates of a set of amplitudes with respect to the modes. -/
theorem coords (h : Modes t K M φ lam) (hM : Sym M) (v : ℕ → ℝ) (hv : ∀ k ∉ t, v k = 0) :
    v = fun k => ∑ a, form t M v (φ a) * φ a k := by
  obtain ⟨q, rfl⟩ := h.whole v hv
  have : ∀ b, form t M (fun k => ∑ a, q a * φ a k) (φ b) = q b := fun b => by
    rw [form_comm hM, form_sum]
    have e : ∀ a, form t M (φ b) (φ a) = if b = a then 1 else 0 := h.orth b
    simp [e]
  simp only [this]

/-- **C80, energies.**  Both energies are sums over the modes. -/
theorem energies (h : Modes t K M φ lam) (hM : Sym M) {v : ℕ → ℝ} (hv : ∀ k ∉ t, v k = 0) :
    ∃ q : Fin t.card → ℝ, (v = fun k => ∑ a, q a * φ a k) ∧ Coo.quad M v = ∑ a, q a ^ 2 ∧
      Coo.quad K v = ∑ a, lam a * q a ^ 2 := by
  refine ⟨fun a => form t M v (φ a), coords h hM v hv, ?_, ?_⟩
  · rw [form_quad M hv]
    conv_lhs => arg 4; rw [coords h hM v hv]
    rw [form_sum]
    exact Finset.sum_congr rfl fun a _ => by ring
  · rw [form_quad K hv]
    conv_lhs => arg 4; rw [coords h hM v hv]
    rw [form_sum]
    exact Finset.sum_congr rfl fun a _ => by rw [form_eq h]; ring

theorem quad_mode (h : Modes t K M φ lam) (a : Fin t.card) :
    Coo.quad M (φ a) = 1 ∧ Coo.quad K (φ a) = lam a := by
  have e : form t M (φ a) (φ a) = 1 := by have := h.orth a a; simpa [form] using this
  rw [form_quad M (h.off a), form_quad K (h.off a), form_eq h, e, mul_one]
  exact ⟨rfl, rfl⟩

theorem mode_ne (h : Modes t K M φ lam) (a : Fin t.card) : ∃ k ∈ t, φ a k ≠ 0 := by
  by_contra hz
  push Not at hz
  have : form t M (φ a) (φ a) = 0 := Finset.sum_eq_zero fun k hk => by rw [hz k hk, zero_mul]
  have h1 := (quad_mode h a).1
  rw [form_quad M (h.off a), this] at h1
  exact zero_ne_one h1

/-- **C80, the lowest.**  The first value is the minimum of the ratio of the energies. -/
theorem lowest (h : Modes t K M φ lam) (hM : Sym M) (h0 : 0 < t.card) :
    (∀ v : ℕ → ℝ, (∀ k ∉ t, v k = 0) → lam ⟨0, h0⟩ * Coo.quad M v ≤ Coo.quad K v) ∧
      Coo.quad M (φ ⟨0, h0⟩) = 1 ∧ Coo.quad K (φ ⟨0, h0⟩) = lam ⟨0, h0⟩ := by
  refine ⟨fun v hv => ?_, quad_mode h _⟩
  obtain ⟨q, -, h1, h2⟩ := energies h hM hv
  rw [h1, h2, Finset.mul_sum]
  exact Finset.sum_le_sum fun a _ => mul_le_mul_of_nonneg_right
    (h.order (Fin.le_def.2 (Nat.zero_le _))) (sq_nonneg _)

/-- **C80, completeness.**  The values of the modes are all eigenvalues, also among the complex
numbers. -/
theorem eigen_iff (h : Modes t K M φ lam) (hK : Sym K) (hM : Sym M) (μ : ℂ) :
    Eigen t K M μ ↔ ∃ a, μ = lam a := by
  constructor
  · rintro ⟨z, ⟨k₀, hk₀, hz⟩, he⟩
    by_contra hne
    push Not at hne
    -- the products of the eigenvector with the modes
    have key : ∀ a, ∑ k ∈ t, z k * ((∑ l ∈ t, Coo.entry M k l * φ a l : ℝ) : ℂ) = 0 := by
      intro a
      have e : ∀ L : Coo ℝ, Sym L → ∑ k ∈ t, (φ a k : ℂ) * ∑ l ∈ t, ((Coo.entry L k l : ℝ) : ℂ) * z l
          = ∑ k ∈ t, z k * ((∑ l ∈ t, Coo.entry L k l * φ a l : ℝ) : ℂ) := by
        intro L hL
        push_cast
        simp only [Finset.mul_sum]
        rw [Finset.sum_comm]
        refine Finset.sum_congr rfl fun k _ => Finset.sum_congr rfl fun l _ => ?_
        rw [hL l k]
        ring
      have h1 : ∑ k ∈ t, (φ a k : ℂ) * ∑ l ∈ t, ((Coo.entry K k l : ℝ) : ℂ) * z l
          = μ * ∑ k ∈ t, (φ a k : ℂ) * ∑ l ∈ t, ((Coo.entry M k l : ℝ) : ℂ) * z l := by
        rw [Finset.mul_sum]
        exact Finset.sum_congr rfl fun k hk => by rw [he k hk]; ring
      rw [e K hK, e M hM] at h1
      have h2 : ∑ k ∈ t, z k * ((∑ l ∈ t, Coo.entry K k l * φ a l : ℝ) : ℂ)
          = lam a * ∑ k ∈ t, z k * ((∑ l ∈ t, Coo.entry M k l * φ a l : ℝ) : ℂ) := by
        rw [Finset.mul_sum]
        exact Finset.sum_congr rfl fun k hk => by rw [h.eq a k hk]; push_cast; ring
      rw [h2] at h1
      have h3 : ((lam a : ℂ) - μ) * ∑ k ∈ t, z k * ((∑ l ∈ t, Coo.entry M k l * φ a l : ℝ) : ℂ) = 0 := by
        rw [sub_mul, h1, sub_self]
      exact (mul_eq_zero.1 h3).resolve_left (sub_ne_zero.2 (Ne.symm (hne a)))
    have part : ∀ x : ℕ → ℝ, (∀ a, form t M (fun k => if k ∈ t then x k else 0) (φ a) = 0) →
        x k₀ = 0 := by
      intro x hx
      have := congrFun (coords h hM (fun k => if k ∈ t then x k else 0) fun k hk => if_neg hk) k₀
      simp only [hx, zero_mul, Finset.sum_const_zero, hk₀, if_true] at this
      exact this
    refine hz (Complex.ext (part (fun k => (z k).re) fun a => ?_) (part (fun k => (z k).im) fun a => ?_))
    · have := congrArg Complex.re (key a)
      simp only [Complex.re_sum, Complex.mul_re, Complex.ofReal_re, Complex.ofReal_im, mul_zero, sub_zero,
        Complex.zero_re] at this
      refine Eq.trans (Finset.sum_congr rfl fun k hk => ?_) this
      simp only [if_pos hk]
    · have := congrArg Complex.im (key a)
      simp only [Complex.im_sum, Complex.mul_im, Complex.ofReal_re, Complex.ofReal_im, mul_zero, zero_add,
        Complex.zero_im] at this
      refine Eq.trans (Finset.sum_congr rfl fun k hk => ?_) this
      simp only [if_pos hk]
  · rintro ⟨a, rfl⟩
    obtain ⟨k, hk, hne⟩ := mode_ne h a
    refine ⟨fun k => φ a k, ⟨k, hk, by simpa using hne⟩, fun k hk => ?_⟩
    have := h.eq a k hk
    beta_reduce
    exact_mod_cast this

/-- **C80, sign.**  All values are positive exactly when the first matrix is definite. -/
theorem positive_iff (h : Modes t K M φ lam) (hM : Sym M) : (∀ a, 0 < lam a) ↔ Pos t K := by
  constructor
  · rintro hl v ⟨k, hk, hne⟩ hv
    obtain ⟨q, rfl, -, h2⟩ := energies h hM hv
    rw [h2]
    refine Finset.sum_pos' (fun a _ => mul_nonneg (hl a).le (sq_nonneg _)) ?_
    by_contra hz
    push Not at hz
    refine hne (Finset.sum_eq_zero fun a ha => ?_)
    have : q a ^ 2 = 0 := by
      by_contra hq
      exact absurd (hz a ha) (not_le.2 (mul_pos (hl a) (lt_of_le_of_ne (sq_nonneg _) (Ne.symm hq))))
    rw [pow_eq_zero_iff (by norm_num)] at this
    rw [this, zero_mul]
  · intro hp a
    rw [← (quad_mode h a).2]
    exact hp _ (mode_ne h a) (h.off a)

end

/-! ## Buckling -/

section
variable {t : Finset ℕ} {K G : Coo ℝ}

/-- The critical multipliers are the negative reciprocals of the values of the modes of the geometric
stiffness with respect to the stiffness. -/
theorem critical_iff {φ : Fin t.card → ℕ → ℝ} {κ : Fin t.card → ℝ} (h : Modes t G K φ κ) (hG : Sym G)
    (hK : Sym K) (p : ℂ) : Critical t K G p ↔ ∃ a, κ a ≠ 0 ∧ p = ((-1 / κ a : ℝ) : ℂ) := by
  constructor
  · rintro ⟨z, hz, he⟩
    have hp : p ≠ 0 := by
      rintro rfl
      -- without loads the matrix has no kernel: `0` would be an eigenvalue of `K` with respect to `K`
      have h1 : Modes t K K φ fun _ => 1 := ⟨fun _ _ _ => le_refl _, h.off, fun a k hk => by rw [one_mul],
        h.orth, h.whole⟩
      obtain ⟨a, ha⟩ := (eigen_iff h1 hK hK 0).1 ⟨z, hz, fun k hk => by simpa using he k hk⟩
      simp at ha
    have h1 : Eigen t G K (-1 / p) := by
      refine ⟨z, hz, fun k hk => ?_⟩
      have := he k hk
      rw [div_mul_eq_mul_div, eq_div_iff hp]
      linear_combination this
    obtain ⟨a, ha⟩ := (eigen_iff h hG hK _).1 h1
    have h2 : p * κ a = -1 := by rw [← ha]; field_simp
    have h3 : κ a ≠ 0 := by
      intro h0
      rw [h0] at h2
      simp at h2
    refine ⟨a, h3, ?_⟩
    push_cast
    rw [eq_div_iff (by exact_mod_cast h3), h2]
  · rintro ⟨a, ha, rfl⟩
    obtain ⟨z, hz, he⟩ := (eigen_iff h hG hK (κ a)).2 ⟨a, rfl⟩
    refine ⟨z, hz, fun k hk => ?_⟩
    rw [he k hk]
    have h3 : ((κ a : ℝ) : ℂ) ≠ 0 := by exact_mod_cast ha
    push_cast
    field_simp
    ring

/-- **C80, critical loads are real** and not zero. -/
theorem critical_real (hG : Sym G) (hK : Sym K) (hp : Pos t K) {p : ℂ} (h : Critical t K G p) :
    p ≠ 0 ∧ p.im = 0 := by
  obtain ⟨φ, κ, hm⟩ := modes hG hK hp
  obtain ⟨a, ha, rfl⟩ := (critical_iff hm hG hK p).1 h
  refine ⟨?_, Complex.ofReal_im _⟩
  have : -1 / κ a ≠ 0 := div_ne_zero (by norm_num) ha
  exact_mod_cast this

/-- **C80, stability.**  Under loads that grow in proportion the energy is positive definite exactly as
long as the multiplier is below all positive critical ones. -/
theorem stable_iff (hG : Sym G) (hK : Sym K) (hp : Pos t K) {p : ℝ} (h0 : 0 ≤ p) :
    (∀ v : ℕ → ℝ, (∃ k ∈ t, v k ≠ 0) → (∀ k ∉ t, v k = 0) → 0 < Coo.quad K v + p * Coo.quad G v) ↔
      ∀ r : ℝ, 0 < r → Critical t K G r → p < r := by
  obtain ⟨φ, κ, hm⟩ := modes hG hK hp
  constructor
  · intro h r hr hc
    obtain ⟨a, ha, hra⟩ := (critical_iff hm hG hK r).1 hc
    have hra' : r = -1 / κ a := by exact_mod_cast hra
    have := h _ (mode_ne hm a) (hm.off a)
    rw [(quad_mode hm a).1, (quad_mode hm a).2] at this
    have hκ : κ a = -1 / r := by rw [hra']; field_simp
    rw [hκ] at this
    have h2 : p / r < 1 := by
      have e : p * (-1 / r) = -(p / r) := by ring
      rw [e] at this
      linarith
    rwa [div_lt_one hr] at h2
  · rintro h v ⟨k, hk, hne⟩ hv
    obtain ⟨q, rfl, h1, h2⟩ := energies hm hK hv
    rw [h1, h2, Finset.mul_sum, ← Finset.sum_add_distrib]
    have pos : ∀ a, 0 < 1 + p * κ a := by
      intro a
      by_cases hκ : 0 ≤ κ a
      · have := mul_nonneg h0 hκ
        linarith
      · push Not at hκ
        have hr : 0 < -1 / κ a := div_pos_of_neg_of_neg (by norm_num) hκ
        have := h _ hr ((critical_iff hm hG hK _).2 ⟨a, hκ.ne, rfl⟩)
        rw [lt_div_iff_of_neg hκ] at this
        linarith
    refine Finset.sum_pos' (fun a _ => ?_) ?_
    · have := mul_nonneg (pos a).le (sq_nonneg (q a))
      linarith
    · by_contra hz
      push Not at hz
      refine hne (Finset.sum_eq_zero fun a ha => ?_)
      have := hz a ha
      have hq : q a ^ 2 = 0 := by
        by_contra hq
        have := mul_pos (pos a) (lt_of_le_of_ne (sq_nonneg (q a)) (Ne.symm hq))
        linarith
      rw [pow_eq_zero_iff (by norm_num)] at hq
      rw [hq, zero_mul]

/-- Loads that never do work on any set of amplitudes (tension) have no positive critical multiplier;
loads that do work on all (compression) have no negative one. -/
theorem critical_sign (hG : Sym G) (hK : Sym K) (hp : Pos t K) {r : ℝ} (h : Critical t K G r) :
    ((∀ v : ℕ → ℝ, 0 ≤ Coo.quad G v) → r < 0) ∧ ((∀ v : ℕ → ℝ, Coo.quad G v ≤ 0) → 0 < r) := by
  obtain ⟨φ, κ, hm⟩ := modes hG hK hp
  obtain ⟨a, ha, hra⟩ := (critical_iff hm hG hK r).1 h
  have hra' : r = -1 / κ a := by exact_mod_cast hra
  rw [hra']
  refine ⟨fun hs => ?_, fun hs => ?_⟩
  · have := hs (φ a)
    rw [(quad_mode hm a).2] at this
    exact div_neg_of_neg_of_pos (by norm_num) (lt_of_le_of_ne this (Ne.symm ha))
  · have := hs (φ a)
    rw [(quad_mode hm a).2] at this
    exact div_pos_of_neg_of_neg (by norm_num) (lt_of_le_of_ne this ha)

/-- **C80, buckling.** -/
theorem buckles (hG : Sym G) (hK : Sym K) (hp : Pos t K) : Buckles t K G :=
  ⟨fun _ h => critical_real hG hK hp h, fun _ h0 => stable_iff hG hK hp h0⟩

/-- **C80, vibration.** -/
theorem vibrates {M : Coo ℝ} (hK : Sym K) (hM : Sym M) (hp : Pos t K) (hm : Pos t M) : Vibrates t K M := by
  obtain ⟨φ, lam, h⟩ := modes hK hM hm
  have hl := (positive_iff h hM).2 hp
  have e : (fun a => Real.sqrt (lam a) ^ 2) = lam := funext fun a => Real.sq_sqrt (hl a).le
  refine ⟨φ, fun a => Real.sqrt (lam a), fun a => Real.sqrt_pos.2 (hl a),
    fun a b hab => Real.sqrt_le_sqrt (h.order hab), by rwa [e], fun μ => (eigen_iff h hK hM μ).trans ?_⟩
  refine exists_congr fun a => ?_
  rw [← Complex.ofReal_pow, congrFun e a]

end

end Verif.C80
