import Verif.Proofs.GaussTab

/-!
# C05: the quadrature tables are Gauss rules
-/

namespace Verif.C05

open Finset Model Polynomial

/-- For every supported number of points (2 to 64) the printed points are strictly increasing, lie
strictly inside `(-1, 1)`, are symmetric about 0; the weights are positive and symmetric. -/
theorem gauss_points_weights (n : ℕ) (h2 : 2 ≤ n) (h64 : n ≤ 64) :
    (∀ i j, i < j → j < n → (gaussTab ℝ).pt n i < (gaussTab ℝ).pt n j) ∧
    (∀ i < n, -1 < (gaussTab ℝ).pt n i ∧ (gaussTab ℝ).pt n i < 1) ∧
    (∀ i < n, (gaussTab ℝ).pt n (n - 1 - i) = -(gaussTab ℝ).pt n i) ∧
    (∀ i < n, 0 < (gaussTab ℝ).wt n i) ∧
    (∀ i < n, (gaussTab ℝ).wt n (n - 1 - i) = (gaussTab ℝ).wt n i) :=
  ⟨fun i j => GaussCheck.pt_strictMono n h2 h64 i j, fun i => GaussCheck.pt_inside n h2 h64 i,
    fun i hi => (GaussCheck.symmetric n h2 h64 i hi).1, fun i => GaussCheck.wt_pos n h2 h64 i,
    fun i hi => (GaussCheck.symmetric n h2 h64 i hi).2⟩

/-- `∫_{-1}^{1} x^k dx`. -/
theorem integral_xpow (k : ℕ) :
    ∫ x in (-1 : ℝ)..1, x ^ k = if k % 2 = 0 then 2 / ((k : ℝ) + 1) else 0 := by
  rw [integral_pow]
  rcases Nat.mod_two_eq_zero_or_one k with h | h
  · rw [if_pos h, Odd.neg_one_pow (Nat.odd_iff.2 (by omega)), one_pow]; norm_num
  · rw [if_neg (by omega), Even.neg_one_pow (Nat.even_iff.2 (by omega)), one_pow]; simp

/-- The rule integrates every polynomial of degree at most `2n - 1` with an error below `10^-53`
times the sum of the absolute values of its coefficients. -/
theorem gauss_exactness (n : ℕ) (h2 : 2 ≤ n) (h64 : n ≤ 64) (p : ℝ[X])
    (hp : p.natDegree ≤ 2 * n - 1) :
    |∑ i ∈ range n, (gaussTab ℝ).wt n i * p.eval ((gaussTab ℝ).pt n i)
        - ∫ x in (-1 : ℝ)..1, p.eval x|
      ≤ 1 / 10 ^ 53 * ∑ k ∈ range (p.natDegree + 1), |p.coeff k| := by
  have e1 : ∑ i ∈ range n, (gaussTab ℝ).wt n i * p.eval ((gaussTab ℝ).pt n i)
      = ∑ k ∈ range (p.natDegree + 1), p.coeff k *
          ∑ i ∈ range n, (gaussTab ℝ).wt n i * (gaussTab ℝ).pt n i ^ k := by
    simp only [Finset.mul_sum, eval_eq_sum_range]
    rw [Finset.sum_comm]
    exact Finset.sum_congr rfl fun k _ => Finset.sum_congr rfl fun i _ => by ring
  have e2 : ∫ x in (-1 : ℝ)..1, p.eval x = ∑ k ∈ range (p.natDegree + 1), p.coeff k *
      (if k % 2 = 0 then 2 / ((k : ℝ) + 1) else 0) := by
    simp only [eval_eq_sum_range]
    rw [intervalIntegral.integral_finsetSum]
    · exact Finset.sum_congr rfl fun k _ => by
        rw [intervalIntegral.integral_const_mul, integral_xpow]
    · intro k _
      exact (continuous_const.mul (continuous_pow k)).intervalIntegrable _ _
  rw [e1, e2, ← Finset.sum_sub_distrib, Finset.mul_sum]
  refine (Finset.abs_sum_le_sum_abs _ _).trans (Finset.sum_le_sum fun k hk => ?_)
  rw [← mul_sub, abs_mul, mul_comm]
  have hk' : k < 2 * n := by have := mem_range.1 hk; omega
  exact mul_le_mul_of_nonneg_right (GaussCheck.moment n h2 h64 k hk') (abs_nonneg _)

/-- A degree-7 polynomial with the 4-point rule. -/
example : |∑ i ∈ range 4, (gaussTab ℝ).wt 4 i *
      (X ^ 7 + 3 * X ^ 6 + 1 : ℝ[X]).eval ((gaussTab ℝ).pt 4 i)
        - ∫ x in (-1 : ℝ)..1, (X ^ 7 + 3 * X ^ 6 + 1 : ℝ[X]).eval x|
      ≤ 1 / 10 ^ 53 * ∑ k ∈ range ((X ^ 7 + 3 * X ^ 6 + 1 : ℝ[X]).natDegree + 1),
        |(X ^ 7 + 3 * X ^ 6 + 1 : ℝ[X]).coeff k| :=
  gauss_exactness 4 (by norm_num) (by norm_num) _ (by compute_degree)

/-- Against degeneracy: the two-point rule as printed. -/
example : (gaussTab ℚ).pt 2 1
    = 577350269189625764509148780501957455647601751270126876 / 10 ^ 54 := by
  decide +kernel

end Verif.C05
