import Verif.Proofs.GaussTab

/-!
# C06: a requested quadrature rule integrates constants

Violated: `leggauss_quad` has no default branch, so for 1 point and for more than 64 points the
buffers keep their zeros and everything integrates to 0.
-/

namespace Verif.C06

open Finset Model

/-- The property: whatever number of points is requested, the constant 1 integrates to 2
(up to the printed digits). -/
def IntegratesConstants (n : ℕ) : Prop :=
  |∑ i ∈ range n, (gaussTab ℝ).wt n i - 2| ≤ 1 / 10 ^ 53

theorem gaussRows_length : Gen.gaussRows.length = 63 := by decide +kernel

/-- Unsupported numbers of points: every point and weight is zero. -/
theorem unsupported_zero (n : ℕ) (h : n < 2 ∨ 64 < n) (i : ℕ) :
    (gaussTab ℝ).pt n i = 0 ∧ (gaussTab ℝ).wt n i = 0 := by
  have e : gaussPair n i = (0, 0) := by
    rcases h with h | h
    · rw [gaussPair, if_pos h]
    · rw [gaussPair, if_neg (by omega), (List.getElem?_eq_none (by rw [gaussRows_length]; omega) : Gen.gaussRows[n - 2]? = none)]
      rfl
  simp [gaussTab, e, dec]

/-- The claim holds for 2 to 64 points. -/
theorem integrates_constants_partial (n : ℕ) (h2 : 2 ≤ n) (h64 : n ≤ 64) :
    IntegratesConstants n := by
  have := GaussCheck.moment (K := ℝ) n h2 h64 0 (by omega)
  simpa [IntegratesConstants] using this

example : IntegratesConstants 17 := integrates_constants_partial 17 (by norm_num) (by norm_num)

/-- The claim fails for every other number of points: the constant 1 integrates to 0. -/
theorem not_integrates_constants (n : ℕ) (h : n < 2 ∨ 64 < n) : ¬ IntegratesConstants n := by
  have e : ∑ i ∈ range n, (gaussTab ℝ).wt n i = 0 :=
    Finset.sum_eq_zero fun i _ => (unsupported_zero n h i).2
  rw [IntegratesConstants, e, zero_sub, abs_neg, abs_two, not_le]
  norm_num

/-- Exactly the 63 tabulated rules satisfy the claim. -/
theorem integrates_constants_iff (n : ℕ) : IntegratesConstants n ↔ 2 ≤ n ∧ n ≤ 64 := by
  constructor
  · intro h
    by_contra hn
    exact not_integrates_constants n (by omega) h
  · exact fun h => integrates_constants_partial n h.1 h.2

/-- So the property as stated (all `n ≥ 1`) is false. -/
theorem integrates_constants_violated : ¬ ∀ n, 1 ≤ n → IntegratesConstants n :=
  fun h => not_integrates_constants 1 (by norm_num) (h 1 le_rfl)

end Verif.C06
