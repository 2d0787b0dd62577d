import Verif.Proofs.ShapeTab
import Mathlib.Analysis.Calculus.Deriv.Basic

/-!
# C01: shape-function evaluators are mutually consistent derivatives
-/

namespace Verif.C01

open Model ShapeCheck

/-- Sum of the absolute values of the printed coefficients of function `i` of a table. -/
def coefSum (T : List Gen.FRow) (i : ℕ) : ℚ :=
  match T[i]? with
  | some r => (r.coef.map fun t => |dec t.2.1 t.2.2|).sum
  | none => 0

theorem consistent {A B : ℚ} {T T' : List Gen.FRow} (h : derTabOK A B T T' = true) (i : ℕ)
    (hi : i < 30) (x : ℝ) (hx : |x| ≤ 1) (fl : Flags ℝ) :
    DifferentiableAt ℝ (fun t => tabVal T i t fl) x ∧
    |deriv (fun t => tabVal T i t fl) x - tabVal T' i x fl|
      ≤ |Spec.flag fl i| * (A * coefSum T' i) ∧
    |deriv (fun t => tabVal T i t fl) x - tabVal T' i x fl| ≤ |Spec.flag fl i| * B := by
  obtain ⟨a, b, ha, hb, fa, fb, hd⟩ := derTab_sound h i hi
  have e1 : (fun t => tabVal T i t fl) = fun t => Spec.flag fl i * tev (terms a) t := by
    funext t
    simp only [tabVal, ha, rowVal_eq, fa, get_min]
  have e2 : tabVal T' i x fl = Spec.flag fl i * tev (terms b) x := by
    simp only [tabVal, hb, rowVal_eq, fb, get_min]
  have e3 : coefSum T' i = mag (terms b) := by
    simp only [coefSum, hb, mag, terms, List.map_map]; rfl
  have hD := (tev_hasDeriv (terms a) x).const_mul (Spec.flag fl i)
  rw [e1, e2, e3]
  refine ⟨hD.differentiableAt, ?_, ?_⟩ <;> rw [hD.deriv, ← mul_sub, abs_mul] <;>
    refine mul_le_mul_of_nonneg_left ?_ (abs_nonneg _)
  · exact_mod_cast (hd x hx).1
  · exact (hd x hx).2

/-- On the whole panel (`|ξ| ≤ 1`), for all flags: the value evaluator is differentiable, its true
derivative differs from the first-derivative evaluator by at most `3·10^-15` times the sum of the
absolute printed coefficients (and never more than `3·10^-7`), and the deviation carries the same
edge flag; likewise for the second derivative. -/
theorem derivative_evaluators (i : ℕ) (hi : i < 30) (x : ℝ) (hx : |x| ≤ 1) (fl : Flags ℝ) :
    let S := scShape ℝ
    DifferentiableAt ℝ (fun t => S.f i t fl) x ∧ DifferentiableAt ℝ (fun t => S.fp i t fl) x ∧
    |deriv (fun t => S.f i t fl) x - S.fp i x fl|
      ≤ |Spec.flag fl i| * (3 / 10 ^ 15 * coefSum Gen.sc_fp i) ∧
    |deriv (fun t => S.f i t fl) x - S.fp i x fl| ≤ |Spec.flag fl i| * (3 / 10 ^ 7) ∧
    |deriv (fun t => S.fp i t fl) x - S.fpp i x fl|
      ≤ |Spec.flag fl i| * (4 / 10 ^ 15 * coefSum Gen.sc_fpp i) ∧
    |deriv (fun t => S.fp i t fl) x - S.fpp i x fl| ≤ |Spec.flag fl i| * (4 / 10 ^ 6) := by
  obtain ⟨a1, a2, a3⟩ := consistent f_fp_ok i hi x hx fl
  obtain ⟨b1, b2, b3⟩ := consistent fp_fpp_ok i hi x hx fl
  push_cast at a2 a3 b2 b3
  exact ⟨a1, b1, a2, a3, b2, b3⟩

/-- The first 10 functions have coefficients of moderate size: the deviation is below `10^-13`. -/
theorem derivative_evaluators_low (i : ℕ) (hi : i < 10) (x : ℝ) (hx : |x| ≤ 1) (fl : Flags ℝ) :
    |deriv (fun t => (scShape ℝ).f i t fl) x - (scShape ℝ).fp i x fl|
      ≤ |Spec.flag fl i| * (1 / 10 ^ 13) := by
  refine (derivative_evaluators i (by omega) x hx fl).2.2.1.trans
    (mul_le_mul_of_nonneg_left ?_ (abs_nonneg _))
  have h : ∀ k < 10, 3 / 10 ^ 15 * coefSum Gen.sc_fp k ≤ 1 / 10 ^ 13 := by decide +kernel
  have h' := (Rat.cast_le (K := ℝ)).2 (h i hi)
  push_cast at h'
  exact h'

/-- The vector evaluators compute the same values as the scalar ones. -/
theorem vec_eq_scalar (K : Type*) [Field K] : vecShape K = scShape K := by
  obtain ⟨h1, h2, h3⟩ := vec_eq
  rw [vecShape, scShape, h1, h2, h3]

example : |deriv (fun t => (scShape ℝ).f 9 t ⟨0, 1, 1, 0⟩) (1 / 3)
    - (scShape ℝ).fp 9 (1 / 3) ⟨0, 1, 1, 0⟩| ≤ 1 / 10 ^ 13 := by
  have := derivative_evaluators_low 9 (by norm_num) (1 / 3) (by norm_num [abs_of_pos])
    ⟨0, 1, 1, 0⟩
  simpa [Spec.flag] using this

/-- The functions are not all zero. -/
example : (scShape ℚ).fp 9 (1 / 3) ⟨0, 1, 1, 0⟩ ≠ 0 := by decide +kernel

end Verif.C01
