import Mathlib.Data.Real.Basic

/-!
# Legendre polynomials from their recursion
-/

namespace Verif.Spec

/-- `P₀ = 1`, `P₁ = x`, `(n + 2) Pₙ₊₂ = (2 n + 3) x Pₙ₊₁ - (n + 1) Pₙ`. -/
noncomputable def legendre : ℕ → ℝ → ℝ
  | 0, _ => 1
  | 1, x => x
  | n + 2, x => ((2 * n + 3) * x * legendre (n + 1) x - (n + 1) * legendre n x) / (n + 2)

end Verif.Spec
