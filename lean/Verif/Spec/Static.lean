import Verif.Basic.Coo
import Mathlib.Algebra.BigOperators.Group.Finset.Basic
import Mathlib.Data.Real.Basic

/-!
# Linear static equilibrium

The unknowns are the amplitudes with numbers in `t`; all others are zero.
-/

namespace Verif.Spec

open Finset

/-- The amplitudes `c` balance the forces `f`. -/
structure Balanced {K : Type*} [Field K] (t : Finset ℕ) (L : Coo K) (f c : ℕ → K) : Prop where
  off : ∀ k ∉ t, c k = 0
  eq : ∀ k ∈ t, ∑ l ∈ t, Coo.entry L k l * c l = f k

/-- `c` makes `Φ` smallest among the amplitudes that vanish outside `t`. -/
structure Smallest (t : Finset ℕ) (Φ : (ℕ → ℝ) → ℝ) (c : ℕ → ℝ) : Prop where
  off : ∀ k ∉ t, c k = 0
  least : ∀ d : ℕ → ℝ, (∀ k ∉ t, d k = 0) → Φ c ≤ Φ d

end Verif.Spec
