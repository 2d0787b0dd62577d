import Verif.Basic.Assembly
import Mathlib.Order.Interval.Finset.Nat

/-!
# Trial functions added to a panel

A panel with `m` by `n` terms and one with `m'` by `n'` terms, `m ≤ m'` and `n ≤ n'`, share the trial
functions `i < m`, `j < n`.
-/

namespace Verif.Spec

variable {K : Type*}

/-- The number of the amplitude of the term `(i, j)` of component `α`, in a block that starts at `s` with
`m` terms along `x`. -/
def number (m s i j α : ℕ) : ℕ := s + 3 * (j * m + i) + α

/-- On the trial functions they share, two matrices agree. -/
def Nested [Field K] (m n s m' s' : ℕ) (A B : Coo K) : Prop :=
  ∀ i < m, ∀ j < n, ∀ α < 3, ∀ k < m, ∀ l < n, ∀ β < 3,
    Coo.entry A (number m s i j α) (number m s k l β)
      = Coo.entry B (number m' s' i j α) (number m' s' k l β)

/-- `c'` has the amplitudes of `c`, and zero for the additional trial functions. -/
def Extends [Zero K] (m n s m' n' s' : ℕ) (c c' : ℕ → K) : Prop :=
  (∀ i < m, ∀ j < n, ∀ α < 3, c' (number m' s' i j α) = c (number m s i j α)) ∧
    ∀ i < m', ∀ j < n', ∀ α < 3, ¬ (i < m ∧ j < n) → c' (number m' s' i j α) = 0

/-- The numbers of the amplitudes of a block. -/
def numbers (m n s : ℕ) : Finset ℕ := Finset.Ico s (s + 3 * (m * n))

end Verif.Spec
