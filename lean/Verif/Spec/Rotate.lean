import Verif.Basic.Coo
import Mathlib.Data.Real.Basic

/-!
# Rings of panels

`n` panels with `N` unknowns each, one after the other, make a ring; a model may have several rings of `n`
panels (the skin of a cylinder and its blades).
-/

namespace Verif.Spec

/-- Number of the same unknown `j` panels further round the same ring. -/
def rotNo (n N j k : ℕ) : ℕ := (k / N / n * n + (k / N % n + j) % n) * N + k % N

/-- `A'` is `A` of the structure rotated by `j` panels. -/
def Rotated (n N j : ℕ) (A A' : Coo ℝ) : Prop :=
  ∀ k l, Coo.entry A' k l = Coo.entry A (rotNo n N j k) (rotNo n N j l)

end Verif.Spec
