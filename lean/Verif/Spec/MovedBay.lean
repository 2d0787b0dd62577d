import Verif.Model.Bay

/-!
# The stiffeners of a bay in another order

The order in which stiffeners are added to a `StiffPanelBay` has no meaning for the structure.
-/

namespace Verif.Spec

open Model

variable {K : Type} [Field K] [LinearOrder K]

/-- The same bay with its stiffeners in another order: the 2D stiffener `i` has become number `σ i`. -/
structure MovedBay (σ : ℕ ≃ ℕ) (B B' : Bay K) : Prop where
  rest : B' = { B with blade1 := B'.blade1, blade2 := B'.blade2 }
  blade1 : B'.blade1.Perm B.blade1
  count : B'.blade2.length = B.blade2.length
  inside : ∀ i, σ i < B.blade2.length ↔ i < B.blade2.length
  blade2 : ∀ i < B.blade2.length, B'.blade2[σ i]? = B.blade2[i]?

end Verif.Spec
