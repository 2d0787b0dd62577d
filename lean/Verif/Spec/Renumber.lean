import Verif.Model.Assy

/-!
# The panels of an assembly in another order

The order in which the panels are handed to `MultiDomain` has no meaning for the structure: the same panels, loads
and joints.
-/

namespace Verif.Spec

open Model

variable {K : Type} [Field K] [LinearOrder K]

/-- The same joint; panel `p` has become panel `π p`. -/
def movedConn (π : ℕ ≃ ℕ) (d : ConnD K) : ConnD K := { d with p1 := π d.p1, p2 := π d.p2 }

/-- The same assembly with its panels in another order. -/
structure MovedAssy (π : ℕ ≃ ℕ) (A A' : Assy K) : Prop where
  count : A'.count = A.count
  inside : ∀ p, π p < A.count ↔ p < A.count
  parts : ∀ p < A.count, A'.part (π p) = A.part p
  conns : A'.conns = A.conns.map (movedConn π)

/-- The panel of the joint that comes first still comes first, or the joint is one between two skins along edges
of the same length, where both panels play the same part. -/
def Keeps (π : ℕ ≃ ℕ) (a b : ℕ → K) (d : ConnD K) : Prop :=
  (d.p1 < d.p2 ↔ π d.p1 < π d.p2) ∨ d.func = "SSxcte" ∧ b d.p1 = b d.p2 ∨ d.func = "SSycte" ∧ a d.p1 = a d.p2

/-- Block `p < c`, of `len p` numbers from `src p` on, becomes the block from `dst p` on. -/
def moveNo (src dst len : ℕ → ℕ) : ℕ → ℕ → ℕ
  | 0, k => k
  | c + 1, k => if src c ≤ k ∧ k < src c + len c then dst c + (k - src c) else moveNo src dst len c k

end Verif.Spec
