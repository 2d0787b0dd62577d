import Verif.Basic.Coo
import Verif.Model.Shell
import Mathlib.Data.Complex.Basic
import Mathlib.Algebra.BigOperators.Group.Finset.Basic
import Mathlib.Data.Real.Basic

/-!
# Plates in a flow
-/

namespace Verif.Spec

open Finset Model

/-- `μ` is a (complex) eigenvalue of the structure in the flow: `(K + A) z = μ M z` with `z` not zero;
`A` is the aerodynamic matrix. -/
def Flutter (t : Finset ℕ) (K A M : Coo ℝ) (μ : ℂ) : Prop :=
  ∃ z : ℕ → ℂ, (∃ k ∈ t, z k ≠ 0) ∧
    ∀ k ∈ t, ∑ l ∈ t, ((Coo.entry K k l + Coo.entry A k l : ℝ) : ℂ) * z l
      = μ * ∑ l ∈ t, ((Coo.entry M k l : ℝ) : ℂ) * z l

/-- Two panels in the same flow, apart from its direction. -/
structure SameFlow {K : Type*} (s s2 : Shell K) : Prop where
  beta : s2.beta = s.beta
  gamma : s2.gamma = s.gamma
  Mach : s2.Mach = s.Mach
  V : s2.V = s.V
  rhoAir : s2.rhoAir = s.rhoAir
  r : s2.r = s.r

end Verif.Spec
