import Verif.Basic.Mean
import Mathlib.Analysis.SpecialFunctions.Integrals.Basic
import Mathlib.Topology.ContinuousMap.Algebra

/-!
# The integral over `[-1, 1]` as a `Mean`
-/

namespace Verif

open MeasureTheory

/-- Continuous real functions as a subalgebra of all functions. -/
def contAlg : Subalgebra ℝ (ℝ → ℝ) where
  carrier := {f | Continuous f}
  mul_mem' := fun ha hb => Continuous.mul ha hb
  one_mem' := continuous_const
  add_mem' := fun ha hb => Continuous.add ha hb
  zero_mem' := continuous_const
  algebraMap_mem' := fun _ => continuous_const

/-- `f ↦ ∫_{-1}^{1} f`. -/
noncomputable def Mean.integral : Mean ℝ where
  L f := ∫ x in (-1 : ℝ)..1, f x
  C := contAlg
  add := fun _ hf _ hg =>
    intervalIntegral.integral_add (Continuous.intervalIntegrable hf _ _)
      (Continuous.intervalIntegrable hg _ _)
  smul := fun c f _ => intervalIntegral.integral_const_mul c f

end Verif
