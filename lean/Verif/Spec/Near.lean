import Mathlib.Algebra.Order.Group.Abs
import Mathlib.Algebra.Field.Defs
import Mathlib.Order.Defs.LinearOrder

/-!
# Specification: numbers that `numpy.isclose` takes for the same
-/

namespace Verif.Spec

variable {K : Type*} [Field K] [LinearOrder K]

/-- They differ by no more than `1e-8` and `1e-5` of the second. -/
def Near (x y : K) : Prop := |x - y| ≤ 1 / 100000000 + 1 / 100000 * |y|

end Verif.Spec
