import Verif.Spec.RealField

/-!
# Specification: penalty energy of a joint

Twice the energy stored in a joint whose springs of stiffness `kt` (translation) and `kr`
(rotation) act on the mismatches `g0, g1, g2` of the displacements and `g3` of the slope.
-/

namespace Verif.Spec

/-- Joint along a line of length `len`. -/
noncomputable def jointEnergy (len kt kr : ℝ) (g0 g1 g2 g3 : ℝ → ℝ) : ℝ :=
  ∫ t in (0 : ℝ)..len, (kt * (g0 t ^ 2 + g1 t ^ 2 + g2 t ^ 2) + kr * g3 t ^ 2)

/-- Joint over a rectangle `a × b`, no rotational springs. -/
noncomputable def areaEnergy (a b kt : ℝ) (g0 g1 g2 : ℝ → ℝ → ℝ) : ℝ :=
  ∫ x in (0 : ℝ)..a, ∫ y in (0 : ℝ)..b, kt * (g0 x y ^ 2 + g1 x y ^ 2 + g2 x y ^ 2)

end Verif.Spec
