import Verif.Spec.RealField

/-!
# Specification: stiffener seen as a beam along `x`

Energies (twice the usual ones) of a blade of height `bf` whose centroid is at the distance `d`
from the skin.  `e` is the axial strain of the centroid line, `k` the bending curvature, `t` the
twist, all of them functions of `x`.
-/

namespace Verif.Spec

/-- Strain energy of the beam of length `len`. -/
noncomputable def beamEnergy (len bf E1 F1 S1 Jxx : ℝ) (e k t : ℝ → ℝ) : ℝ :=
  ∫ x in (0 : ℝ)..len, bf * (E1 * e x ^ 2 + F1 * k x ^ 2 + Jxx * t x ^ 2 - 2 * S1 * e x * t x)

/-- Work of the axial force `Fx` through the rotation `r` of the beam axis. -/
noncomputable def beamGeo (len Fx : ℝ) (r : ℝ → ℝ) : ℝ := ∫ x in (0 : ℝ)..len, Fx * r x ^ 2

/-- Kinetic energy of a blade of thickness `hf`, density `rho`, occupying the heights
`z ∈ [H, H + bf]` below the skin, whose points move with
`(u + z w,x, v + z w,y, w)` (straight normals). -/
noncomputable def bladeKinetic (len rho hf H bf : ℝ) (u v w rx ry : ℝ → ℝ) : ℝ :=
  ∫ x in (0 : ℝ)..len, ∫ z in H..(H + bf),
    rho * hf * ((u x + z * rx x) ^ 2 + (v x + z * ry x) ^ 2 + w x ^ 2)

end Verif.Spec
