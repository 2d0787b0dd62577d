import Verif.Spec.BayPlan
import Verif.Spec.Work

/-!
# Forces on the parts of a stiffened bay

Part 0 is the skin, part `i + 1` the flange of the 2D stiffener with number `i`.  `calc_fext` of a bay does
not accept any force (C61), so the forces are described by the work they do.
-/

namespace Verif.Spec

open Model

/-- A force `size` in direction `dir` (0, 1, 2 for u, v, w) at a point of a part. -/
structure PartForce where
  part : ℕ
  dir : ℕ
  x : ℝ
  y : ℝ
  size : ℝ

/-- The displacement at the point of a force and in its direction. -/
noncomputable def PartForce.shift (S : Shape ℝ) (R : Bay ℝ) (l : PartForce) (c : ℕ → ℝ) : ℝ :=
  field S (bayPanel R l.part) (bayStart R l.part) c l.dir l.x l.y

/-- The work of forces on the displacements with amplitudes `c`. -/
noncomputable def forceWork (S : Shape ℝ) (R : Bay ℝ) (ls : List PartForce) (c : ℕ → ℝ) : ℝ :=
  (ls.map fun l => l.size * l.shift S R c).sum

/-- The force vector: for every amplitude the work of the forces when it is one and all others are zero. -/
noncomputable def forceVector (S : Shape ℝ) (R : Bay ℝ) (ls : List PartForce) (k : ℕ) : ℝ :=
  forceWork S R ls fun i => if i = k then 1 else 0

end Verif.Spec
