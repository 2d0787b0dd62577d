import Verif.Spec.Meet
import Verif.Model.Bay

/-!
# The panels of a stiffened bay

A bay as the assembly of its skin and the flanges of its 2D stiffeners, each flange standing on the skin
along the line `y = ys` with its edge `y = 0`.  The bases of stiffeners and the 1D stiffeners move with the
skin and are no panels of their own here.
-/

namespace Verif.Spec

open Model

/-- The flange of the 2D stiffener with number `i`. -/
noncomputable def flangePanel (R : Bay ℝ) (i : ℕ) : Panel ℝ :=
  match (R.blade2[i]?).bind Blade2.flange with
  | some f => f.panel
  | none => R.skin

/-- Panel `0` is the skin, panel `i + 1` the flange of the 2D stiffener with number `i`. -/
noncomputable def bayPanel (R : Bay ℝ) : ℕ → Panel ℝ
  | 0 => { R.skin with r := R.r.getD 0 }
  | i + 1 => flangePanel R i

/-- The number of unknowns of a flange. -/
def flangeUnknowns (s : Blade2 ℝ) : ℕ :=
  match s.flange with
  | some f => 3 * f.pan.m * f.pan.n
  | none => 0

/-- The unknowns of the skin come first, then those of the flanges. -/
def bayStart (R : Bay ℝ) : ℕ → ℕ
  | 0 => 0
  | i + 1 => 3 * R.skin.m * R.skin.n + ((R.blade2.take i).map flangeUnknowns).sum

/-- The joint of the 2D stiffener with number `i`. -/
def bayJoint (R : Bay ℝ) (i : ℕ) : ConnD ℝ where
  p1 := 0
  p2 := i + 1
  func := "BFycte"
  ycte1 := (R.blade2[i]?).map Blade2.ys
  ycte2 := some 0

/-- The joints of a bay. -/
def bayJoints (R : Bay ℝ) : List (ConnD ℝ) := (List.range R.blade2.length).map (bayJoint R)

/-- Supports and joints leave no motion of skin and flanges without strain but rest. -/
def BayRestrained (R : Bay ℝ) : Prop :=
  AssyRestrained (R.blade2.length + 1) (bayPanel R) (fun _ => 0) (bayJoints R)

/-- A matrix of a bay is positive definite on the amplitudes that are switched on. -/
def BayDefinite (R : Bay ℝ) (L : Coo ℝ) : Prop :=
  AssyDefinite (R.blade2.length + 1) (bayPanel R) (bayStart R) L

end Verif.Spec
