import Mathlib.Data.Real.Basic
import Verif.Model.Bay

/-!
# Bays with stiffeners added
-/

namespace Verif.Spec

open Model

/-- The bay with the 1D stiffeners `l1` and the 2D stiffeners `l2` behind those it has. -/
def stiffened (B : Bay ℝ) (l1 : List (Blade1 ℝ)) (l2 : List (Blade2 ℝ)) : Bay ℝ :=
  { B with blade1 := B.blade1 ++ l1, blade2 := B.blade2 ++ l2 }

/-- A 1D stiffener without force. -/
def Blade1Idle (s : Blade1 ℝ) : Prop := s.Fx.getD 0 = 0

/-- A 2D stiffener whose flange has no loads. -/
def Blade2Idle (s : Blade2 ℝ) : Prop := ∀ f, s.flange = some f → f.Nxx = 0 ∧ f.Nyy = 0 ∧ f.Nxy = 0

end Verif.Spec
