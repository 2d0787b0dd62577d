import Verif.Spec.BayPlan
import Verif.Model.Bay

/-!
# Edges and loads of the parts of a 2D stiffener
-/

namespace Verif.Spec

open Model

/-- All edges free. -/
def AllFree (P : Panel ℝ) : Prop := ∀ c < 3, P.xf c = ⟨1, 1, 1, 1⟩ ∧ P.yf c = ⟨1, 1, 1, 1⟩

/-- The panel with all edges free. -/
def freed (P : Panel ℝ) : Panel ℝ :=
  { P with xu := ⟨1, 1, 1, 1⟩, xv := ⟨1, 1, 1, 1⟩, xw := ⟨1, 1, 1, 1⟩
           yu := ⟨1, 1, 1, 1⟩, yv := ⟨1, 1, 1, 1⟩, yw := ⟨1, 1, 1, 1⟩ }

/-- The stiffener with all edges of its flange free. -/
def freeFlange (s : Blade2 ℝ) : Blade2 ℝ :=
  { s with flange := s.flange.map fun f => { f with pan := freed f.pan } }

/-- The stiffener with the membrane forces of its base replaced. -/
def loadBase (Nxx Nyy Nxy : ℝ) (s : Blade2 ℝ) : Blade2 ℝ :=
  { s with base := s.base.map fun b => { b with Nxx := Nxx, Nyy := Nyy, Nxy := Nxy } }

end Verif.Spec
