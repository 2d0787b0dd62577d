import Verif.Spec.BayPlan
import Verif.Model.Assy

/-!
# A bay taken apart

The skin of a bay and the flanges of its 2D stiffeners as the panels of an assembly, joined along the lines on
which the flanges stand.
-/

namespace Verif.Spec

open Model

/-- Panel `0` is the skin `p`, panel `i + 1` the flange of the 2D stiffener with number `i`. -/
def bayPart (R : Bay ℝ) (p : Shell ℝ) : ℕ → Model.Part ℝ
  | 0 => ⟨"skin", 0, 0, p, {}⟩
  | i + 1 => ⟨"flange", 0, 0, ((R.blade2[i]?).bind Blade2.flange).getD p, {}⟩

/-- The assembly of the parts of a bay with the skin `p`. -/
def bayAssy (R : Bay ℝ) (p : Shell ℝ) : Assy ℝ where
  part := bayPart R p
  count := R.blade2.length + 1
  conns := bayJoints R

/-- Panels that differ in the part of the skin they cover only. -/
def Alike (p q : Shell ℝ) : Prop :=
  ∃ y1 y2, q = { p with pan := { p.pan with y1 := y1, y2 := y2 } }

/-- A bay with flanges only: no beams, no bases; every part has terms. -/
structure Flanged (R : Bay ℝ) : Prop where
  blade1 : R.blade1 = []
  base : ∀ s ∈ R.blade2, s.base = none
  any : R.blade2 ≠ []
  skin : 0 < R.skin.m ∧ 0 < R.skin.n
  terms : ∀ s ∈ R.blade2, ∀ f, s.flange = some f → 0 < f.pan.m ∧ 0 < f.pan.n

/-- The same matrix, entry by entry. -/
def SameMatrix (L M : Coo ℝ) : Prop := ∀ k l, Coo.entry L k l = Coo.entry M k l

end Verif.Spec
