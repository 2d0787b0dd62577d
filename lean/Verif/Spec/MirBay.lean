import Verif.Spec.BayPlan
import Verif.Spec.MirrorAll

/-!
# The mirror image of a stiffened bay

`X` mirrors the bay along its stiffeners, `Y` across them.  Skin and bases lie in the plane of the bay.  The
flanges stand on it: what is across the bay exchanges their faces.
-/

namespace Verif.Spec

open Model

/-- The parts of the bay: `0` is the skin, the others are flanges. -/
def bayFace (X Y : Bool) : ℕ → Facing
  | 0 => ⟨X, Y, false⟩
  | _ + 1 => ⟨X, false, Y⟩

/-- The mirrored shell, as given and once it is built. -/
def MirShell (E : Env ℝ) (g : Facing) (s s' : Shell ℝ) : Prop :=
  s'.plyts.sum = s.plyts.sum ∧
    ∃ t t', s.rebuild E = .ok t ∧ s'.rebuild E = .ok t' ∧ MirPart g s s' t t'

/-- The section of a mirrored beam: the coupling of stretching and twisting changes sign. -/
structure MirSection (X Y : Bool) (c c' : Section ℝ) : Prop where
  hf : c'.hf = c.hf
  E1 : c'.E1 = c.E1
  F1 : c'.F1 = c.F1
  S1 : c'.S1 = sgn X * sgn Y * c.S1

/-- The mirrored 1D stiffener on a bay of width `b`.  The panels at its two sides are exchanged. -/
structure MirBlade1 (E : Env ℝ) (X Y : Bool) (b : ℝ) (s s' : Blade1 ℝ) : Prop where
  panel1 : s'.panel1 = if Y then s.panel2 else s.panel1
  panel2 : s'.panel2 = if Y then s.panel1 else s.panel2
  rho : s'.rho = s.rho
  ys : s'.ys = across Y b s.ys
  bf : s'.bf = s.bf
  Fx : s'.Fx = s.Fx
  dbf : s'.dbf = s.dbf
  Jxx : s'.Jxx = s.Jxx
  base : Option.Rel (MirShell E ⟨X, Y, false⟩) s.base s'.base
  sec : Option.Rel (MirSection X Y) s.sec s'.sec

/-- The mirrored 2D stiffener. -/
structure MirBlade2 (E : Env ℝ) (X Y : Bool) (b : ℝ) (s s' : Blade2 ℝ) : Prop where
  panel1 : s'.panel1 = if Y then s.panel2 else s.panel1
  panel2 : s'.panel2 = if Y then s.panel1 else s.panel2
  ys : s'.ys = across Y b s.ys
  base : Option.Rel (MirShell E ⟨X, Y, false⟩) s.base s'.base
  flange : Option.Rel (MirShell E ⟨X, false, Y⟩) s.flange s'.flange
  terms : ∀ f, s.flange = some f → X = true → 4 ≤ f.pan.m

/-- The mirrored bay, as rebuilt: every part is mirrored. -/
structure MirBay (E : Env ℝ) (X Y : Bool) (R R' : Bay ℝ) : Prop where
  skin : Turned X Y (bayPanel R 0) (bayPanel R' 0)
  terms : (X = true → 4 ≤ R.skin.m) ∧ (Y = true → 4 ≤ R.skin.n)
  panels : List.Forall₂ (MirShell E ⟨X, Y, false⟩) R.panels R'.panels
  blade1 : List.Forall₂ (MirBlade1 E X Y R.skin.b) R.blade1 R'.blade1
  blade2 : List.Forall₂ (MirBlade2 E X Y R.skin.b) R.blade2 R'.blade2

/-- The panels at both sides of a flange without base are as stiff and thick as each other. -/
def EvenSkin (R : Bay ℝ) : Prop :=
  ∀ s ∈ R.blade2, s.base = none → ∀ p q, R.panels[s.panel1]? = some p → R.panels[s.panel2]? = some q →
    ∀ l l', p.lam = some l → q.lam = some l' →
      l'.h = l.h ∧ ∀ i ∈ [0, 1, 3, 4], l'.ABD i i = l.ABD i i

end Verif.Spec
