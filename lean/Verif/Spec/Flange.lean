import Verif.Model.Bay

/-!
# Specification: the section of a laminated flange

A flange is a stack of plies without gaps; its plies carry no transverse stress.
-/

namespace Verif.Spec

variable {K : Type} [Field K]

/-- A ply with its plane stiffness in the axes of the flange. -/
structure FullPly (K : Type) where
  h : K
  q11 : K
  q12 : K
  q16 : K
  q22 : K
  q26 : K
  q66 : K

namespace FullPly

/-- What the code reads of it. -/
def read (p : FullPly K) : Model.Ply K := ⟨p.h, p.q11, p.q12, p.q16, p.q22⟩

/-- A unit of axial strain without shear strain and without transverse stress gives the axial stress `s` and
the shear stress `t`. -/
def Response (p : FullPly K) (s t : K) : Prop :=
  ∃ e, p.q12 + p.q22 * e = 0 ∧ s = p.q11 + p.q12 * e ∧ t = p.q16 + p.q26 * e

end FullPly

/-- The plies of a stack with the position of their lower faces; the stack begins at `z`. -/
def layers (z : K) : List (FullPly K) → List (K × FullPly K)
  | [] => []
  | p :: l => (z, p) :: layers (z + p.h) l

/-- Thickness of a stack. -/
def thickness (l : List (FullPly K)) : K := (l.map FullPly.h).sum

/-- Integral over the thickness of a stack that begins at `z` of a constant `f p` in each ply. -/
def integral (f : FullPly K → K) (z : K) (l : List (FullPly K)) : K :=
  ((layers z l).map fun t => f t.2 * (t.1 + t.2.h - t.1)).sum

/-- Integral of `y * f p`. -/
def firstMoment (f : FullPly K → K) (z : K) (l : List (FullPly K)) : K :=
  ((layers z l).map fun t => f t.2 * (((t.1 + t.2.h) ^ 2 - t.1 ^ 2) / 2)).sum

/-- `E1` and `S1` are the axial stiffness and (with the sign of the code) the first moment, about the middle
plane, of the coupling between axial strain and shear stress. -/
def IsSection (l : List (FullPly K)) (E1 S1 : K) : Prop :=
  ∃ s t : FullPly K → K, (∀ p ∈ l, p.Response (s p) (t p)) ∧ E1 = integral s 0 l ∧
    S1 = -firstMoment t (-(thickness l / 2)) l

end Verif.Spec
