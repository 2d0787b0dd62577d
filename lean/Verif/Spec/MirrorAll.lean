import Verif.Model.Assy
import Verif.Spec.Mirror

/-!
# The mirror image of an assembly

Every panel is mirrored along its own axes.  A plane normal to a skin and along a flange standing on it mirrors
the skin in `y` and turns the flange over, so a third direction is needed: `Z` exchanges the faces of a panel.
-/

namespace Verif.Spec

open Model

/-- Along which of its axes a panel is mirrored. -/
structure Facing where
  X : Bool
  Y : Bool
  Z : Bool

variable {K : Type*} [Field K]

/-- Displacements along a mirrored axis change sign. -/
def dSign (g : Facing) (α : ℕ) : K :=
  match α with
  | 0 => sgn g.X
  | 1 => sgn g.Y
  | _ => sgn g.Z

/-- Strains as in `eSign`; curvatures change sign with the faces as well. -/
def kSign (g : Facing) (s : ℕ) : K := eSign g.X g.Y s * if s < 3 then 1 else sgn g.Z

/-- The mirrored laminate: the coupling terms change sign with the faces. -/
def mirLam (g : Facing) (F : ℕ → ℕ → K) (s t : ℕ) : K := kSign g s * kSign g t * F s t

/-- Forces normal to the panel change sign. -/
def overPoint (Z : Bool) (l : PLoad K) : PLoad K := { l with fz := sgn Z * l.fz }

def overLine (Z : Bool) (l : DLoad K) : DLoad K := { l with fz := l.fz.map fun f s => sgn Z * f s }

def overLoads (Z : Bool) (L : Loads K) : Loads K where
  pointLoads := L.pointLoads.map (overPoint Z)
  pointLoadsInc := L.pointLoadsInc.map (overPoint Z)
  distrLoads := L.distrLoads.map (overLine Z)
  distrLoadsInc := L.distrLoadsInc.map (overLine Z)
  pointPds := L.pointPds.map (overPoint Z)
  pointPdsInc := L.pointPdsInc.map (overPoint Z)
  distrPds := L.distrPds.map (overLine Z)
  distrPdsInc := L.distrPdsInc.map (overLine Z)

/-- Mirrored loads. -/
def mirLoads (g : Facing) (a b : K) (L : Loads K) : Loads K := overLoads g.Z (turnLoads g.X g.Y a b L)

/-- The mirrored joint: it has moved on both panels. -/
def mirConn (g : ℕ → Facing) (a b : ℕ → K) (d : ConnD K) : ConnD K :=
  { d with
    xcte1 := d.xcte1.map (across (g d.p1).X (a d.p1))
    ycte1 := d.ycte1.map (across (g d.p1).Y (b d.p1))
    xcte2 := d.xcte2.map (across (g d.p2).X (a d.p2))
    ycte2 := d.ycte2.map (across (g d.p2).Y (b d.p2)) }

/-- Two joined panels are mirrored in the same plane: a right angle exchanges the normal of one panel with an
axis of the other.  Panels laid over each other keep which of them is on top. -/
def SamePlane (f : String) (g h : Facing) : Prop :=
  if f = "BFxcte" then g.X = h.Z ∧ g.Y = h.Y ∧ g.Z = h.X
  else if f = "BFycte" then g.X = h.X ∧ g.Y = h.Z ∧ g.Z = h.Y
  else if f = "SB" then g.X = h.X ∧ g.Y = h.Y ∧ g.Z = false ∧ h.Z = false
  else g.X = h.X ∧ g.Y = h.Y ∧ g.Z = h.Z

/-- The mirrored panel: `s`, `s'` as given, `t`, `t'` once they are built.  A panel that is turned over is
flat. -/
structure MirPart {K : Type} [Field K] [LinearOrder K] (g : Facing) (s s' t t' : Shell K) : Prop where
  panel : Turned g.X g.Y s.panel s'.panel
  radius : s'.r.getD 0 = s.r.getD 0
  kind : t'.model.bind kindOf = t.model.bind kindOf
  shape : s.r.getD 0 = 0 ∧ t.model.bind kindOf = some .plate ∨
    s.r.getD 0 ≠ 0 ∧ t.model.bind kindOf = some .cyl ∧ g.Z = false
  nxx : s'.Nxx = s.Nxx
  nyy : s'.Nyy = s.Nyy
  nxy : s'.Nxy = sgn g.X * sgn g.Y * s.Nxy
  rho : s'.rho = s.rho
  offset : s'.offset = sgn g.Z * s.offset
  thick : t'.plyts.sum = t.plyts.sum
  lam : ∃ l l', t.lam = some l ∧ t'.lam = some l' ∧ l'.ABD = mirLam g l.ABD ∧ l'.h = l.h

/-- The mirrored assembly, with the mirrored loads. -/
structure MirAssy {K : Type} [Field K] [LinearOrder K] (g : ℕ → Facing) (A A' : Assy K) (T T' : ℕ → Shell K) :
    Prop where
  count : A'.count = A.count
  conns : A'.conns = A.conns.map
    (mirConn g (fun p => (A.part p).shell.pan.a) fun p => (A.part p).shell.pan.b)
  plane : ∀ d ∈ A.conns, SamePlane d.func (g d.p1) (g d.p2)
  parts : ∀ p < A.count, MirPart (g p) (A.part p).shell (A'.part p).shell (T p) (T' p)
  loads : ∀ p < A.count, (A'.part p).loads
    = mirLoads (g p) (A.part p).shell.pan.a (A.part p).shell.pan.b (A.part p).loads
  terms : ∀ p < A.count, ((g p).X = true → 4 ≤ (A.part p).shell.pan.m) ∧
    ((g p).Y = true → 4 ≤ (A.part p).shell.pan.n)

/-- Sign of the number `k` of a panel of `m × n` terms from `s` on, for the faces. -/
def overNo (Z : Bool) (m n s k : ℕ) : K :=
  if (s ≤ k ∧ k < s + 3 * (m * n)) ∧ (k - s) % 3 = 2 then sgn Z else 1

/-- Number `k` of an assembly of `c` panels, the `p`-th with `m p × n p` terms from `start p` on, belongs to
this number of the mirrored assembly. -/
def mirNo (g : ℕ → Facing) (m n start : ℕ → ℕ) : ℕ → ℕ → ℕ
  | 0, k => k
  | c + 1, k => twinNo (g c).X (g c).Y (m c) (n c) (start c) (mirNo g m n start c k)

/-- Its sign. -/
def mirSign (g : ℕ → Facing) (m n start : ℕ → ℕ) : ℕ → ℕ → K
  | 0, _ => 1
  | c + 1, k => mirSign g m n start c k * (overNo (g c).Z (m c) (n c) (start c) k *
      signNo (g c).X (g c).Y (m c) (n c) (start c) k)

end Verif.Spec
