import Verif.Spec.Field
import Verif.Model.Fext

/-!
# Specification: work of the external loads

`U α x y` is displacement component `α` at the point `(x, y)`.  Only the load records and the
quadrature table are taken from the model.
-/

namespace Verif.Spec

open Model Finset

variable {K : Type*} [Field K]

/-- Field of the vector `c` at a physical point. -/
def field (S : Shape K) (P : Panel K) (s0 : ℕ) (c : ℕ → K) (α : ℕ) (x y : K) : K :=
  disp S P s0 c α 0 0 (2 * x / P.a - 1) (2 * y / P.b - 1)

/-- `F · u(point)`. -/
def pointWork (U : ℕ → K → K → K) (l : PLoad K) : K :=
  l.fx * U 0 l.x l.y + l.fy * U 1 l.x l.y + l.fz * U 2 l.x l.y

/-- `n`-point quadrature of `h` over `0 ≤ t ≤ len`. -/
def lineQuad (G : GaussTab K) (n : ℕ) (len : K) (h : K → K) : K :=
  ∑ p ∈ range n, G.wt n p * (len / 2) * h ((G.pt n p + 1) * len / 2)

/-- Value of a component that may be absent. -/
def comp (f : Option (K → K)) (t : K) : K := f.elim 0 fun f => f t

/-- `∫ q · u` by quadrature along the loaded line. -/
def distrWork (G : GaussTab K) (P : Panel K) (U : ℕ → K → K → K) (l : DLoad K) : K :=
  match l.x, l.y with
  | none, some y => lineQuad G P.m P.a fun t =>
      comp l.fx t * U 0 t y + comp l.fy t * U 1 t y + comp l.fz t * U 2 t y
  | some x, none => lineQuad G P.n P.b fun t =>
      comp l.fx t * U 0 x t + comp l.fy t * U 1 x t + comp l.fz t * U 2 x t
  | _, _ => 0

/-- Work of everything that is not incremented. -/
def constWork (G : GaussTab K) (P : Panel K) (L : Loads K) (U : ℕ → K → K → K) : K :=
  (L.pointLoads.map (pointWork U)).sum + (L.distrLoads.map (distrWork G P U)).sum
    + (L.pointPds.map (pointWork U)).sum + (L.distrPds.map (distrWork G P U)).sum

/-- Work of everything that is incremented, at `inc = 1`. -/
def incWork (G : GaussTab K) (P : Panel K) (L : Loads K) (U : ℕ → K → K → K) : K :=
  (L.pointLoadsInc.map (pointWork U)).sum + (L.distrLoadsInc.map (distrWork G P U)).sum
    + (L.pointPdsInc.map (pointWork U)).sum + (L.distrPdsInc.map (distrWork G P U)).sum

/-- Exactly one coordinate is fixed. -/
def OnLine (l : DLoad K) : Prop := l.x.isSome ≠ l.y.isSome

/-- Every distributed record fixes exactly one coordinate. -/
def WellFormed (L : Loads K) : Prop :=
  ∀ l ∈ L.distrLoads ++ L.distrLoadsInc ++ L.distrPds ++ L.distrPdsInc, OnLine l

/-- Both sets of loads together. -/
def both (L M : Loads K) : Loads K where
  pointLoads := L.pointLoads ++ M.pointLoads
  pointLoadsInc := L.pointLoadsInc ++ M.pointLoadsInc
  distrLoads := L.distrLoads ++ M.distrLoads
  distrLoadsInc := L.distrLoadsInc ++ M.distrLoadsInc
  pointPds := L.pointPds ++ M.pointPds
  pointPdsInc := L.pointPdsInc ++ M.pointPdsInc
  distrPds := L.distrPds ++ M.distrPds
  distrPdsInc := L.distrPdsInc ++ M.distrPdsInc

end Verif.Spec
