import Verif.Spec.Rigid
import Verif.Spec.Support
import Verif.Model.Multi

/-!
# Panels that fit together, and assemblies that cannot move without strain
-/

namespace Verif.Spec

open Model

/-- The displacements `f1` on `P1` and `f2` on `P2` fit together at a joint: equal displacements and slopes
along the line of an edge joint, with the components turned by a right angle for `BF`, and equal
displacements of the two faces for a joint over the area, `z1` being the distance between the
mid-surfaces. -/
def Meets (func : String) (P1 P2 : Panel ℝ) (z1 z2 : ℝ) (f1 f2 : ℕ → ℝ → ℝ → ℝ) : Prop :=
  if func = "SSxcte" then ∀ y ∈ Set.Icc 0 P1.b,
      f1 0 z1 y = f2 0 z2 (P2.b / P1.b * y) ∧ f1 1 z1 y = f2 1 z2 (P2.b / P1.b * y) ∧
      f1 2 z1 y = f2 2 z2 (P2.b / P1.b * y) ∧ dx (f1 2) z1 y = dx (f2 2) z2 (P2.b / P1.b * y)
  else if func = "SSycte" then ∀ x ∈ Set.Icc 0 P1.a,
      f1 0 x z1 = f2 0 (P2.a / P1.a * x) z2 ∧ f1 1 x z1 = f2 1 (P2.a / P1.a * x) z2 ∧
      f1 2 x z1 = f2 2 (P2.a / P1.a * x) z2 ∧ dy (f1 2) x z1 = dy (f2 2) (P2.a / P1.a * x) z2
  else if func = "BFxcte" then ∀ y ∈ Set.Icc 0 P1.b,
      f1 0 z1 y = f2 2 z2 (P2.b / P1.b * y) ∧ f1 1 z1 y = f2 1 z2 (P2.b / P1.b * y) ∧
      f1 2 z1 y = -f2 0 z2 (P2.b / P1.b * y) ∧ dx (f1 2) z1 y = dx (f2 2) z2 (P2.b / P1.b * y)
  else if func = "BFycte" then ∀ x ∈ Set.Icc 0 P1.a,
      f1 0 x z1 = f2 0 (P2.a / P1.a * x) z2 ∧ f1 1 x z1 = f2 2 (P2.a / P1.a * x) z2 ∧
      f1 2 x z1 = -f2 1 (P2.a / P1.a * x) z2 ∧ dy (f1 2) x z1 = dy (f2 2) (P2.a / P1.a * x) z2
  else ∀ x ∈ Set.Icc 0 P1.a, ∀ y ∈ Set.Icc 0 P1.b,
      f1 0 x y + z1 * dx (f1 2) x y = f2 0 (P2.a / P1.a * x) (P2.b / P1.b * y) ∧
      f1 1 x y + z1 * dy (f1 2) x y = f2 1 (P2.a / P1.a * x) (P2.b / P1.b * y) ∧
      f1 2 x y = f2 2 (P2.a / P1.a * x) (P2.b / P1.b * y)

/-- Position of a joint on a panel, from the two keys of the dictionary for that panel. -/
def jointPos (func : String) (x y : Option ℝ) : ℝ :=
  if func = "SSxcte" ∨ func = "BFxcte" then x.getD 0 else y.getD 0

/-- The displacements `f p` of the panels `P p`, of thickness `h p`, fit together at the joint `d`.  The
panel with the smaller number comes first, however the dictionary is written. -/
def Shut (P : ℕ → Panel ℝ) (h : ℕ → ℝ) (f : ℕ → ℕ → ℝ → ℝ → ℝ) (d : ConnD ℝ) : Prop :=
  let z1 := jointPos d.func d.xcte1 d.ycte1
  let z2 := jointPos d.func d.xcte2 d.ycte2
  let t := (h d.p1 + h d.p2) / 2
  if d.p1 < d.p2 then
    Meets d.func (P d.p1) (P d.p2) (if d.func = "SB" then t else z1) z2 (f d.p1) (f d.p2)
  else Meets d.func (P d.p2) (P d.p1) (if d.func = "SB" then t else z2) z1 (f d.p2) (f d.p1)

/-- Supports and joints leave no motion without strain of the `n` panels but rest. -/
def AssyRestrained (n : ℕ) (P : ℕ → Panel ℝ) (h : ℕ → ℝ) (conns : List (ConnD ℝ)) : Prop :=
  ∀ M : ℕ → Motion, (∀ k < n, ∀ c < 3, EdgeFits (P k) c ((M k).field (1 / (P k).r) c)) →
    (∀ d ∈ conns, Shut P h (fun k => (M k).field (1 / (P k).r)) d) →
    ∀ k < n, ∀ c < 3, ∀ x y, (M k).field (1 / (P k).r) c x y = 0

/-- The quadratic form of the matrix of an assembly is positive for every set of amplitudes of which one
that is switched on is not zero, and is zero for all others; the unknowns of panel `k` begin at
`start k`. -/
def AssyDefinite (n : ℕ) (P : ℕ → Panel ℝ) (start : ℕ → ℕ) (L : Coo ℝ) : Prop :=
  ∀ v : ℕ → ℝ, ((∃ k < n, ∃ i, Active (P k) (start k) i ∧ v i ≠ 0) → 0 < Coo.quad L v) ∧
    ((∀ k < n, ∀ i, Active (P k) (start k) i → v i = 0) → Coo.quad L v = 0)

/-- Two panels share a joint. -/
def Linked (conns : List (ConnD ℝ)) (p q : ℕ) : Prop :=
  ∃ d ∈ conns, (d.p1 = p ∧ d.p2 = q) ∨ (d.p1 = q ∧ d.p2 = p)

end Verif.Spec
