import Verif.Model.Assy
import Verif.Spec.Support

/-!
# A structure that admits more motions

More terms in the panels, fewer edges held and fewer joints.
-/

namespace Verif.Spec

open Model

/-- `P'` admits every motion of `P`: no fewer terms, and what is free stays free. -/
structure Freer (P P' : Panel ℝ) : Prop where
  m : P.m ≤ P'.m
  n : P.n ≤ P'.n
  a : P'.a = P.a
  b : P'.b = P.b
  x : ∀ α < 3, ∀ i, flag (P.xf α) i ≠ 0 → flag (P'.xf α) i = flag (P.xf α) i
  y : ∀ α < 3, ∀ i, flag (P.yf α) i ≠ 0 → flag (P'.yf α) i = flag (P.yf α) i

/-- The same panels, loads and laminates, with more terms and fewer edges held, and some of the joints. -/
structure FreerAssy (A A' : Assy ℝ) : Prop where
  count : A'.count = A.count
  parts : ∀ p < A.count, ∃ P, Freer (A.part p).shell.pan P ∧
    A'.part p = { A.part p with shell := { (A.part p).shell with pan := P } }
  conns : A'.conns.Sublist A.conns
  left : A'.conns ≠ []

end Verif.Spec
