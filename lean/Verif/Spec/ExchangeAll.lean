import Verif.Model.Assy
import Verif.Spec.Exchange

/-!
# An assembly described with the axes exchanged
-/

namespace Verif.Spec

open Model

/-- The same kind of joint, along the other axis. -/
def exFunc (f : String) : String :=
  if f = "SSxcte" then "SSycte" else if f = "SSycte" then "SSxcte"
  else if f = "BFxcte" then "BFycte" else if f = "BFycte" then "BFxcte" else f

/-- The same joint. -/
def exConn {K : Type*} (d : ConnD K) : ConnD K where
  p1 := d.p1
  p2 := d.p2
  func := exFunc d.func
  xcte1 := d.ycte1
  xcte2 := d.ycte2
  ycte1 := d.xcte1
  ycte2 := d.xcte2
  tsl := d.tsl

/-- The same panel: `s`, `s'` as given, `t`, `t'` once they are built.  Both are flat. -/
structure ExPart {K : Type} [Field K] [LinearOrder K] (s s' t t' : Shell K) : Prop where
  panel : Exchanged s.panel s'.panel
  flat : s.r.getD 0 = 0 ∧ s'.r.getD 0 = 0
  plate : t.model.bind kindOf = some .plate ∧ t'.model.bind kindOf = some .plate
  nxx : s'.Nxx = s.Nyy
  nyy : s'.Nyy = s.Nxx
  nxy : s'.Nxy = s.Nxy
  rho : s'.rho = s.rho
  offset : s'.offset = s.offset
  thick : t'.plyts.sum = t.plyts.sum
  lam : ∃ l l', t.lam = some l ∧ t'.lam = some l' ∧ l'.ABD = flipLam l.ABD ∧ l'.h = l.h

/-- The same assembly, with the same loads. -/
structure ExAssy {K : Type} [Field K] [LinearOrder K] (A A' : Assy K) (T T' : ℕ → Shell K) : Prop where
  count : A'.count = A.count
  conns : A'.conns = A.conns.map exConn
  parts : ∀ p < A.count, ExPart (A.part p).shell (A'.part p).shell (T p) (T' p)
  loads : ∀ p < A.count, (A'.part p).loads = flipLoads (A.part p).loads

/-- Number `k` of an assembly of `c` plates, the `p`-th with `m p × n p` terms from `start p` on, belongs
to this number of the exchanged assembly: every plate is renumbered on its own. -/
def swapNo (m n start : ℕ → ℕ) : ℕ → ℕ → ℕ
  | 0, k => k
  | c + 1, k => flipNo (m c) (n c) (start c) (swapNo m n start c k)

end Verif.Spec
