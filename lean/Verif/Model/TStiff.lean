import Verif.Model.Aero
import Verif.Model.Assy

/-!
# Panel with one T stiffener and a debonding defect

`panels/multidomain/tstiff2d_1stiff_compression.py`, `tstiff2d_1stiff_freq.py` and
`tstiff2d_1stiff_flutter.py` build the same fifteen panels and the same connections.  Line numbers
below are those of the first file.  Panel `p01` is number 0, … , `p15` is number 14.
-/

namespace Verif.Model

variable {K : Type} [Field K] [LinearOrder K]

/-- Arguments of the three functions.  `nx`, …, `nyf` are only arguments of the compression function, the
flow only of the flutter function; `None` as a load is not modelled. -/
structure TArgs (K : Type*) where
  a : K
  b : K
  ys : K
  bb : K
  bf : K
  defectA : K
  rho : K
  plyt : K
  laminaprop : List K
  stackSkin : List K
  stackBase : List K
  stackFlange : List K
  NxxSkin : K
  NxxBase : K
  NxxFlange : K
  r : Option K := none
  m : ℕ := 8
  n : ℕ := 8
  mb : Option ℕ := none
  nb : Option ℕ := none
  mf : Option ℕ := none
  nf : Option ℕ := none
  nx : Option ℕ := none
  ny : Option ℕ := none
  nxb : Option ℕ := none
  nyb : Option ℕ := none
  nxf : Option ℕ := none
  nyf : Option ℕ := none
  airSpeed : Option K := none
  rhoAir : Option K := none
  Mach : Option K := none
  flow : String := "x"

/-- `has_defect` (lines 115-116). -/
def TArgs.hasDefect (q : TArgs K) : Bool := decide (0 < q.defectA * q.a)

/-- `defect` after line 117. -/
def TArgs.defect (q : TArgs K) : K := if q.defectA * q.a = 0 then 33 / 100 * q.a else q.defectA * q.a

/-- Lines 118-121. -/
def TArgs.aup (q : TArgs K) : K := (q.a - q.defect) / 2
def TArgs.alow (q : TArgs K) : K := (q.a - q.defect) / 2
def TArgs.bleft (q : TArgs K) : K := q.b - q.ys - q.bb / 2
def TArgs.bright (q : TArgs K) : K := q.ys - q.bb / 2

/-- Translations at the edges: `x1u, x2u, x1v, x2v, x1w, x2w, y1v, y2v, y1w, y2w`; `y1u`, `y2u` and all
rotations are 1 in every panel (lines 157-278). -/
structure Bc (K : Type*) [One K] where
  x1u : K := 1
  x2u : K := 1
  x1v : K := 1
  x2v : K := 1
  x1w : K := 1
  x2w : K := 1
  y1v : K := 1
  y2v : K := 1
  y1w : K := 1
  y2w : K := 1

/-- One `Shell(…)` of lines 134-154 with its flags. -/
def tPart (q : TArgs K) (group : String) (Nxx x0 y0 a b : K) (r : Option K) (m n nx ny : ℕ)
    (stack : List K) (f : Bc K) : Part K where
  group := group
  x0 := x0
  y0 := y0
  shell := { Shell.new
    { a := a, b := b, r := 0, m := m, n := n, x1 := -1, x2 := 1, y1 := -1, y2 := 1
      xu := edgeFlags f.x1u f.x2u, xv := edgeFlags f.x1v f.x2v, xw := edgeFlags f.x1w f.x2w
      yu := edgeFlags 1 1, yv := edgeFlags f.y1v f.y2v, yw := edgeFlags f.y1w f.y2w }
    r none stack (some q.plyt) [] q.laminaprop [] q.rho 0 with
    Nxx := Nxx
    nx := nx
    ny := ny }

/-- The flow over a panel (flutter file, lines 136-146). -/
def TArgs.air (q : TArgs K) (p : Part K) : Part K :=
  { p with
    shell := { p.shell with rhoAir := q.rhoAir, Mach := q.Mach, V := q.airSpeed, flow := q.flow } }

/-- A panel of the skin. -/
def TArgs.skin (q : TArgs K) (dn : ℕ) (x0 y0 a b : K) (f : Bc K) : Part K :=
  q.air (tPart q "skin" q.NxxSkin x0 y0 a b q.r q.m q.n (q.nx.getD (dn * q.m)) (q.ny.getD (dn * q.n))
    q.stackSkin f)

/-- A panel of the base of the stiffener. -/
def TArgs.base (q : TArgs K) (dn : ℕ) (x0 y0 a b : K) (f : Bc K) : Part K :=
  tPart q "base" q.NxxBase x0 y0 a b q.r (q.mb.getD q.m) (q.nb.getD q.n)
    (q.nxb.getD (dn * q.mb.getD q.m)) (q.nyb.getD (dn * q.nb.getD q.n)) q.stackBase f

/-- A panel of the flange of the stiffener; it is always flat. -/
def TArgs.flange (q : TArgs K) (dn : ℕ) (x0 y0 a b : K) (f : Bc K) : Part K :=
  tPart q "flange" q.NxxFlange x0 y0 a b none (q.mf.getD q.m) (q.nf.getD q.n)
    (q.nxf.getD (dn * q.mf.getD q.m)) (q.nyf.getD (dn * q.nf.getD q.n)) q.stackFlange f

/-- The fifteen panels (lines 133-278).  `x1u` is the flag of the loaded edge; the default numbers of
integration points are `dn` times the numbers of terms: 1 in the compression function (lines 126-131),
2 where the default of `Shell` is kept. -/
def TArgs.parts (q : TArgs K) (x1u : K) (dn : ℕ) : List (Part K) :=
  [ q.skin dn (q.alow + q.defect) (q.ys + q.bb / 2) q.aup q.bleft
      { x2u := 0, x2v := 0, x2w := 0, y2v := 0, y2w := 0 },
    q.skin dn (q.alow + q.defect) (q.ys - q.bb / 2) q.aup q.bb { x2u := 0, x2v := 0, x2w := 0 },
    q.skin dn (q.alow + q.defect) 0 q.aup q.bright
      { x2u := 0, x2v := 0, x2w := 0, y1v := 0, y1w := 0 },
    q.skin dn q.alow (q.ys + q.bb / 2) q.defect q.bleft { y2v := 0, y2w := 0 },
    q.skin dn q.alow (q.ys - q.bb / 2) q.defect q.bb {},
    q.skin dn q.alow 0 q.defect q.bright { y1v := 0, y1w := 0 },
    q.skin dn 0 (q.ys + q.bb / 2) q.alow q.bleft
      { x1u := x1u, x1v := 0, x1w := 0, y2v := 0, y2w := 0 },
    q.skin dn 0 (q.ys - q.bb / 2) q.alow q.bb { x1u := x1u, x1v := 0, x1w := 0 },
    q.skin dn 0 0 q.alow q.bright { x1u := x1u, x1v := 0, x1w := 0, y1v := 0, y1w := 0 },
    q.base dn (q.alow + q.defect) (q.ys - q.bb / 2) q.aup q.bb {},
    q.flange dn (q.alow + q.defect) 0 q.aup q.bf { x2u := 0, x2v := 0, x2w := 0 },
    q.base dn q.alow (q.ys - q.bb / 2) q.defect q.bb {},
    q.flange dn q.alow 0 q.defect q.bf {},
    q.base dn 0 (q.ys - q.bb / 2) q.alow q.bb {},
    q.flange dn 0 0 q.alow q.bf { x1u := x1u, x1v := 0, x1w := 0 } ]

/-- Panel `k` of the list. -/
def TArgs.part (q : TArgs K) (x1u : K) (dn k : ℕ) : Part K :=
  (q.parts x1u dn).getD k (q.skin dn 0 0 0 0 {})

/-- `dict(p1=…, p2=…, func='SSycte', ycte1=0, ycte2=p2.b)`. -/
def ssy (P : ℕ → Part K) (p1 p2 : ℕ) : ConnD K :=
  { p1 := p1, p2 := p2, func := "SSycte", ycte1 := some 0, ycte2 := some (P p2).shell.pan.b }

/-- `dict(p1=…, p2=…, func='SSxcte', xcte1=0, xcte2=p2.a)`. -/
def ssx (P : ℕ → Part K) (p1 p2 : ℕ) : ConnD K :=
  { p1 := p1, p2 := p2, func := "SSxcte", xcte1 := some 0, xcte2 := some (P p2).shell.pan.a }

/-- `dict(p1=…, p2=…, func='SB')`. -/
def sb (p1 p2 : ℕ) : ConnD K := { p1 := p1, p2 := p2, func := "SB" }

/-- `dict(p1=…, p2=…, func='BFycte', ycte1=p1.b/2., ycte2=0)`. -/
def bfy (P : ℕ → Part K) (p1 p2 : ℕ) : ConnD K :=
  { p1 := p1, p2 := p2, func := "BFycte", ycte1 := some ((P p1).shell.pan.b / 2), ycte2 := some 0 }

/-- The list `conn` (lines 280-312) with the key `has_defect` (false where it is missing). -/
def tConns (P : ℕ → Part K) (hasDefect : Bool) : List (ConnD K × Bool) :=
  [ (ssy P 0 1, false), (ssx P 0 3, false), (ssy P 1 2, false), (ssx P 1 4, false),
    (ssx P 2 5, false), (ssy P 3 4, false), (ssx P 3 6, false), (ssy P 4 5, false),
    (ssx P 4 7, false), (ssx P 5 8, false), (ssy P 6 7, false), (ssy P 7 8, false),
    (sb 1 9, false), (sb 4 11, hasDefect), (sb 7 13, false),
    (ssx P 9 11, false), (ssx P 11 13, false),
    (bfy P 9 10, false), (bfy P 11 12, false), (bfy P 13 14, false),
    (ssx P 10 12, false), (ssx P 12 14, false) ]

/-- The assembly with the connections that are kept (lines 314-325). -/
def TArgs.assy (q : TArgs K) (x1u : K) (dn : ℕ) : Assy K where
  part := q.part x1u dn
  count := (q.parts x1u dn).length
  conns := ((tConns (q.part x1u dn) q.hasDefect).filter fun e => !e.2).map Prod.fst

/-- One pass of the loop at lines 331-333, for the panel `p`: the `lambda` is called at once.  The slice
of `fext` is replaced. -/
def tLoadStep (E : Env K) (s : Assy K × Multi K × (ℕ → K)) (p : ℕ) :
    Except Fail (Assy K × Multi K × (ℕ → K)) := do
  let A := s.1
  let M := s.2.1
  let l ← lift ((A.part p).loads.addDistrLoadFixedX 0 (some fun _ => (M.shells p).Nxx) none none true)
  let A := { A with part := fun k => if k = p then { A.part p with loads := l } else A.part k }
  let t ← (M.shells p).rebuild E
  let f ← lift (shellFext E.S E.G t.panel l 1 .none 0)
  match M.place p with
  | none => .error (.raised .attributeError)
  | some q => return (A, M.setShell p t, fun k => if q.col0 ≤ k ∧ k < q.col1 then f (k - q.col0) else s.2.2 k)

/-- `for p in panels: p.Nxx = 0.` (lines 337-338). -/
def Multi.clearNxx (M : Multi K) : Multi K :=
  { M with shells := fun p => if p ∈ M.panels then { M.shells p with Nxx := 0 } else M.shells p }

/-- The static case (lines 330-338): the forces and the displacements for which the geometric matrix is
made.  `solve` is `structsolve.static` with its first result taken, an array with one number for each
unknown. -/
def tStatic (E : Env K) (solve : Coo K → (ℕ → K) → Except Fail (ℕ → K)) (k0 : Coo K) (A : Assy K)
    (M : Multi K) : Except Fail (Assy K × Multi K × (ℕ → K) × (ℕ → K)) := do
  let (A, M, f) ← [6, 7, 8, 13, 14].foldlM (tLoadStep E) (A, M, fun _ => 0)
  let f := fun k => - f k
  let c ← solve k0 f
  return (A, M.clearNxx, f, c)

/-- `tstiff2d_1stiff_compression` (lines 9-340) up to the solver `lb`: the assembly, the stiffness matrix,
forces and displacements of the static case if it is run, and the geometric matrix. -/
def tstiffCompression (E : Env K) (solve : Coo K → (ℕ → K) → Except Fail (ℕ → K)) (q : TArgs K)
    (runStatic : Bool) : Except Fail (Assy K × Coo K × Option ((ℕ → K) × (ℕ → K)) × Coo K) := do
  let A := q.assy (if runStatic then 1 else 0) 1
  let (k0, M) ← A.multi.calcKC E (some A.conns) none
  match runStatic with
  | true =>
    let (A, M, f, c) ← tStatic E solve k0 A M
    let (kG, _) ← M.calcKG E (some (.vec M.getSize c))
    return (A, k0, some (f, c), kG)
  | false =>
    let (kG, _) ← M.calcKG E none
    return (A, k0, none, kG)

/-- `tstiff2d_1stiff_freq` (lines 7-302 of its file) up to the solver: stiffness and mass matrices. -/
def tstiffFreq (E : Env K) (q : TArgs K) : Except Fail (Assy K × Coo K × Coo K) := do
  let A := q.assy 1 2
  let (k0, M) ← A.multi.calcKC E (some A.conns) none
  let (kM, _) ← M.calcKM E
  return (A, k0, kM)

/-- One pass of the loop over the skin (flutter file, lines 336-342). -/
def tAeroStep (root : K → K) (E : Env K) (size : ℕ) (s : Multi K × Coo K) (p : ℕ) :
    Except Fail (Multi K × Coo K) :=
  match s.1.place p with
  | none => .error (.raised .attributeError)
  | some q => do
    let (L, t) ← (s.1.shells p).calcKA root E (.num size) q.row0 q.col0 false
    return (s.1.setShell p t, s.2 ++ L)

/-- The last part of `tstiff2d_1stiff_flutter` (lines 332-346): mass, geometric and aerodynamic
matrices.  The asserts on `nan` and `inf` have no counterpart. -/
def tFlutterEnd (root : K → K) (E : Env K) (M : Multi K) (c : Option (CArg K)) :
    Except Fail (Coo K × Coo K × Coo K) := do
  let (kM, M) ← M.calcKM E
  let (kG, M) ← M.calcKG E c
  let (_, kA) ← (List.range 9).foldlM (tAeroStep root E M.getSize) (M, [])
  return (kM, kG, Coo.finalizeSkew kA)

/-- `tstiff2d_1stiff_flutter` (lines 11-346 of its file) up to the solver `freq`: the assembly, the
stiffness matrix, forces and displacements of the static case if it is run, mass, geometric and
aerodynamic matrices. -/
def tstiffFlutter (root : K → K) (E : Env K) (solve : Coo K → (ℕ → K) → Except Fail (ℕ → K))
    (q : TArgs K) (runStatic : Bool) :
    Except Fail (Assy K × Coo K × Option ((ℕ → K) × (ℕ → K)) × Coo K × Coo K × Coo K) := do
  let A := q.assy 1 2
  let (k0, M) ← A.multi.calcKC E (some A.conns) none
  match runStatic with
  | true =>
    let (A, M, f, c) ← tStatic E solve k0 A M
    let R ← tFlutterEnd root E M (some (.vec M.getSize c))
    return (A, k0, some (f, c), R)
  | false =>
    let R ← tFlutterEnd root E M none
    return (A, k0, none, R)

end Verif.Model
