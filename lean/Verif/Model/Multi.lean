import Verif.Model.Shell
import Verif.Model.ConnAll
import Verif.Model.Penalty

/-!
# The class `MultiDomain`

`panels/multidomain/multidomain.py`.  `Shell` objects live in a store and are named by numbers, since
the assembly writes to the objects it is given.  Messages, prints and `gc.collect()` are not modelled.
-/

namespace Verif.Model

variable {K : Type} [Field K] [LinearOrder K]

/-- One dictionary of the connectivity list; a missing key is `none`. -/
structure ConnD (K : Type*) where
  p1 : ℕ
  p2 : ℕ
  func : String
  xcte1 : Option K := none
  xcte2 : Option K := none
  ycte1 : Option K := none
  ycte2 : Option K := none
  tsl : Option String := none

/-- `row_start`, `col_start`, `row_end`, `col_end` of a panel. -/
structure Place where
  row0 : ℕ
  col0 : ℕ
  row1 : ℕ
  col1 : ℕ
deriving DecidableEq, Repr

/-- A `MultiDomain` together with the store of shells. -/
structure Multi (K : Type*) where
  shells : ℕ → Shell K
  place : ℕ → Option Place
  panels : List ℕ
  conn : Option (List (ConnD K))
  kCconn : Option (Coo K)

/-- One pass of the loop in `MultiDomain.__init__` (lines 87-95); the state is `row0`, `col0` and the
attributes of the shells. -/
def placeStep (shells : ℕ → Shell K) (st : ℕ × ℕ × (ℕ → Option Place)) (p : ℕ) :
    ℕ × ℕ × (ℕ → Option Place) :=
  let d := 3 * (shells p).pan.m * (shells p).pan.n
  (st.1 + d, st.2.1 + d, fun q => if q = p then some ⟨st.1, st.2.1, st.1 + d, st.2.1 + d⟩ else st.2.2 q)

/-- `MultiDomain.__init__` (lines 78-95). -/
def Multi.init (shells : ℕ → Shell K) (place : ℕ → Option Place) (panels : List ℕ)
    (conn : Option (List (ConnD K))) : Multi K where
  shells := shells
  place := (panels.foldl (placeStep shells) (0, 0, place)).2.2
  panels := panels
  conn := conn
  kCconn := none

/-- `MultiDomain.get_size` (lines 98-103). -/
def Multi.getSize (M : Multi K) : ℕ :=
  (M.panels.map fun p => 3 * (M.shells p).pan.m * (M.shells p).pan.n).sum

/-- Store a shell after a call of one of its methods. -/
def Multi.setShell (M : Multi K) (p : ℕ) (s : Shell K) : Multi K :=
  { M with shells := fun q => if q = p then s else M.shells q }

/-- What `calc_kt_kr` reads of a rebuilt panel; `lam.A[i, j]` and `lam.D[i, j]` are taken to be
`lam.ABD[i, j]` and `lam.ABD[i+3, j+3]` (package `composites`). -/
def penOf (s : Shell K) (lam : LamObj K) : PenLam K where
  A11 := lam.ABD 0 0
  A22 := lam.ABD 1 1
  D11 := lam.ABD 3 3
  D22 := lam.ABD 4 4
  h := lam.h
  a := s.pan.a
  b := s.pan.b

/-- `connecti['xcte1']` and the like. -/
def key {α : Type*} (o : Option α) : Except Fail α :=
  match o with
  | none => .error .keyError
  | some x => .ok x

/-- Exchange of the positions when the panels are listed in reverse order (lines 788-799). -/
def ConnD.swap (d : ConnD K) : ConnD K :=
  if d.func = "SB" then d
  else
    let d := match d.xcte1, d.xcte2 with
      | some x1, some x2 => { d with xcte1 := some x2, xcte2 := some x1 }
      | _, _ => d
    match d.ycte1, d.ycte2 with
      | some y1, some y2 => { d with ycte1 := some y2, ycte2 := some y1 }
      | _, _ => d

/-- The ordered pair `pA`, `pB` and the dictionary after line 799.  Panels with the same start keep
the pair of the connection before (`prev`). -/
def pairOf (M : Multi K) (prev : Option (ℕ × ℕ)) (d : ConnD K) :
    Except Fail ((ℕ × ℕ) × ConnD K) :=
  match M.place d.p1, M.place d.p2 with
  | some q1, some q2 =>
    if q1.col0 < q2.col0 then .ok ((d.p1, d.p2), d)
    else if q1.col0 > q2.col0 then .ok ((d.p2, d.p1), d.swap)
    else match prev with
      | some p => .ok (p, d)
      | none => .error .unbound
  | _, _ => .error (.raised .typeError)

/-- `calc_kt_kr(pA, pB, type)` as called here: both panels are rebuilt, and the result is unpacked. -/
def ktkr (E : Env K) (M : Multi K) (A B : ℕ) (ctype : String) :
    Except Fail ((K × Option K) × Multi K) := do
  let sA ← (M.shells A).rebuild E
  let M := M.setShell A sA
  let sB ← (M.shells B).rebuild E
  let M := M.setShell B sB
  match (M.shells A).lam, (M.shells B).lam with
  | some lA, some lB =>
    match calcKtKr (penOf (M.shells A) lA) (penOf (M.shells B) lB) ctype with
    | some k => .ok (k, M)
    | none => .error (.raised .typeError)
  | _, _ => .error (.raised .attributeError)

/-- A number is needed: `None` given for a C `double` is a `TypeError`. -/
def number (o : Option K) : Except Fail K :=
  match o with
  | some k => .ok k
  | none => .error (.raised .typeError)

/-- `sum(p.plyts)`; an empty list stands for `None` (see `Shell`). -/
def thick (s : Shell K) : Except Fail K :=
  if s.plyts.isEmpty then .error (.raised .typeError) else .ok s.plyts.sum

/-- The body of the loop of `get_kC_conn` after the choice of `pA`, `pB` (lines 801-899).
`row_start` and `col_start` are always set together to the same number. -/
def connOne (E : Env K) (M : Multi K) (size : ℕ) (A B : ℕ) (d : ConnD K) :
    Except Fail (Coo K × Multi K) := do
  let (qA, qB) ← match M.place A, M.place B with
    | some qA, some qB => .ok (qA, qB)
    | _, _ => .error (.raised .typeError)
  if d.func = "SSycte" then
    let ((kt, kr), M) ← ktkr E M A B "ycte"
    let kr ← number kr
    let y1 ← key d.ycte1
    let y2 ← key d.ycte2
    let L ← toSparse size (connSSycte E.S E.I (M.shells A).panel (M.shells B).panel kt kr y1 y2
      qA.col0 qB.col0)
    return (L, M)
  else if d.func = "SSxcte" then
    let ((kt, kr), M) ← ktkr E M A B "xcte"
    let kr ← number kr
    let x1 ← key d.xcte1
    let x2 ← key d.xcte2
    let L ← toSparse size (connSSxcte E.S E.I (M.shells A).panel (M.shells B).panel kt kr x1 x2
      qA.col0 qB.col0)
    return (L, M)
  else if d.func = "SB" then
    let ((kt, _), M) ← ktkr E M A B "bot-top"
    let tA ← thick (M.shells A)
    let tB ← thick (M.shells B)
    let L ← toSparse size (connSB E.I (M.shells A).panel (M.shells B).panel kt (tA / 2 + tB / 2)
      qA.col0 qB.col0)
    return (L, M)
  else if d.func = "BFycte" then
    let ((kt, kr), M) ← ktkr E M A B "ycte"
    let kr ← number kr
    let y1 ← key d.ycte1
    let y2 ← key d.ycte2
    let L ← toSparse size (connBFycte E.S E.I (M.shells A).panel (M.shells B).panel kt kr y1 y2
      qA.col0 qB.col0)
    return (L, M)
  else if d.func = "BFxcte" then
    let ((kt, kr), M) ← ktkr E M A B "xcte"
    let kr ← number kr
    let x1 ← key d.xcte1
    let x2 ← key d.xcte2
    let L ← toSparse size (connBFxcte E.S E.I (M.shells A).panel (M.shells B).panel kt kr x1 x2
      qA.col0 qB.col0)
    return (L, M)
  else if d.func = "kCLTxycte" then
    -- `connections.kCLTxycte` does not exist
    let _ ← ktkr E M A B "xcte-ycte"
    .error (.raised .attributeError)
  else if d.func = "SB_TSL" then
    let tsl ← key d.tsl
    let sA := M.shells A
    let sB := M.shells B
    if sA.pan.a ≠ sB.pan.a ∨ sA.pan.b ≠ sB.pan.b then .error (.raised .valueError)
    else if tsl ≠ "linear" then .error .unbound
    else
      let tA ← thick sA
      let tB ← thick sB
      let L ← toSparse size (connSB E.I sA.panel sB.panel (10000 / (sA.pan.a * sA.pan.b))
        (tA / 2 + tB / 2) qA.col0 qB.col0)
      return (L, M)
  else .error (.raised .valueError)

/-- The loop of `get_kC_conn` (lines 778-899): the sum so far, the dictionaries as they are left
behind, the assembly and the pair of the connection before. -/
def connLoop (E : Env K) (size : ℕ) : List (ConnD K) → Multi K → Option (ℕ × ℕ) →
    Except Fail (Coo K × List (ConnD K) × Multi K)
  | [], M, _ => .ok ([], [], M)
  | d :: ds, M, prev => do
    let (p, d') ← pairOf M prev d
    let (L, M) ← connOne E M size p.1 p.2 d'
    let (R, ds', M) ← connLoop E size ds M (some p)
    return (L ++ R, d' :: ds', M)

/-- `finalize_symmetric_matrix` of a sum over a list: the empty sum is the float `0.`, which has no
attribute `data`. -/
def finSum {α : Type*} (items : List α) (finalize : Bool) (L : Coo K) : Except Fail (Coo K) :=
  if finalize && items.isEmpty then .error (.raised .attributeError) else .ok (fin finalize L)

/-- `MultiDomain.get_kC_conn` (lines 757-906): matrix, the caller's list afterwards, the assembly
afterwards. -/
def Multi.getKCconn (E : Env K) (M : Multi K) (conn : Option (List (ConnD K)))
    (finalize : Bool := true) : Except Fail (Coo K × Option (List (ConnD K)) × Multi K) :=
  match (match conn with
    | some l => some l
    | none => M.conn) with
  | none => .error (.raised .runtimeError)
  | some l =>
    match M.kCconn with
    | some L => .ok (L, conn, M)
    | none => do
      let (L, l', M) ← connLoop E M.getSize l M none
      let L ← finSum l finalize L
      match conn with
      | some _ => return (L, some l', { M with kCconn := some L })
      | none => return (L, none, { M with kCconn := some L, conn := some l' })

/-- The loop over the panels of `calc_kC`, `calc_kG`, `calc_kM`: `f` is the method of the panel called
with its offsets. -/
def panelLoop (f : Shell K → Place → Except Fail (Coo K × Shell K)) :
    List ℕ → Multi K → Except Fail (Coo K × Multi K)
  | [], M => .ok ([], M)
  | p :: ps, M =>
    match M.place p with
    | none => .error (.raised .valueError)
    | some q => do
      let (L, s) ← f (M.shells p) q
      let (R, M) ← panelLoop f ps (M.setShell p s)
      return (L ++ R, M)

/-- `MultiDomain.calc_kC` (lines 909-955). -/
def Multi.calcKC (E : Env K) (M : Multi K) (conn : Option (List (ConnD K))) (c : Option (CArg K))
    (finalize : Bool := true) : Except Fail (Coo K × Multi K) := do
  let size := M.getSize
  checkOpt c size
  let (L, M) ← panelLoop (fun s q => s.calcKC E
    { c := c, row0 := q.row0, col0 := q.col0, size := .num size, finalize := false }) M.panels M
  let kC ← finSum M.panels finalize L
  let (kConn, _, M) ← M.getKCconn E conn
  return (kC ++ kConn, M)

/-- `MultiDomain.calc_kG` (lines 958-989). -/
def Multi.calcKG (E : Env K) (M : Multi K) (c : Option (CArg K)) (finalize : Bool := true) :
    Except Fail (Coo K × Multi K) := do
  let size := M.getSize
  checkOpt c size
  let (L, M) ← panelLoop (fun s q => s.calcKG E
    { c := c, row0 := q.row0, col0 := q.col0, size := .num size, finalize := false }) M.panels M
  let kG ← finSum M.panels finalize L
  return (kG, M)

/-- `MultiDomain.calc_kM` (lines 992-1005). -/
def Multi.calcKM (E : Env K) (M : Multi K) (finalize : Bool := true) :
    Except Fail (Coo K × Multi K) := do
  let size := M.getSize
  let (L, M) ← panelLoop (fun s q => s.calcKM E (.num size) q.row0 q.col0 none none none none false)
    M.panels M
  let kM ← finSum M.panels finalize L
  return (kM, M)

/-- Binding of keyword arguments: an unknown name is a `TypeError`. -/
def bindArgs (params given : List String) : Except Fail Unit :=
  if given.all fun k => params.contains k then .ok () else .error (.raised .typeError)

/-- Parameters of `Shell.calc_kC` (`panels/shell.py` lines 364-365). -/
def kCparams : List String := ["self", "size", "row0", "col0", "silent", "finalize", "c", "c_cte",
  "nx", "ny", "ABDnxny", "NLgeom"]

/-- Keywords `MultiDomain.calc_kT` gives to `Shell.calc_kC` (lines 1016-1017). -/
def kTkeywords : List String := ["c", "size", "row0", "col0", "silent", "finalize", "inc", "NLgeom"]

/-- `MultiDomain.calc_kT` (lines 1008-1026). -/
def Multi.calcKT (E : Env K) (M : Multi K) (c : Option (CArg K)) (finalize : Bool := true) :
    Except Fail (Coo K × Multi K) := do
  let size := M.getSize
  let (L, M) ← panelLoop (fun s q => do
    bindArgs kCparams kTkeywords
    let (kC, s) ← s.calcKC E { c := c, row0 := q.row0, col0 := q.col0, size := .num size, finalize := false, NLgeom := true }
    let (kG, s) ← s.calcKG E { c := c, row0 := q.row0, col0 := q.col0, size := .num size, finalize := false, NLgeom := true }
    return (kC ++ kG, s)) M.panels M
  let kT ← finSum M.panels finalize L
  let (kConn, _, M) ← M.getKCconn E none
  return (kT ++ kConn, M)

end Verif.Model
