import Verif.Model.Builders
import Verif.Model.Num
import Verif.Model.Fext

/-!
# The class `Shell`: state, rebuild and matrix calculations

`panels/shell.py`.  A method is a function from the state before the call to the result and the state
after it, or to a failure.  The state after a failure, logging and `gc.collect()` are not modelled.
The laminate is calculated by the external function `laminated_plate` of the package `composites`,
which is a parameter (`Env.mkLam`).
-/

namespace Verif.Model

variable {K : Type} [Field K] [DecidableEq K]

/-- How a call can fail: a raised exception, a missing dictionary key, a local variable used before
assignment, or a read of memory that was never allocated or never set (the builders are compiled
with `boundscheck=False` and `nonecheck=False`). -/
inductive Fail
  | raised (e : Err)
  | keyError
  | unbound
  | undef
deriving DecidableEq, Repr

/-- Exceptions of the builders. -/
def lift {α : Type*} : Except Err α → Except Fail α
  | .ok a => .ok a
  | .error e => .error (.raised e)

/-- What the code reads from the object returned by `laminated_plate`: `ABD`, `h`, `intrho`. -/
structure LamObj (K : Type*) where
  ABD : ℕ → ℕ → K
  h : K
  intrho : K

/-- Surroundings of the class: shape functions, integral tables, quadrature rules and the package
`composites`. `shared` tells whether reading `lam.ABD` twice gives the same array, so that writes
through the first are seen through the second; this is decided in `composites`, not here. -/
structure Env (K : Type*) where
  S : Shape K
  I : Tab K
  G : GaussTab K
  mkLam : List K → List K → List (List K) → List K → K → Except Err (LamObj K)
  shared : Bool

/-- The two models of `panels/modelDB.py` lines 11-32. -/
inductive Kind
  | plate
  | cyl
deriving DecidableEq, Repr

/-- Keys of `modelDB.db` (`panels/modelDB.py` lines 11-32). -/
def kindOf : String → Option Kind
  | "plate_clpt_donnell_bardell" => some .plate
  | "cylshell_clpt_donnell_bardell" => some .cyl
  | _ => none

/-- Attributes of a `Shell` used below (`panels/shell.py` lines 94-224).  `None` and an empty sequence
are not distinguished for `stack`, `plyts`, `laminaprop`, `laminaprops` and `rhos` (the code tests all
of them with `not`).  `pan.r` is not used, see `Shell.panel`.  `a`, `b` are given. -/
structure Shell (K : Type*) where
  pan : Panel K
  r : Option K
  model : Option String
  nx : ℕ
  ny : ℕ
  stack : List K
  plyt : Option K
  plyts : List K
  laminaprop : List K
  laminaprops : List (List K)
  rho : K
  rhos : List K
  offset : K
  lam : Option (LamObj K)
  ABD : Option (ℕ → ℕ → K)
  forceOrtho : Bool
  size : Option ℕ
  Nxx : K
  Nyy : K
  Nxy : K
  NxxCte : K
  NyyCte : K
  NxyCte : K
  flow : String
  beta : Option K
  gamma : Option K
  rhoAir : Option K
  Mach : Option K
  V : Option K

/-- The data read by the builders, once `r` is a number. -/
def Shell.panel (s : Shell K) : Panel K := { s.pan with r := s.r.getD 0 }

/-- The assignments of `_get_lam_ABD` for `force_orthotropic_laminate`
(`panels/shell.py` lines 337-355, in program order).  The branches for `fsdt` models and 8×8 matrices
(lines 330-332, 357-359) are never reached: no such model is in `modelDB`. -/
def orthoWrites : List (ℕ × ℕ) :=
  [(0, 2), (1, 2), (2, 0), (2, 1),
   (0, 5), (5, 0), (1, 5), (5, 1),
   (3, 2), (2, 3), (4, 2), (2, 4),
   (3, 5), (4, 5), (5, 3), (5, 4)]

/-- `ABD[i, j] = 0.` -/
def putZero (F : ℕ → ℕ → K) (p : ℕ × ℕ) (i j : ℕ) : K := if (i, j) = p then 0 else F i j

/-- `Shell._get_lam_ABD` (`panels/shell.py` lines 325-361) on the matrix of the laminate. -/
def lamABD (force : Bool) (F : ℕ → ℕ → K) : ℕ → ℕ → K :=
  if force then orthoWrites.foldl putZero F else F

/-- `Shell.get_size` (`panels/shell.py` lines 282-303). -/
def Shell.getSize (s : Shell K) : Except Fail ℕ :=
  match s.model.bind kindOf with
  | none => .error .keyError
  | some _ => .ok (3 * s.pan.m * s.pan.n)

/-- Default model (`panels/shell.py` lines 244-248). -/
def defaultModel (r : Option K) : String :=
  match r with
  | none => "plate_clpt_donnell_bardell"
  | some _ => "cylshell_clpt_donnell_bardell"

/-- `[x for i in self.stack]` when the list is not given (lines 259-270). -/
def orFill {α : Type*} (l : List α) (x : α) (stack : List K) : List α :=
  if l.isEmpty then stack.map fun _ => x else l

/-- `Shell._rebuild` (`panels/shell.py` lines 241-279). -/
def Shell.rebuild (E : Env K) (s : Shell K) : Except Fail (Shell K) :=
  let model := s.model.getD (defaultModel s.r)
  if (kindOf model).isNone then .error (.raised .valueError)
  else if s.stack.isEmpty then .error (.raised .valueError)
  else if s.laminaprops.isEmpty && s.laminaprop.isEmpty then .error (.raised .valueError)
  else
    let laminaprops := orFill s.laminaprops s.laminaprop s.stack
    let rhos := orFill s.rhos s.rho s.stack
    if s.plyts.isEmpty && s.plyt.isNone then .error (.raised .valueError)
    else
      let plyts := orFill s.plyts (s.plyt.getD 0) s.stack
      match E.mkLam s.stack plyts laminaprops rhos s.offset with
      | .error e => .error (.raised e)
      | .ok lam =>
        .ok { s with
          nx := max s.nx s.pan.m
          ny := max s.ny s.pan.n
          model := some model
          laminaprops := laminaprops
          rhos := rhos
          plyts := plyts
          lam := some { lam with ABD := lamABD (s.forceOrtho && E.shared) lam.ABD }
          ABD := some (lamABD s.forceOrtho lam.ABD)
          size := some (3 * s.pan.m * s.pan.n) }

/-- The argument `c`: a vector of some length, an array of another dimension, or something else. -/
inductive CArg (K : Type*)
  | vec (len : ℕ) (f : ℕ → K)
  | otherDim
  | notArray

/-- `check_c` (`panels/shell.py` lines 27-34). -/
def checkC (c : CArg K) (size : ℕ) : Except Fail Unit :=
  match c with
  | .notArray => .error (.raised .typeError)
  | .otherDim => .error (.raised .valueError)
  | .vec len _ => if len ≠ size then .error (.raised .valueError) else .ok ()

/-- `check_c` for an optional argument. -/
def checkOpt (c : Option (CArg K)) (size : ℕ) : Except Fail Unit :=
  match c with
  | none => .ok ()
  | some c => checkC c size

/-- `coo_matrix((v, (r, c)), shape=(size, size))`: indices outside the shape are refused. -/
def toSparse (size : ℕ) (L : Coo K) : Except Fail (Coo K) :=
  if L.all fun t => decide (t.row < size) && decide (t.col < size) then .ok L
  else .error (.raised .valueError)

/-- Reads of `cs[col0 + …]` by a builder: inside the array or undefined. -/
def readable (c : CArg K) (col0 : ℕ) (P : Panel K) : Except Fail (ℕ → K) :=
  match c with
  | .vec len f => if col0 + 3 * P.m * P.n ≤ len then .ok f else .error .undef
  | _ => .error .undef

/-- `fk0` of the chosen model; reads `shell.lam.ABD`
(`plate_clpt_donnell_bardell.pyx` line 76, `cylshell_clpt_donnell_bardell.pyx` line 78). -/
def fk0 (E : Env K) (k : Kind) (P : Panel K) (F : ℕ → ℕ → K) (row0 col0 : ℕ) : Coo K :=
  match k with
  | .plate => plateFk0 E.I P F row0 col0
  | .cyl => cylFk0 E.I P F row0 col0

/-- `fkG0` of the chosen model. -/
def fkG0 (E : Env K) (k : Kind) (P : Panel K) (Nxx Nyy Nxy : K) (row0 col0 : ℕ) : Coo K :=
  match k with
  | .plate => plateFkG0 E.I P Nxx Nyy Nxy row0 col0
  | .cyl => cylFkG0 E.I P Nxx Nyy Nxy row0 col0

/-- `fkC_num` of the chosen model. -/
def fkCnum (E : Env K) (k : Kind) (P : Panel K) (F : LamInput K) (cs : ℕ → K)
    (row0 col0 nx ny NLgeom : ℕ) : Except Err (Coo K) :=
  match k with
  | .plate => plateFkCnum E.S E.G P F cs row0 col0 nx ny NLgeom
  | .cyl => cylFkCnum E.S E.G P F cs row0 col0 nx ny NLgeom

/-- `fkG_num` of the chosen model. -/
def fkGnum (E : Env K) (k : Kind) (P : Panel K) (F : LamInput K) (cs : ℕ → K)
    (row0 col0 nx ny NLgeom : ℕ) (Nxx0 Nyy0 Nxy0 : K) : Except Err (Coo K) :=
  match k with
  | .plate => plateFkGnum E.S E.G P F cs row0 col0 nx ny NLgeom Nxx0 Nyy0 Nxy0
  | .cyl => cylFkGnum E.S E.G P F cs row0 col0 nx ny NLgeom Nxx0 Nyy0 Nxy0

/-- Arguments of `calc_kC` and `calc_kG` with their defaults (`panels/shell.py` lines 364-365,
495-496; `c_cte` only exists for `calc_kC`). -/
structure KArgs (K : Type*) where
  size : SizeArg := .none
  row0 : ℕ := 0
  col0 : ℕ := 0
  finalize : Bool := true
  c : Option (CArg K) := none
  cCte : Option (CArg K) := none
  nx : Option ℕ := none
  ny : Option ℕ := none
  ABDnxny : Option (LamInput K) := none
  NLgeom : Bool := false

/-- Kind, laminate and matrix of a panel that was rebuilt. -/
def Shell.built (s : Shell K) : Except Fail (Kind × LamObj K × (ℕ → ℕ → K)) :=
  match s.model.bind kindOf, s.lam, s.ABD with
  | none, _, _ => .error .keyError
  | some k, some l, some F => .ok (k, l, F)
  | _, _, _ => .error (.raised .attributeError)

/-- The vector handed to `fkC_num` (`panels/shell.py` lines 443-447): the given one; zeros if neither
`c` nor `ABDnxny` is given; else `np.ascontiguousarray(None, dtype=float)`, one `nan`. -/
def vecC (c : Option (CArg K)) (abd : Option (LamInput K)) (size : ℕ) : CArg K :=
  match c, abd with
  | some c, _ => c
  | none, none => .vec size fun _ => 0
  | none, some _ => .notArray

/-- Constitutive part of `calc_kC` (`panels/shell.py` lines 419-462). -/
def Shell.kCpart (E : Env K) (s : Shell K) (size : ℕ) (A : KArgs K) : Except Fail (Coo K) := do
  let (k, lam, F) ← s.built
  if A.c.isSome || A.ABDnxny.isSome || A.NLgeom then
    let cs ← if A.NLgeom then readable (vecC A.c A.ABDnxny size) A.col0 s.panel
      else .ok fun _ => 0
    let L ← lift (fkCnum E k s.panel (A.ABDnxny.getD (.one F)) cs A.row0 A.col0
      (A.nx.getD s.nx) (A.ny.getD s.ny) (if A.NLgeom then 1 else 0))
    toSparse size L
  else toSparse size (fk0 E k s.panel lam.ABD A.row0 A.col0)

/-- `any((Nxx_cte, Nyy_cte, Nxy_cte))`. -/
def Shell.anyCte (s : Shell K) : Bool :=
  decide (s.NxxCte ≠ 0) || decide (s.NyyCte ≠ 0) || decide (s.NxyCte ≠ 0)

/-- Pre-stress part of `calc_kC` (`panels/shell.py` lines 464-479). With `NLgeom` and no `c_cte` the
builder gets `None` for its array and reads it. -/
def Shell.kGcte (E : Env K) (s : Shell K) (size : ℕ) (A : KArgs K) : Except Fail (Coo K) := do
  if A.cCte.isSome || s.anyCte then
    checkOpt A.cCte size
    let (k, _, F) ← s.built
    if A.cCte.isNone && !A.NLgeom then
      toSparse size (fkG0 E k s.panel s.NxxCte s.NyyCte s.NxyCte A.row0 A.col0)
    else
      let cs ← readable (A.cCte.getD .notArray) A.col0 s.panel
      let L ← lift (fkGnum E k s.panel (A.ABDnxny.getD (.one F)) cs A.row0 A.col0
        (A.nx.getD s.nx) (A.ny.getD s.ny) (if A.NLgeom then 1 else 0) s.NxxCte s.NyyCte s.NxyCte)
      toSparse size L
  else .ok []

/-- `finalize_symmetric_matrix` if asked for. -/
def fin (finalize : Bool) (L : Coo K) : Coo K := if finalize then Coo.finalizeSym L else L

/-- `self.r = self.r if self.r is not None else 0.` -/
def Shell.fixR (s : Shell K) : Shell K := { s with r := some (s.r.getD 0) }

/-- `Shell.calc_kC` (`panels/shell.py` lines 364-492). -/
def Shell.calcKC (E : Env K) (s : Shell K) (A : KArgs K) : Except Fail (Coo K × Shell K) := do
  let s ← s.rebuild E
  let size := A.size.value (3 * s.pan.m * s.pan.n)
  checkOpt A.c size
  let s := s.fixR
  let kC ← s.kCpart E size A
  let kG ← s.kGcte E size A
  return (fin A.finalize (kC ++ kG), s)

/-- `Shell.calc_kG` (`panels/shell.py` lines 495-548). -/
def Shell.calcKG (E : Env K) (s : Shell K) (A : KArgs K) : Except Fail (Coo K × Shell K) := do
  let s ← s.rebuild E
  let size := A.size.value (3 * s.pan.m * s.pan.n)
  checkOpt A.c size
  let s := s.fixR
  let (k, lam, _) ← s.built
  if A.c.isNone && !A.NLgeom then
    let kG ← toSparse size (fkG0 E k s.panel s.Nxx s.Nyy s.Nxy A.row0 A.col0)
    return (fin A.finalize kG, s)
  else
    let cs ← readable (A.c.getD (.vec size fun _ => 0)) A.col0 s.panel
    let L ← lift (fkGnum E k s.panel (A.ABDnxny.getD (.one (lamABD s.forceOrtho lam.ABD))) cs
      A.row0 A.col0 (A.nx.getD s.nx) (A.ny.getD s.ny) (if A.NLgeom then 1 else 0)
      s.Nxx s.Nyy s.Nxy)
    let kG ← toSparse size L
    return (fin A.finalize kG, s)

/-- `Shell.calc_kT` (`panels/shell.py` lines 551-560); `c_cte` and `NLgeom` of `A` are not arguments of
`calc_kT`. -/
def Shell.calcKT (E : Env K) (s : Shell K) (A : KArgs K) : Except Fail (Coo K × Shell K) := do
  let (kC, s) ← s.calcKC E { A with cCte := none, NLgeom := true }
  let (kG, s) ← s.calcKG E { A with cCte := none, NLgeom := true }
  return (kC ++ kG, s)

/-- `h_nxny` or `rho_nxny`: an array of shape `(sx, sy)`. -/
structure Field2 (K : Type*) where
  sx : ℕ
  sy : ℕ
  v : ℕ → ℕ → K

/-- `Shell.calc_kM` (`panels/shell.py` lines 563-625).  `np.concatenate` refuses arrays of different
shapes. -/
def Shell.calcKM (E : Env K) (s : Shell K) (size : SizeArg) (row0 col0 : ℕ)
    (h rho : Option (Field2 K)) (nx ny : Option ℕ) (finalize : Bool) :
    Except Fail (Coo K × Shell K) := do
  let nx := nx.getD s.nx
  let ny := ny.getD s.ny
  let k ← match s.model.bind kindOf with
    | none => .error .keyError
    | some k => .ok k
  let s := s.fixR
  let size := size.value (3 * s.pan.m * s.pan.n)
  let lam ← match s.lam with
    | none => .error (.raised .attributeError)
    | some l => .ok l
  if h.isNone && rho.isNone then
    let kM ← toSparse size (match k with
      | .plate => plateFkM E.I s.panel s.offset s.plyts.sum s.rho row0 col0
      | .cyl => cylFkM E.I s.panel s.offset s.plyts.sum s.rho row0 col0)
    return (fin finalize kM, s)
  else
    let h := h.getD ⟨nx, ny, fun _ _ => lam.h⟩
    let rho := rho.getD ⟨nx, ny, fun _ _ => lam.intrho / lam.h⟩
    if h.sx ≠ rho.sx ∨ h.sy ≠ rho.sy then .error (.raised .valueError)
    else
      let L ← lift (fkMnum E.S E.G s.panel s.offset (.field h.sx h.sy h.v rho.v) row0 col0 nx ny)
      let kM ← toSparse size L
      return (fin finalize kM, s)

/-- `Shell.calc_fint` (`panels/shell.py` lines 1136-1200).  `self.ABD` is `None` before the first
rebuild, then `np.asarray(None, dtype=float)` has the wrong shape.  `nx.getD s.nx` as above. -/
def Shell.calcFint (E : Env K) (s : Shell K) (c : CArg K) (size : SizeArg) (col0 : ℕ)
    (nx ny : Option ℕ) (abd : Option (LamInput K)) : Except Fail (VecW K × Shell K) := do
  let k ← match s.model.bind kindOf with
    | none => .error (.raised .valueError)
    | some k => .ok k
  let size := size.value (3 * s.pan.m * s.pan.n)
  let s := s.fixR
  let inp := abd.getD (match s.ABD with
    | none => .other
    | some F => .one F)
  let cs ← readable c col0 s.panel
  let f ← lift (match k with
    | .plate => plateFint E.S E.G s.panel inp cs col0 (nx.getD s.nx) (ny.getD s.ny)
    | .cyl => cylFint E.S E.G s.panel inp cs col0 (nx.getD s.nx) (ny.getD s.ny))
  if col0 + 3 * s.pan.m * s.pan.n ≤ size then return (f, s) else .error .undef

end Verif.Model
