import Verif.Model.Bay
import Verif.Model.MultiForce

/-!
# Ready-made assemblies

The functions of `panels/multidomain/cylinder.py`, `cylinder_blade_stiffened.py` and
`tstiff2d_1stiff_compression.py`, up to the calls of the solvers (package `structsolve`).  `np.pi` is
the parameter `pi`.  Panels are named by their position in the list given to `MultiDomain`.
-/

namespace Verif.Model

variable {K : Type} [Field K] [LinearOrder K]

/-- A panel made by these functions, with the attributes the store of shells does not have. -/
structure Part (K : Type*) where
  group : String
  x0 : K
  y0 : K
  shell : Shell K
  loads : Loads K := {}

/-- An assembly and its list of connections. -/
structure Assy (K : Type*) where
  part : ℕ → Part K
  count : ℕ
  conns : List (ConnD K)

/-- `MultiDomain(panels)`. -/
def Assy.multi (A : Assy K) : Multi K :=
  Multi.init (fun p => (A.part p).shell) (fun _ => none) (List.range A.count) none

/-- `x1u=x1, x1ur=1, x2u=x2, x2ur=1` and the like: rotations are always free. -/
def edgeFlags (t1 t2 : K) : Flags K := ⟨t1, 1, t2, 1⟩

/-- `p.x2u = 1`. -/
def Part.freeX2u (p : Part K) : Part K :=
  { p with shell := { p.shell with pan := { p.shell.pan with xu := { p.shell.pan.xu with t2 := 1 } } } }

/-- `p.Nxx = v`. -/
def Part.setNxx (p : Part K) (v : K) : Part K := { p with shell := { p.shell with Nxx := v } }

/-! ## Cylinder -/

/-- Arguments of `create_cylinder_assy`. -/
structure CylArgs (K : Type*) where
  height : K
  r : K
  stack : List K
  plyt : K
  laminaprop : List K
  npanels : ℕ
  m : ℕ := 8
  n : ℕ := 8

/-- The panels of the loops at `cylinder.py` lines 64-71 and `cylinder_blade_stiffened.py` lines 85-93,
98-106: fixed translations at both `x` ends, all `y` edges free. -/
def cylShell (q : CylArgs K) (b : K) (r : Option K) (stack : List K) : Shell K :=
  Shell.new
    { a := q.height, b := b, r := 0, m := q.m, n := q.n, x1 := -1, x2 := 1, y1 := -1, y2 := 1
      xu := edgeFlags 0 0, xv := edgeFlags 0 0, xw := edgeFlags 0 0
      yu := edgeFlags 1 1, yv := edgeFlags 1 1, yw := edgeFlags 1 1 }
    r none stack (some q.plyt) [] q.laminaprop [] 0 0

/-- `b_skin` (`cylinder.py` lines 60-61). -/
def bSkin (pi : K) (q : CylArgs K) : K := 2 * pi * q.r / q.npanels

/-- A panel of the skin (lines 63-71). -/
def skinPart (pi : K) (q : CylArgs K) (i : ℕ) : Part K where
  group := "skin"
  x0 := 0
  y0 := i * bSkin pi q
  shell := cylShell q (bSkin pi q) (some q.r) q.stack

/-- `skin + [skin[0]]` (line 74). -/
def skinLoop (n : ℕ) : List ℕ := List.range n ++ [0]

/-- The joints between the panels of the skin (lines 73-83). -/
def skinConns (pi : K) (q : CylArgs K) : List (ConnD K) :=
  (List.range q.npanels).map fun i =>
    let l := skinLoop q.npanels
    if i ≠ q.npanels - 1 then
      { p1 := l.getD i 0, p2 := l.getD (i + 1) 0, func := "SSycte"
        ycte1 := some (skinPart pi q (l.getD i 0)).shell.pan.b, ycte2 := some 0 }
    else
      { p1 := l.getD (i + 1) 0, p2 := l.getD i 0, func := "SSycte"
        ycte1 := some 0, ycte2 := some (skinPart pi q (l.getD i 0)).shell.pan.b }

/-- `create_cylinder_assy` (`cylinder.py` lines 10-86). -/
def createCylinder (pi : K) (q : CylArgs K) : Except Fail (Assy K) :=
  if q.npanels < 2 then .error (.raised .valueError)
  else .ok ⟨skinPart pi q, q.npanels, skinConns pi q⟩

/-- `cylinder_compression_lb_Nxx_cte` (`cylinder.py` lines 89-132): the assembly and the two matrices
given to the solver. -/
def cylinderNxxCte (E : Env K) (pi : K) (q : CylArgs K) (Nxxs : List K) :
    Except Fail (Assy K × Coo K × Coo K) := do
  let A ← createCylinder pi q
  if Nxxs.length ≠ q.npanels then .error (.raised .valueError)
  else
    let A := { A with part := fun i => ((A.part i).setNxx (Nxxs.getD i 0)).freeX2u }
    let (k0, M) ← A.multi.calcKC E (some A.conns) none
    let (kG, _) ← M.calcKG E none
    return (A, k0, kG)

/-- Loads added in a loop over panels: a load is a `lambda` that reads a variable of the function when
it is called, and `var` is what the variable holds. -/
structure LateLoads (σ K : Type*) where
  var : σ
  added : List (ℕ × (σ → K → K))

/-- What `calc_fext` finds: each panel has the loads added to it at `x = a`, the `lambda`s reading the
variable as it is now. -/
def LateLoads.apply {σ : Type*} (L : LateLoads σ K) (A : Assy K) : Except Err (Assy K) :=
  L.added.foldlM (fun A e => do
    let l ← (A.part e.1).loads.addDistrLoadFixedX (A.part e.1).shell.pan.a (some (e.2 L.var)) none none true
    return { A with part := fun p => if p = e.1 then { A.part p with loads := l } else A.part p }) A

/-- The loop at `cylinder.py` lines 170-172: the variable is `i`. -/
def staticLoop (Nxxs : List K) (n : ℕ) : LateLoads ℕ K :=
  (List.range n).foldl (fun L i => ⟨i, L.added ++ [(i, fun i _ => Nxxs.getD i 0)]⟩) ⟨0, []⟩

/-- The external forces of the assembly (`calc_fext`, `inc` 1). -/
def Assy.fext (E : Env K) (A : Assy K) : Except Fail ((ℕ → K) × Multi K) :=
  A.multi.calcFext E (fun p => (A.part p).loads) 1

/-- `cylinder_compression_lb_Nxx_from_static` (`cylinder.py` lines 135-176) up to the static analysis:
assembly, forces and stiffness matrix. -/
def cylinderFromStatic (E : Env K) (pi : K) (q : CylArgs K) (Nxxs : List K) :
    Except Fail (Assy K × (ℕ → K) × Coo K) := do
  let A ← createCylinder pi q
  if Nxxs.length ≠ q.npanels then .error (.raised .valueError)
  else
    let A ← lift ((staticLoop Nxxs q.npanels).apply { A with part := fun i => (A.part i).freeX2u })
    let (f, M) ← A.fext E
    let (k0, _) ← M.calcKC E (some A.conns) none
    return (A, f, k0)

/-- The loop at `cylinder.py` lines 222-223: the variable is the panel `p`, whose `Nxx` is read.  The
loop before it (lines 219-220) leaves `p` at the last panel as well. -/
def splaLoop (A : Assy K) : LateLoads ℕ K :=
  (List.range A.count).foldl (fun L p => ⟨p, L.added ++ [(p, fun p _ => (A.part p).shell.Nxx)]⟩) ⟨0, []⟩

/-- `cylinder_spla` (`cylinder.py` lines 188-228) up to the analysis; the argument `Nxx` is not read. -/
def cylinderSpla (pi : K) (q : CylArgs K) (_Nxx SPLA : K) : Except Fail (Assy K) := do
  let A ← createCylinder pi q
  let A := { A with part := fun i => (A.part i).freeX2u }
  let A ← lift ((splaLoop A).apply A)
  let p := A.part 0
  let l := p.loads.addPointLoad (p.shell.pan.a / 2) (p.shell.pan.b / 2) 0 0 (-SPLA) true
  return { A with part := fun i => if i = 0 then { p with loads := l } else A.part i }

/-! ## Cylinder with blades -/

/-- A blade (`cylinder_blade_stiffened.py` lines 96-106); `'blade_%02d' % i` is kept as `blade`. -/
def bladePart (pi : K) (q : CylArgs K) (stackBlades : List (List K)) (widthBlades : List K) (i : ℕ) :
    Part K where
  group := "blade"
  x0 := 0
  y0 := i * bSkin pi q
  shell := cylShell q (widthBlades.getD i 0) none (stackBlades.getD i [])

/-- `create_cylinder_blade_stiffened` (lines 10-126): blade `i` is panel `npanels + i`. -/
def createCylinderBlades (pi : K) (q : CylArgs K) (stackBlades : List (List K)) (widthBlades : List K) :
    Except Fail (Assy K) :=
  if q.npanels < 2 then .error (.raised .valueError)
  else if stackBlades.length ≠ q.npanels then .error (.raised .valueError)
  else if widthBlades.length ≠ q.npanels then .error (.raised .valueError)
  else .ok ⟨fun p => if p < q.npanels then skinPart pi q p
      else bladePart pi q stackBlades widthBlades (p - q.npanels), q.npanels + q.npanels,
    skinConns pi q ++ ((List.range q.npanels).zip (List.range q.npanels)).map fun e =>
      { p1 := e.1, p2 := q.npanels + e.2, func := "BFycte", ycte1 := some 0, ycte2 := some 0 }⟩

/-- Counters `i_skin + 1`, `i_blade + 1` and `Nxx` in the loops at lines 166-175 and 222-232; `Nxx` is
unbound at first. -/
structure BladeVars (K : Type*) where
  iSkin : ℕ := 0
  iBlade : ℕ := 0
  Nxx : Option K := none

/-- `if 'skin' in p.group … elif 'blade' in p.group …` (lines 170-175, 226-231). -/
def bladeStep (NxxsSkin NxxsBlade : List K) (group : String) (v : BladeVars K) : BladeVars K :=
  if group = "skin" then { v with iSkin := v.iSkin + 1, Nxx := some (NxxsSkin.getD v.iSkin 0) }
  else if group = "blade" then
    { v with iBlade := v.iBlade + 1, Nxx := some (NxxsBlade.getD v.iBlade 0) }
  else v

/-- `p.Nxx = …` in the branch taken (lines 172, 175) and `p.x2u = 1` (line 169). -/
def bladeAssign (p : Part K) (v : BladeVars K) : Part K :=
  match v.Nxx with
  | some x => (p.setNxx x).freeX2u
  | none => p.freeX2u

/-- One pass of the loop of the function for constant `Nxx` (lines 168-175). -/
def bladeNxxStep (NxxsSkin NxxsBlade : List K) (s : Assy K × BladeVars K) (p : ℕ) :
    Assy K × BladeVars K :=
  let v := bladeStep NxxsSkin NxxsBlade (s.1.part p).group s.2
  ({ s.1 with part := fun k => if k = p then bladeAssign (s.1.part p) v else s.1.part k }, v)

/-- The loop (lines 166-175). -/
def bladeNxxLoop (NxxsSkin NxxsBlade : List K) (A : Assy K) : Assy K :=
  ((List.range A.count).foldl (bladeNxxStep NxxsSkin NxxsBlade) (A, {})).1

/-- `cylinder_blade_stiffened_compression_lb_Nxx_cte` (lines 129-181). -/
def bladesNxxCte (E : Env K) (pi : K) (q : CylArgs K) (stackBlades : List (List K)) (widthBlades : List K)
    (NxxsSkin NxxsBlade : List K) : Except Fail (Assy K × Coo K × Coo K) := do
  let A ← createCylinderBlades pi q stackBlades widthBlades
  if NxxsSkin.length ≠ q.npanels then .error (.raised .valueError)
  else if NxxsBlade.length ≠ q.npanels then .error (.raised .valueError)
  else
    let A := bladeNxxLoop NxxsSkin NxxsBlade A
    let (k0, M) ← A.multi.calcKC E (some A.conns) none
    let (kG, _) ← M.calcKG E none
    return (A, k0, kG)

/-- The loop at lines 222-232: the variable is `Nxx`. -/
def bladeStaticLoop (NxxsSkin NxxsBlade : List K) (A : Assy K) : LateLoads (BladeVars K) K :=
  (List.range A.count).foldl (fun L p =>
    ⟨bladeStep NxxsSkin NxxsBlade (A.part p).group L.var,
      L.added ++ [(p, fun v _ => v.Nxx.getD 0)]⟩) ⟨{}, []⟩

/-- `cylinder_blade_stiffened_compression_lb_Nxx_from_static` (lines 184-236) up to the static
analysis. -/
def bladesFromStatic (E : Env K) (pi : K) (q : CylArgs K) (stackBlades : List (List K))
    (widthBlades : List K) (NxxsSkin NxxsBlade : List K) :
    Except Fail (Assy K × (ℕ → K) × Coo K) := do
  let A ← createCylinderBlades pi q stackBlades widthBlades
  if NxxsSkin.length ≠ q.npanels then .error (.raised .valueError)
  else if NxxsBlade.length ≠ q.npanels then .error (.raised .valueError)
  else
    let A ← lift ((bladeStaticLoop NxxsSkin NxxsBlade A).apply { A with part := fun i => (A.part i).freeX2u })
    let (f, M) ← A.fext E
    let (k0, _) ← M.calcKC E (some A.conns) none
    return (A, f, k0)

end Verif.Model
