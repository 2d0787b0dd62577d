import Verif.Model.Bay
import Verif.Model.Fext
import Verif.Model.FieldOut
import Verif.Model.Save

/-!
# Loads, displacements and saving of a bay

`StiffPanelBay.calc_fext`, `uvw_skin`, `uvw_stiffener`, `_clear_matrices` and `save`
(`panels/stiffpanelbay/stiffpanelbay.py`).  Not modelled: `tstiff2ds`, negative stiffener indices,
the fields kept as attributes of the bay.
-/

namespace Verif.Model

variable {K : Type} [Field K] [LinearOrder K]

/-- The attributes a `Shell` can have (`__slots__`, `panels/shell.py` lines 71-92); the class has no
`__dict__`. -/
def shellSlots : List String :=
  ["a", "x1", "x2", "b", "y1", "y2", "r", "stack", "plyt", "laminaprop", "rho", "offset",
    "group", "x0", "y0", "row_start", "col_start", "row_end", "col_end", "name", "bay", "model",
    "fsdt_shear_correction", "m", "n", "nx", "ny", "size",
    "point_loads", "point_loads_inc", "distr_loads", "distr_loads_inc",
    "point_pds", "point_pds_inc", "distr_pds", "distr_pds_inc",
    "Nxx", "Nyy", "Nxy", "Nxx_cte", "Nyy_cte", "Nxy_cte",
    "x1u", "x1ur", "x2u", "x2ur", "x1v", "x1vr", "x2v", "x2vr", "x1w", "x1wr", "x2w", "x2wr",
    "y1u", "y1ur", "y2u", "y2ur", "y1v", "y1vr", "y2v", "y2vr", "y1w", "y1wr", "y2w", "y2wr",
    "plyts", "laminaprops", "rhos",
    "flow", "beta", "gamma", "aeromu", "rho_air", "speed_sound", "Mach", "V",
    "ABD", "force_orthotropic_laminate", "num_eigvalues", "num_eigvalues_print",
    "out_num_cores", "increments", "results", "lam", "matrices", "fields", "plot_mesh"]

/-- `shell.name = value`, and reading an attribute that is not a method: `AttributeError` for a name
that is no slot. -/
def slot (name : String) : Except Fail Unit :=
  if name ∈ shellSlots then .ok () else .error (.raised .attributeError)

/-- A member of the list `stiffeners`: the position in `bladestiff1ds` or `bladestiff2ds`. -/
inductive StiffRef
  | one (i : ℕ)
  | two (i : ℕ)
deriving DecidableEq

/-- `isinstance(s, BladeStiff2D)`. -/
def StiffRef.isTwo : StiffRef → Bool
  | .one _ => false
  | .two _ => true

/-- A `StiffPanelBay` with the forces on the skin and the list of all stiffeners in the order in which
they were added (`stiffpanelbay.py` lines 49, 68). -/
structure OutBay (K : Type*) extends Bay K where
  forcesSkin : List (PLoad K)
  stiffeners : List StiffRef

/-- `add_bladestiff1d` (`stiffpanelbay.py` lines 229-339), with line 337. -/
def OutBay.addBlade1 (E : BayEnv K) (B : OutBay K) (ys : K) (rho bb bf : Option K)
    (base flange : LamArgs K) : Except Fail (OutBay K) := do
  let B' ← B.toBay.addBlade1 E ys rho bb bf base flange
  return { B with toBay := B', stiffeners := B.stiffeners ++ [.one B.blade1.length] }

/-- `add_bladestiff2d` (`stiffpanelbay.py` lines 342-456), with line 454. -/
def OutBay.addBlade2 (E : BayEnv K) (B : OutBay K) (ys : K) (rho bb bf : Option K)
    (base flange : LamArgs K) (mf nf : ℕ) : Except Fail (OutBay K) := do
  let B' ← B.toBay.addBlade2 E ys rho bb bf base flange mf nf
  return { B with toBay := B', stiffeners := B.stiffeners ++ [.two B.blade2.length] }

/-! ## External forces -/

/-- `fg` as a function of the object given: anything whose class is not called `Shell` is refused
(`clpt_bardell_field.pyx` lines 313-318). -/
def fgOf (cls : String) (S : Shape K) (P : Panel K) (g : ℕ → ℕ → K) (x y : K) :
    Except Fail (ℕ → ℕ → K) :=
  if cls ≠ "Shell" then .error (.raised .valueError) else .ok (fg S P g x y)

/-- The forces on the skin (lines 1452-1457); `cls` is the class of the bay. -/
def skinForces (cls : String) (S : Shape K) (P : Panel K) :
    List (PLoad K) → (ℕ → ℕ → K) → (ℕ → K) → Except Fail (ℕ → K)
  | [], _, f => .ok f
  | l :: ls, g, f => do
    let g ← fgOf cls S P g l.x l.y
    skinForces cls S P ls g fun k => f k + (l.fx * g 0 k + l.fy * g 1 k + l.fz * g 2 k)

/-- The flanges (lines 1462-1473).  The list `forces` that is read of a flange is no slot; were it one,
the list would be the one given here. -/
def flangeForces (S : Shape K) (forces : Shell K → List (PLoad K)) :
    List (Blade2 K) → ℕ × (ℕ → K) → Except Fail (ℕ × (ℕ → K))
  | [], f => .ok f
  | s :: l, f =>
    match s.flange with
    | none => .error (.raised .attributeError)
    | some p => do
      let n ← p.getSize
      slot "forces"
      let q ← skinForces "Shell" S p.panel (forces p) (fun _ _ => 0) fun _ => 0
      flangeForces S forces l (f.1 + n, fun k => if k < f.1 then f.2 k else q (k - f.1))

/-- `StiffPanelBay.calc_fext` (lines 1430-1503): number of elements and elements. -/
def OutBay.calcFext (S : Shape K) (forces : Shell K → List (PLoad K)) (B : OutBay K) :
    Except Fail (ℕ × (ℕ → K)) := do
  let n ← B.skinSize
  let f ← skinForces "StiffPanelBay" S B.skin B.forcesSkin (fun _ _ => 0) fun _ => 0
  flangeForces S forces B.blade2 (n, f)

/-! ## Displacements -/

/-- The points of `uvw_skin` and `uvw_stiffener` (lines 846-849, 947-950) with `_default_field`
(lines 181-197).  Arrays that are given are not made flat: `fuvw` takes one-dimensional ones only.
One-dimensional arrays of different length are read beyond the end. -/
def bayPoints (a b : K) (xs ys : Option (Arr K)) (gridx gridy : ℕ) :
    Except Fail (List K × List K × List ℕ) :=
  match xs, ys with
  | some xs, some ys =>
    if xs.shape.length ≠ 1 ∨ ys.shape.length ≠ 1 then .error (.raised .valueError)
    else if xs.shape ≠ ys.shape then .error .undef
    else .ok (xs.data, ys.data, xs.shape)
  | _, _ =>
    let lx := linspace 0 a gridx
    let ly := linspace 0 b gridy
    .ok (ly.flatMap fun _ => lx, ly.flatMap fun y => lx.map fun _ => y, [gridy, gridx])

/-- `StiffPanelBay.uvw_skin` (lines 801-866) of a vector `c` of `len` elements. -/
def OutBay.uvwSkin (S : Shape K) (B : OutBay K) (len : ℕ) (c : ℕ → K) (xs ys : Option (Arr K))
    (gridx gridy cores : ℕ) : Except Fail (List ℕ × List (UVW K)) := do
  let n ← B.getSize
  if len ≠ n then .error (.raised .valueError)
  else do
    let d ← bayPoints B.skin.a B.skin.b xs ys gridx gridy
    return (d.2.2, fuvw S B.skin c d.1 d.2.1 cores)

/-- The loop for `row_init` (lines 925-931): `get_size` is asked of the stiffener before, and neither
class of stiffeners has it. -/
def rowInit (l : List StiffRef) (si start : ℕ) : Except Fail ℕ :=
  (List.range (si + 1)).foldlM (fun row i =>
    if 0 < i ∧ ∃ k ∈ l[i]?, StiffRef.isTwo k then .error (.raised .attributeError)
    else .ok row) start

/-- The flange of a 2D stiffener. -/
def flangeAt (B : Bay K) (i : ℕ) : Except Fail (Shell K) :=
  match B.blade2[i]? with
  | none => .error .undef
  | some s =>
    match s.flange with
    | none => .error (.raised .attributeError)
    | some f => .ok f

/-- `StiffPanelBay.uvw_stiffener` (lines 869-966). -/
def OutBay.uvwStiffener (S : Shape K) (B : OutBay K) (len : ℕ) (c : ℕ → K) (si : ℕ)
    (region : String) (xs ys : Option (Arr K)) (gridx gridy cores : ℕ) :
    Except Fail (List ℕ × List (UVW K)) :=
  match B.stiffeners[si]? with
  | none => .error (.raised .indexError)
  | some (.one _) => .error (.raised .runtimeError)
  | some (.two i) =>
    if lower region = "base" then .error (.raised .runtimeError)
    else do
      let d ← B.skinSize
      let row ← rowInit B.stiffeners si d
      if lower region ≠ "flange" then .error (.raised .valueError)
      else do
        let f ← flangeAt B.toBay i
        let _ ← f.getSize
        let n ← B.getSize
        if len ≠ n then .error (.raised .valueError)
        else do
          let p ← bayPoints B.skin.a f.pan.b xs ys gridx gridy
          return (p.2.2, fuvw S f.panel (fun k => c (row + k)) p.1 p.2.1 cores)

/-! ## Saving -/

/-- `StiffPanelBay._clear_matrices` (lines 120-153) as far as it can fail: the assignments to the
panels. -/
def Bay.clearMatrices (B : Bay K) : Except Fail Unit :=
  B.panels.forM fun _ => do
    slot "kC"
    slot "kM"
    slot "kG"

/-- `StiffPanelBay.save` (lines 1411-1427): the matrices are cleared first. -/
def Bay.save (B : Bay K) (fs : Files (Bay K)) (name : List Char) : Except Fail (Files (Bay K)) := do
  B.clearMatrices
  return (Model.save bayExt id fs name B).1

end Verif.Model
