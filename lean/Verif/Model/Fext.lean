import Verif.Model.FieldOut

/-!
# External forces

`panels/shell_fext.py` and the methods of `panels/shell.py` that record loads.
-/

namespace Verif.Model

variable {K : Type*} [Field K]

/-- `[x, y, fx, fy, fz]`. -/
structure PLoad (K : Type*) where
  x : K
  y : K
  fx : K
  fy : K
  fz : K

/-- `[x, y, funcx, funcy, funcz]`, with `None` as `none`. -/
structure DLoad (K : Type*) where
  x : Option K
  y : Option K
  fx : Option (K → K)
  fy : Option (K → K)
  fz : Option (K → K)

/-- The lists of loads and prescribed displacements of a `Shell` (`panels/shell.py` lines 94-224). -/
structure Loads (K : Type*) where
  pointLoads : List (PLoad K) := []
  pointLoadsInc : List (PLoad K) := []
  distrLoads : List (DLoad K) := []
  distrLoadsInc : List (DLoad K) := []
  pointPds : List (PLoad K) := []
  pointPdsInc : List (PLoad K) := []
  distrPds : List (DLoad K) := []
  distrPdsInc : List (DLoad K) := []

/-- `Shell.add_point_load` (`panels/shell.py` lines 855-878). -/
def Loads.addPointLoad (L : Loads K) (x y fx fy fz : K) (cte : Bool) : Loads K :=
  if cte then { L with pointLoads := L.pointLoads ++ [⟨x, y, fx, fy, fz⟩] }
  else { L with pointLoadsInc := L.pointLoadsInc ++ [⟨x, y, fx, fy, fz⟩] }

/-- `Shell.add_distr_load_fixed_x` (`panels/shell.py` lines 881-901). -/
def Loads.addDistrLoadFixedX (L : Loads K) (x : K) (fx fy fz : Option (K → K)) (cte : Bool) :
    Except Err (Loads K) :=
  if !(fx.isSome || fy.isSome || fz.isSome) then .error .valueError
  else if cte then .ok { L with distrLoads := L.distrLoads ++ [⟨some x, none, fx, fy, fz⟩] }
  else .ok { L with distrLoadsInc := L.distrLoadsInc ++ [⟨some x, none, fx, fy, fz⟩] }

/-- `Shell.add_distr_load_fixed_y` (`panels/shell.py` lines 904-924). -/
def Loads.addDistrLoadFixedY (L : Loads K) (y : K) (fx fy fz : Option (K → K)) (cte : Bool) :
    Except Err (Loads K) :=
  if !(fx.isSome || fy.isSome || fz.isSome) then .error .valueError
  else if cte then .ok { L with distrLoads := L.distrLoads ++ [⟨none, some y, fx, fy, fz⟩] }
  else .ok { L with distrLoadsInc := L.distrLoadsInc ++ [⟨none, some y, fx, fy, fz⟩] }

/-- `Shell.add_point_pd` (`panels/shell.py` lines 927-951). -/
def Loads.addPointPd (L : Loads K) (x y ku up kv vp kw wp : K) (cte : Bool) : Loads K :=
  if cte then { L with pointPds := L.pointPds ++ [⟨x, y, ku * up, kv * vp, kw * wp⟩] }
  else { L with pointPdsInc := L.pointPdsInc ++ [⟨x, y, ku * up, kv * vp, kw * wp⟩] }

/-- The test `(k is not None) or (func is not None)` and what follows, for one component
(`panels/shell.py` lines 981-995). -/
def pdFunc (k : Option K) (f : Option (K → K)) : Except Err (Option (K → K)) :=
  match k, f with
  | none, none => .ok none
  | some k, some f => .ok (some fun t => k * f t)
  | _, _ => .error .valueError

/-- `any((ku, kv, kw))`: `None` and `0` count as false. -/
def anyK [DecidableEq K] (ku kv kw : Option K) : Bool :=
  let t : Option K → Bool := fun k => match k with
    | none => false
    | some k => decide (k ≠ 0)
  t ku || t kv || t kw

/-- `Shell.add_distr_pd_fixed_x` (`panels/shell.py` lines 954-999). -/
def Loads.addDistrPdFixedX [DecidableEq K] (L : Loads K) (x : K) (ku kv kw : Option K)
    (fu fv fw : Option (K → K)) (cte : Bool) : Except Err (Loads K) :=
  if !(anyK ku kv kw) then .error .valueError
  else if !(fu.isSome || fv.isSome || fw.isSome) then .error .valueError
  else do
    let u ← pdFunc ku fu
    let v ← pdFunc kv fv
    let w ← pdFunc kw fw
    if cte then return { L with distrPds := L.distrPds ++ [⟨some x, none, u, v, w⟩] }
    else return { L with distrPdsInc := L.distrPdsInc ++ [⟨some x, none, u, v, w⟩] }

/-- `Shell.add_distr_pd_fixed_y` (`panels/shell.py` lines 1002-1045). -/
def Loads.addDistrPdFixedY [DecidableEq K] (L : Loads K) (y : K) (ku kv kw : Option K)
    (fu fv fw : Option (K → K)) (cte : Bool) : Except Err (Loads K) :=
  if !(anyK ku kv kw) then .error .valueError
  else if !(fu.isSome || fv.isSome || fw.isSome) then .error .valueError
  else do
    let u ← pdFunc ku fu
    let v ← pdFunc kv fv
    let w ← pdFunc kw fw
    if cte then return { L with distrPds := L.distrPds ++ [⟨none, some y, u, v, w⟩] }
    else return { L with distrPdsInc := L.distrPdsInc ++ [⟨none, some y, u, v, w⟩] }

/-- The argument `size` of `calc_fext`: `None`, a number, or a string such as `'+1'`. -/
inductive SizeArg
  | none
  | num (n : ℕ)
  | plus (n : ℕ)

/-- `panels/shell_fext.py` lines 23-26. -/
def SizeArg.value (s : SizeArg) (own : ℕ) : ℕ :=
  match s with
  | .none => own
  | .num n => n
  | .plus n => n + own

/-- The work arrays of `shell_fext`: the interpolation matrix `g` (5 rows) and the force vector. -/
structure FState (K : Type*) where
  g : ℕ → ℕ → K
  f : ℕ → K

/-- One evaluation `fg(g, x, y, shell); fext[col0:col1] += weight*fpt.dot(g)`
(`panels/shell_fext.py` lines 43-45, 72-74, 84-86).  If the slice is shorter than the block NumPy raises
`ValueError`. -/
def addAt (S : Shape K) (P : Panel K) (size col0 : ℕ) (s : FState K) (x y weight fx fy fz : K) :
    Except Err (FState K) :=
  let g := fg S P s.g x y
  if size < col0 + getSize P then .error .valueError
  else .ok ⟨g, fun k => if col0 ≤ k ∧ k < col0 + getSize P then
      s.f k + weight * (fx * g 0 (k - col0) + fy * g 1 (k - col0) + fz * g 2 (k - col0)
        + 0 * g 3 (k - col0) + 0 * g 4 (k - col0))
    else s.f k⟩

/-- Loop over the point loads (`panels/shell_fext.py` lines 42-45; 103-113 for prescribed
displacements). -/
def addPoints (S : Shape K) (P : Panel K) (size col0 : ℕ) (s : FState K)
    (loads : List (PLoad K × K)) : Except Err (FState K) :=
  loads.foldlM (fun s l =>
    addAt S P size col0 s l.1.x l.1.y 1 (l.1.fx * l.2) (l.1.fy * l.2) (l.1.fz * l.2)) s

/-- `func if func is not None else lambda _: 0`. -/
def orZero (f : Option (K → K)) : K → K :=
  match f with
  | none => fun _ => 0
  | some f => f

/-- One distributed load (`panels/shell_fext.py` lines 55-86; 128-170 for prescribed
displacements). -/
def addDistr (S : Shape K) (G : GaussTab K) (P : Panel K) (size col0 : ℕ) (s : FState K)
    (l : DLoad K × K) : Except Err (FState K) :=
  match l.1.x, l.1.y with
  | none, none => .error .valueError
  | some _, some _ => .error .valueError
  | none, some ycte =>
    (List.range P.m).foldlM (fun s p =>
      let xvar := (G.pt P.m p + 1) * P.a / 2
      addAt S P size col0 s xvar ycte (G.wt P.m p * (P.a / 2)) (orZero l.1.fx xvar * l.2)
        (orZero l.1.fy xvar * l.2) (orZero l.1.fz xvar * l.2)) s
  | some xcte, none =>
    (List.range P.n).foldlM (fun s q =>
      let yvar := (G.pt P.n q + 1) * P.b / 2
      addAt S P size col0 s xcte yvar (G.wt P.n q * (P.b / 2)) (orZero l.1.fx yvar * l.2)
        (orZero l.1.fy yvar * l.2) (orZero l.1.fz yvar * l.2)) s

/-- `shell_fext` (`panels/shell_fext.py` lines 6-172): the vector has `size.value (getSize P)`
elements. -/
def shellFext (S : Shape K) (G : GaussTab K) (P : Panel K) (L : Loads K) (inc : K)
    (size : SizeArg) (col0 : ℕ) : Except Err (ℕ → K) := do
  let sz := size.value (getSize P)
  let s : FState K := ⟨fun _ _ => 0, fun _ => 0⟩
  let s ← addPoints S P sz col0 s
    (L.pointLoads.map (fun l => (l, 1)) ++ L.pointLoadsInc.map (fun l => (l, inc)))
  let s ← (L.distrLoads.map (fun l => (l, (1 : K))) ++ L.distrLoadsInc.map (fun l => (l, inc))).foldlM
    (addDistr S G P sz col0) s
  let s ← addPoints S P sz col0 s
    (L.pointPds.map (fun l => (l, 1)) ++ L.pointPdsInc.map (fun l => (l, inc)))
  let s ← (L.distrPds.map (fun l => (l, (1 : K))) ++ L.distrPdsInc.map (fun l => (l, inc))).foldlM
    (addDistr S G P sz col0) s
  return s.f

end Verif.Model
