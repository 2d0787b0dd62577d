import Verif.Model.MultiPlot

/-!
# The stored fields of a panel and its contour plot

`Shell.uvw`, `strain`, `stress` of `panels/shell.py` (lines 705-852) as changes of the dictionaries
`fields` and `plot_mesh`, and `plot_shell` of `panels/plot_shell.py` (lines 14-217).  Of the plot the
model covers the numbers handed to `contourf` and the dictionaries afterwards; the state left behind by
an exception is not modelled.
-/

namespace Verif.Model

variable {K : Type} [Field K] [LinearOrder K]

/-- `plot_mesh` and `fields` of a panel. -/
structure Out (K : Type) where
  mesh : Option (Arr K × Arr K)
  fields : String → Option (Arr K)

/-- After `_clear_matrices` (`panels/shell.py` lines 227-238). -/
def Out.clear : Out K := ⟨none, fun _ => none⟩

/-- The assignments to `plot_mesh` and to the fields with the given names (`panels/shell.py` lines
742-748, 787-794). -/
def Out.store (o : Out K) (names : List String) (d : List K × List K × List ℕ) (vals : ℕ → List K) :
    Out K where
  mesh := some (⟨d.2.2, d.1⟩, ⟨d.2.2, d.2.1⟩)
  fields := fun k =>
    match names.idxOf? k with
    | some i => some ⟨d.2.2, vals i⟩
    | none => o.fields k

/-- `Shell.uvw` (`panels/shell.py` lines 705-750). -/
def Shell.uvwOut (S : Shape K) (s : Shell K) (c : ℕ → K) (xs ys : Option (Arr K))
    (gridx gridy cores : ℕ) (o : Out K) : Except Fail (Out K) := do
  let d ← lift (defaultField s.panel xs ys gridx gridy)
  match s.model.bind kindOf with
  | none => .error .keyError
  | some _ => return o.store displs d fun i =>
      (fuvw S s.panel c d.1 d.2.1 cores).map (UVW.get · i)

/-- `Shell.strain` (`panels/shell.py` lines 753-796); `r = None` is not a number. -/
def Shell.strainOut (S : Shape K) (s : Shell K) (c : ℕ → K) (xs ys : Option (Arr K))
    (gridx gridy cores : ℕ) (NL : Bool) (o : Out K) : Except Fail (Out K) := do
  let d ← lift (defaultField s.panel xs ys gridx gridy)
  match s.model.bind kindOf, s.r with
  | none, _ => .error .keyError
  | some _, none => .error (.raised .typeError)
  | some _, some _ => return o.store (strains.take 6) d fun i =>
      (fstrain S s.panel c d.1 d.2.1 cores NL.toNat).map (· i)

/-- `fields[name]` for a stored field: its elements. -/
def Out.get (o : Out K) (name : String) : List K := ((o.fields name).map Arr.data).getD []

/-- One field of `Shell.stress`: `exx*ABD[i, 0] + ... + kxy*ABD[i, 5]`, element by element, from the
fields just stored (`panels/shell.py` lines 845-850). -/
def Out.stress (o : Out K) (F : ℕ → ℕ → K) (i : ℕ) : List K :=
  let t (n : String) (j : ℕ) := (o.get n).map (· * F i j)
  let add := List.zipWith (· + · : K → K → K)
  add (add (add (add (add (t "exx" 0) (t "eyy" 1)) (t "gxy" 2)) (t "kxx" 3)) (t "kyy" 4)) (t "kxy" 5)

/-- `Shell.stress` (`panels/shell.py` lines 799-852) without `ABD` argument. -/
def Shell.stressOut (S : Shape K) (s : Shell K) (c : ℕ → K) (xs ys : Option (Arr K))
    (gridx gridy cores : ℕ) (NL : Bool) (o : Out K) : Except Fail (Out K) := do
  let o ← s.strainOut S c xs ys gridx gridy cores NL o
  match s.ABD with
  | none => .error (.raised .valueError)
  | some F =>
    let sh := ((o.fields "exx").map Arr.shape).getD []
    return { o with
      fields := fun k =>
        match (stresses.take 6).idxOf? k with
        | some i => some ⟨sh, o.stress F i⟩
        | none => o.fields k }

/-- The arguments of `plot_shell` that its numbers depend on (`panels/plot_shell.py` lines 14-20). -/
structure ShellPlotArgs (K : Type) [Field K] where
  vec : String := "w"
  deform : Bool := false
  sf : K := 100
  xs : Option (Arr K) := none
  ys : Option (Arr K) := none
  gridx : ℕ := 300
  gridy : ℕ := 300
  numLevels : ℕ := 400
  vecmin : Option K := none
  vecmax : Option K := none
  offX : K := 0
  offY : K := 0
  NLgeom : Bool := true

/-- The arguments of `contourf` (`panels/plot_shell.py` line 162). -/
structure Contour (K : Type) where
  x : Arr K
  y : Arr K
  val : Arr K
  levels : List K

/-- The field to be drawn is computed (`panels/plot_shell.py` lines 107-115): `NLgeom` is not handed
on to `strain`. -/
def plotField (S : Shape K) (s : Shell K) (c : ℕ → K) (A : ShellPlotArgs K) (cores : ℕ) (o : Out K) :
    Except Fail (Out K) :=
  if A.vec ∈ displs then s.uvwOut S c A.xs A.ys A.gridx A.gridy cores o
  else if A.vec ∈ strains then s.strainOut S c A.xs A.ys A.gridx A.gridy cores true o
  else if A.vec ∈ stresses then s.stressOut S c A.xs A.ys A.gridx A.gridy cores A.NLgeom o
  else .error (.raised .valueError)

/-- Element-wise `x + k*v` of arrays of one shape. -/
def Arr.addMul (x : Arr K) (k : K) (v : Arr K) : Arr K :=
  ⟨x.shape, List.zipWith (fun x v => x + k * v) x.data v.data⟩

/-- `x + k` for a number `k`. -/
def Arr.shift (x : Arr K) (k : K) : Arr K := ⟨x.shape, x.data.map (· + k)⟩

/-- With `deform_u` `uvw` is called unless a displacement is drawn (`panels/plot_shell.py` lines
144-147). -/
def plotUvw (S : Shape K) (s : Shell K) (c : ℕ → K) (A : ShellPlotArgs K) (cores : ℕ) (o : Out K) :
    Except Fail (Out K) :=
  if A.vec ∈ displs then .ok o else s.uvwOut S c A.xs A.ys A.gridx A.gridy cores o

/-- The coordinates with `deform_u` (`panels/plot_shell.py` lines 140-151). -/
def plotDeform (S : Shape K) (s : Shell K) (c : ℕ → K) (A : ShellPlotArgs K) (cores : ℕ) (o : Out K)
    (x y : Arr K) : Except Fail (Arr K × Arr K × Out K) :=
  if A.deform then do
    let o ← plotUvw S s c A cores o
    match o.fields "u", o.fields "v" with
    | some u, some v => return (x.addMul A.sf v, y.addMul (-A.sf) u, o)
    | _, _ => .error (.raised .typeError)
  else .ok (x, y, o)

/-- `plot_shell` (`panels/plot_shell.py` lines 14-217).  A field that is `None` has no `min`, and is no
array for `contourf` when both limits are given. -/
def plotShell (S : Shape K) (s : Shell K) (c : ℕ → K) (A : ShellPlotArgs K) (cores : ℕ) (o : Out K) :
    Except Fail (Contour K × Out K) := do
  let o1 ← plotField S s c A cores o
  match o1.mesh, o1.fields A.vec with
  | some mesh, some field => do
    let lo ← A.vecmin.elim (minOf field.data) .ok
    let hi ← A.vecmax.elim (maxOf field.data) .ok
    let d ← plotDeform S s c A cores o1 (mesh.2.shift A.offY) (mesh.1.shift A.offX)
    return (⟨d.1, d.2.1, field, linspace lo hi A.numLevels⟩,
      { mesh := d.2.2.mesh, fields := fun k => (o.fields k).orElse fun _ => d.2.2.fields k })
  | _, _ => .error (.raised
      (if A.vecmin.isNone || A.vecmax.isNone then .attributeError else .typeError))

end Verif.Model
