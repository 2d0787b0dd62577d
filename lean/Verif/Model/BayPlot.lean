import Verif.Model.BayOut
import Verif.Model.ShellPlot

/-!
# The contour plots of a bay

`StiffPanelBay.plot_skin` and `plot_stiffener` (`panels/stiffpanelbay/stiffpanelbay.py` lines 969-1185,
1187-1408) with the attributes `u`, `v`, `w`, `phix`, `phiy`, `Xs`, `Ys`.  As in `ShellPlot` only the
numbers handed to `contourf` and the attributes afterwards are modelled.
-/

namespace Verif.Model

variable {K : Type} [Field K] [LinearOrder K]

/-- `Xs`, `Ys` after `uvw_skin` or `uvw_stiffener`: they are set by `_default_field` (lines 181-197),
which is not called when both `xs` and `ys` are given (lines 846-849, 947-950). -/
def bayMesh (a b : K) (xs ys : Option (Arr K)) (gridx gridy : ℕ) (o : Out K) :
    Option (Arr K × Arr K) :=
  match xs, ys with
  | some _, some _ => o.mesh
  | _, _ => some (⟨[gridy, gridx], meshX (linspace 0 a gridx) (linspace 0 b gridy)⟩,
      ⟨[gridy, gridx], meshY (linspace 0 a gridx) (linspace 0 b gridy)⟩)

/-- The assignments to `u` … `phiy` (lines 860-864, 960-964). -/
def Out.putDispl (o : Out K) (mesh : Option (Arr K × Arr K)) (r : List ℕ × List (UVW K)) : Out K where
  mesh := mesh
  fields := fun k =>
    match displs.idxOf? k with
    | some i => some ⟨r.1, r.2.map (UVW.get · i)⟩
    | none => o.fields k

/-- `uvw_skin` with its attributes. -/
def OutBay.skinOut (S : Shape K) (B : OutBay K) (len : ℕ) (c : ℕ → K) (xs ys : Option (Arr K))
    (gridx gridy cores : ℕ) (o : Out K) : Except Fail (Out K) := do
  let r ← B.uvwSkin S len c xs ys gridx gridy cores
  return o.putDispl (bayMesh B.skin.a B.skin.b xs ys gridx gridy o) r

/-- The width of the flange of stiffener `si`, `stiff.flange.b` (line 934). -/
def OutBay.flangeWidth (B : OutBay K) (si : ℕ) : K :=
  match B.stiffeners[si]? with
  | some (.two i) => ((B.blade2[i]?.bind Blade2.flange).map fun f => f.pan.b).getD 0
  | _ => 0

/-- `uvw_stiffener` with its attributes. -/
def OutBay.stiffenerOut (S : Shape K) (B : OutBay K) (len : ℕ) (c : ℕ → K) (si : ℕ) (region : String)
    (xs ys : Option (Arr K)) (gridx gridy cores : ℕ) (o : Out K) : Except Fail (Out K) := do
  let r ← B.uvwStiffener S len c si region xs ys gridx gridy cores
  return o.putDispl (bayMesh B.skin.a (B.flangeWidth si) xs ys gridx gridy o) r

/-- The arguments of the plots that their numbers depend on (lines 969-975, 1187-1193). -/
structure BayPlotArgs (K : Type) [Field K] where
  vec : String := "w"
  deform : Bool := false
  sf : K := 100
  xs : Option (Arr K) := none
  ys : Option (Arr K) := none
  gridx : ℕ := 300
  gridy : ℕ := 300
  numLevels : ℕ := 400
  vecmin : Option K := none
  vecmax : Option K := none

/-- `x += sf*v` on arrays of one shape; other shapes, which NumPy may broadcast, are not modelled. -/
def Arr.addInto (x : Arr K) (k : K) (v : Arr K) : Except Fail (Arr K) :=
  if x.shape = v.shape then .ok (x.addMul k v) else .error .undef

/-- `x = Ys; y = Xs; y -= sf*u; x += sf*v` (lines 1108-1119, 1331-1343): `x` and `y` are the stored
arrays, which change with them.  The result is the mesh afterwards. -/
def bayDeform (A : BayPlotArgs K) (o : Out K) (mesh : Arr K × Arr K) : Except Fail (Arr K × Arr K) :=
  if A.deform then
    match o.fields "u", o.fields "v" with
    | some u, some v => do
      let y ← mesh.1.addInto (-A.sf) u
      let x ← mesh.2.addInto A.sf v
      return (y, x)
    | _, _ => .error (.raised .typeError)
  else .ok mesh

/-- `plot_skin` (lines 969-1185) and `plot_stiffener` (lines 1187-1408), which differ in the
computation of the field: `u` … `phiy` are put back if they were there before.  `None` has no place in
`contourf` (nor in `-=`). -/
def plotBay (compute : Out K → Except Fail (Out K)) (A : BayPlotArgs K) (o : Out K) :
    Except Fail (Contour K × Out K) :=
  if A.vec ∈ displs then do
    let o1 ← compute o
    let field := (o1.fields A.vec).getD ⟨[], []⟩
    let lo ← A.vecmin.elim (minOf field.data) .ok
    let hi ← A.vecmax.elim (maxOf field.data) .ok
    match o1.mesh with
    | none => .error (.raised .typeError)
    | some mesh => do
      let m ← bayDeform A o1 mesh
      return (⟨m.2, m.1, field, linspace lo hi A.numLevels⟩,
        { mesh := some m
          fields := fun k => (o.fields k).orElse fun _ => o1.fields k })
  else .error (.raised .valueError)

/-- `plot_skin`. -/
def OutBay.plotSkin (S : Shape K) (B : OutBay K) (len : ℕ) (c : ℕ → K) (A : BayPlotArgs K)
    (cores : ℕ) (o : Out K) : Except Fail (Contour K × Out K) :=
  plotBay (B.skinOut S len c A.xs A.ys A.gridx A.gridy cores) A o

/-- `plot_stiffener`. -/
def OutBay.plotStiffener (S : Shape K) (B : OutBay K) (len : ℕ) (c : ℕ → K) (si : ℕ) (region : String)
    (A : BayPlotArgs K) (cores : ℕ) (o : Out K) : Except Fail (Contour K × Out K) :=
  plotBay (B.stiffenerOut S len c si region A.xs A.ys A.gridx A.gridy cores) A o

end Verif.Model
