import Verif.Model.MultiField

/-!
# Fields of an assembly on grids, and what its contour plot shows

`default_field` and `MultiDomain.uvw`, `strain`, `stress`, `plot` of
`panels/multidomain/multidomain.py` (lines 18-29, 351-531, 106-348).  The vector `c` is read at every
index.  Of `plot` the model covers the numbers: the limits of the scale, the levels and the
coordinates and values handed to `contourf`.  Axes, figures, texts, lines, colour bars and files are
not modelled.
-/

namespace Verif.Model

variable {K : Type} [Field K] [LinearOrder K]

/-- The loop over the panels common to `uvw`, `strain`, `stress` (lines 385-403, 438-465, 497-530),
with the grid of `default_field` (lines 18-29); `f` computes the field of one panel. -/
def gridLoop {α : Type} (M : Multi K) (groupOf : ℕ → String) (group : String)
    (f : ℕ → List K → List K → Except Fail α) (gridx gridy : ℕ) :
    List ℕ → Except Fail (List (Sampled K α))
  | [] => .ok []
  | p :: ps =>
    if groupOf p ≠ group then gridLoop M groupOf group f gridx gridy ps
    else
      match (M.shells p).model.bind kindOf with
      | none => .error .keyError
      | some _ =>
        let x := linspace 0 (M.shells p).pan.a gridx
        let y := linspace 0 (M.shells p).pan.b gridy
        do
          let v ← f p (meshX x y) (meshY x y)
          let rest ← gridLoop M groupOf group f gridx gridy ps
          return ⟨p, meshX x y, meshY x y, v⟩ :: rest

/-- `fuvw(c_panel, panel, x, y, self.out_num_cores)` (line 396). -/
def uvwOf (S : Shape K) (M : Multi K) (c : ℕ → K) (cores : ℕ) (p : ℕ) (x y : List K) :
    Except Fail (List (UVW K)) :=
  .ok (fuvw S (M.shells p).panel (M.slice p c) x y cores)

/-- The strains times `panel.ABD` (lines 508-522). -/
def stressOf (S : Shape K) (M : Multi K) (c : ℕ → K) (cores NL : ℕ) (p : ℕ) (x y : List K) :
    Except Fail (List (ℕ → K)) := do
  let e ← strainOf S M c cores NL p x y
  match (M.shells p).ABD with
  | none => .error (.raised .valueError)
  | some F => return e.map fun e => stressRow F e

/-- `MultiDomain.uvw` (lines 351-405). -/
def Multi.uvw (S : Shape K) (M : Multi K) (groupOf : ℕ → String) (c : ℕ → K) (group : String)
    (gridx gridy cores : ℕ) : Except Fail (List (Sampled K (List (UVW K)))) :=
  gridLoop M groupOf group (uvwOf S M c cores) gridx gridy M.panels

/-- `MultiDomain.strain` (lines 408-467). -/
def Multi.strain (S : Shape K) (M : Multi K) (groupOf : ℕ → String) (c : ℕ → K) (group : String)
    (gridx gridy cores : ℕ) (NL : Bool) : Except Fail (List (Sampled K (List (ℕ → K)))) :=
  gridLoop M groupOf group (strainOf S M c cores NL.toNat) gridx gridy M.panels

/-- `MultiDomain.stress` (lines 470-531). -/
def Multi.stress (S : Shape K) (M : Multi K) (groupOf : ℕ → String) (c : ℕ → K) (group : String)
    (gridx gridy cores : ℕ) (NL : Bool) : Except Fail (List (Sampled K (List (ℕ → K)))) :=
  gridLoop M groupOf group (stressOf S M c cores NL.toNat) gridx gridy M.panels

/-! ## `plot` -/

/-- `displs` (line 220). -/
def displs : List String := ["u", "v", "w", "phix", "phiy"]

/-- `strains` (line 221). -/
def strains : List String := ["exx", "eyy", "gxy", "kxx", "kyy", "kxy", "gyz", "gxz"]

/-- `stresses` (line 222). -/
def stresses : List String := ["Nxx", "Nyy", "Nxy", "Mxx", "Myy", "Mxy", "Qy", "Qx"]

/-- The component of the displacement output with the given place in `displs`. -/
def UVW.get {K : Type*} (o : UVW K) : ℕ → K
  | 0 => o.u
  | 1 => o.v
  | 2 => o.w
  | 3 => o.phix
  | _ => o.phiy

/-- The arguments of `plot` that its numbers depend on (lines 106-114). -/
structure PlotArgs (K : Type) where
  vec : String := "w"
  gridx : ℕ := 50
  gridy : ℕ := 50
  numLevels : ℕ := 400
  vecmin : Option K := none
  vecmax : Option K := none
  dataOnly : Bool := false
  gauss : Bool := false
  xg : Option (List K) := none
  yg : Option (List K) := none

/-- What is returned (`data`) and what is drawn: the levels, and coordinates and values of each
contour, in the order of the calls of `contourf`. -/
structure Drawing (K : Type) where
  vecmin : K
  vecmax : K
  levels : List K
  parts : List (Sampled K (List K))

/-- `field.min()`; an empty array has none. -/
def minOf : List K → Except Fail K
  | [] => .error (.raised .valueError)
  | a :: l => .ok (l.foldl min a)

/-- `field.max()`. -/
def maxOf : List K → Except Fail K
  | [] => .error (.raised .valueError)
  | a :: l => .ok (l.foldl max a)

/-- The grid loop or the one at given points (lines 224-246). -/
def plotLoop {α : Type} (M : Multi K) (groupOf : ℕ → String) (group : String) (A : PlotArgs K)
    (f : ℕ → List K → List K → Except Fail α) : Except Fail (List (Sampled K α)) :=
  if A.gauss then gaussLoop M groupOf group f M.panels A.xg A.yg
  else gridLoop M groupOf group f A.gridx A.gridy M.panels

/-- `res[vec]` (line 248). -/
def pick {α : Type} (get : α → K) (R : List (Sampled K (List α))) : List (Sampled K (List K)) :=
  R.map fun s => ⟨s.panel, s.x, s.y, s.val.map get⟩

/-- The contours (lines 282-292): `y + y0` to the right, `x + x0` upwards; a panel without a position
cannot be added. -/
def drawAll (x0 y0 : ℕ → Option K) : List (Sampled K (List K)) → Except Fail (List (Sampled K (List K)))
  | [] => .ok []
  | s :: R =>
    match y0 s.panel, x0 s.panel with
    | some y, some x => do
      let rest ← drawAll x0 y0 R
      return ⟨s.panel, s.y.map (· + y), s.x.map (· + x), s.val⟩ :: rest
    | _, _ => .error (.raised .typeError)

/-- From the field on (lines 248-292). -/
def finishPlot (x0 y0 : ℕ → Option K) (A : PlotArgs K) (R : List (Sampled K (List K))) :
    Except Fail (Drawing K) := do
  let field := R.flatMap Sampled.val
  let lo ← A.vecmin.elim (minOf field) .ok
  let hi ← A.vecmax.elim (maxOf field) .ok
  if A.dataOnly then return ⟨lo, hi, [], []⟩
  else do
    let parts ← drawAll x0 y0 R
    return ⟨lo, hi, linspace lo hi A.numLevels, parts⟩

/-- `MultiDomain.plot` (lines 106-348); `x0`, `y0` are the positions of the panels (`None` if never set).  The results of
`strain` and `stress` have no keys for the transverse shear. -/
def Multi.plot (S : Shape K) (M : Multi K) (groupOf : ℕ → String) (x0 y0 : ℕ → Option K) (c : ℕ → K)
    (group : String) (A : PlotArgs K) (cores : ℕ) : Except Fail (Drawing K) :=
  match displs.idxOf? A.vec, strains.idxOf? A.vec, stresses.idxOf? A.vec with
  | some i, _, _ => do
    let R ← plotLoop M groupOf group A (uvwOf S M c cores)
    finishPlot x0 y0 A (pick (UVW.get · i) R)
  | none, some i, _ => do
    let R ← plotLoop M groupOf group A (strainOf S M c cores 1)
    if i < 6 then finishPlot x0 y0 A (pick (· i) R) else .error .keyError
  | none, none, some i => do
    let R ← plotLoop M groupOf group A (stressOf S M c cores 1)
    if i < 6 then finishPlot x0 y0 A (pick (· i) R) else .error .keyError
  | none, none, none => .error (.raised .valueError)

end Verif.Model
