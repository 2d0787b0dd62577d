import Verif.Model.Multi
import Verif.Model.FieldOut

/-!
# Fields of an assembly at given points

`uvw_gauss_points`, `strain_gauss_points`, `stress_gauss_points` of
`panels/multidomain/multidomain.py` (lines 534-755).  The vector `c` is read at every index (a slice
shorter than the panel needs is not modelled).
-/

namespace Verif.Model

variable {K : Type} [Field K] [LinearOrder K]

/-- `c[panel.col_start: panel.col_end]` (line 569); without a place the slice is all of `c`. -/
def Multi.slice (M : Multi K) (p : ℕ) (c : ℕ → K) : ℕ → K :=
  match M.place p with
  | some q => fun i => c (q.col0 + i)
  | none => c

/-- `meshgrid(x, y)`, flattened: first coordinates. -/
def meshX (xg yg : List K) : List K := yg.flatMap fun _ => xg

/-- `meshgrid(x, y)`, flattened: second coordinates. -/
def meshY (xg yg : List K) : List K := yg.flatMap fun y => xg.map fun _ => y

/-- One panel's part of the result: the panel, the points and what was computed there. -/
structure Sampled (K α : Type) where
  panel : ℕ
  x : List K
  y : List K
  val : α

/-- The loop over the panels common to the three methods (lines 566-601, 636-674, 705-754).
`x_gauss`, `y_gauss` are the local variables, which keep what an earlier panel stored in them; `f`
computes the field of one panel. -/
def gaussLoop {α : Type} (M : Multi K) (groupOf : ℕ → String) (group : String)
    (f : ℕ → List K → List K → Except Fail α) :
    List ℕ → Option (List K) → Option (List K) → Except Fail (List (Sampled K α))
  | [], _, _ => .ok []
  | p :: ps, xg, yg =>
    if groupOf p ≠ group then gaussLoop M groupOf group f ps xg yg
    else
      match (M.shells p).model.bind kindOf with
      | none => .error .keyError
      | some _ =>
        if xg.isNone && yg.isNone then .error (.raised .valueError)
        else
          let x := xg.getD (linspace 0 (M.shells p).pan.a 50)
          let y := yg.getD (linspace 0 (M.shells p).pan.b 50)
          do
            let v ← f p (meshX x y) (meshY x y)
            let rest ← gaussLoop M groupOf group f ps (some x) (some y)
            return ⟨p, meshX x y, meshY x y, v⟩ :: rest

/-- `MultiDomain.uvw_gauss_points` (lines 534-603). -/
def Multi.uvwGauss (S : Shape K) (M : Multi K) (groupOf : ℕ → String) (c : ℕ → K) (group : String)
    (xg yg : Option (List K)) (cores : ℕ) : Except Fail (List (Sampled K (List (UVW K)))) :=
  gaussLoop M groupOf group (fun p x y => .ok (fuvw S (M.shells p).panel (M.slice p c) x y cores))
    M.panels xg yg

/-- The strains of one panel; `r = None` is not a number. -/
def strainOf (S : Shape K) (M : Multi K) (c : ℕ → K) (cores NL : ℕ) (p : ℕ) (x y : List K) :
    Except Fail (List (ℕ → K)) :=
  match (M.shells p).r with
  | none => .error (.raised .typeError)
  | some _ => .ok (fstrain S (M.shells p).panel (M.slice p c) x y cores NL)

/-- `MultiDomain.strain_gauss_points` (lines 606-676). -/
def Multi.strainGauss (S : Shape K) (M : Multi K) (groupOf : ℕ → String) (c : ℕ → K) (group : String)
    (xg yg : Option (List K)) (cores : ℕ) (NL : Bool) :
    Except Fail (List (Sampled K (List (ℕ → K)))) :=
  gaussLoop M groupOf group (strainOf S M c cores NL.toNat) M.panels xg yg

/-- `MultiDomain.stress_gauss_points` (lines 679-755). -/
def Multi.stressGauss (S : Shape K) (M : Multi K) (groupOf : ℕ → String) (c : ℕ → K) (group : String)
    (xg yg : Option (List K)) (cores : ℕ) (NL : Bool) :
    Except Fail (List (Sampled K (List (ℕ → K)))) :=
  gaussLoop M groupOf group (fun p x y => do
    let e ← strainOf S M c cores NL.toNat p x y
    match (M.shells p).ABD with
    | none => .error (.raised .valueError)
    | some F => return e.map fun e => stressRow F e) M.panels xg yg

end Verif.Model
