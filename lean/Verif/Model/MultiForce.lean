import Verif.Model.Multi
import Verif.Model.Fext

/-!
# Force vectors of an assembly

`MultiDomain.calc_fint` and `MultiDomain.calc_fext` (`panels/multidomain/multidomain.py` lines
1029-1055).  The loads belong to the shells; they are kept here in a store of their own.
-/

namespace Verif.Model

variable {K : Type} [Field K] [LinearOrder K]

/-- The loop of `MultiDomain.calc_fext` (lines 1048-1052).  `Shell.calc_fext` rebuilds the panel first
(`panels/shell.py` line 1130). -/
def fextLoop (E : Env K) (loads : ℕ → Loads K) (inc : K) (size : ℕ) :
    List ℕ → (ℕ → K) → Multi K → Except Fail ((ℕ → K) × Multi K)
  | [], f, M => .ok (f, M)
  | p :: ps, f, M =>
    match M.place p with
    | none => .error (.raised .valueError)
    | some q => do
      let s ← (M.shells p).rebuild E
      let g ← lift (shellFext E.S E.G s.panel (loads p) inc (.num size) q.col0)
      fextLoop E loads inc size ps (fun k => f k + g k) (M.setShell p s)

/-- `MultiDomain.calc_fext` (lines 1044-1055). -/
def Multi.calcFext (E : Env K) (M : Multi K) (loads : ℕ → Loads K) (inc : K) :
    Except Fail ((ℕ → K) × Multi K) :=
  fextLoop E loads inc M.getSize M.panels (fun _ => 0) M

/-- The loop of `MultiDomain.calc_fint` (lines 1033-1036); nothing is rebuilt. -/
def fintLoop (E : Env K) (c : CArg K) (size : ℕ) :
    List ℕ → Multi K → Except Fail (VecW K × Multi K)
  | [], M => .ok ([], M)
  | p :: ps, M =>
    match M.place p with
    | none => .error (.raised .valueError)
    | some q => do
      let (f, s) ← (M.shells p).calcFint E c (.num size) q.col0 none none none
      let (g, M) ← fintLoop E c size ps (M.setShell p s)
      return (f ++ g, M)

/-- `kC_conn*c`: the columns of the matrix must be as many as the elements of `c`. -/
def Coo.mulVec (L : Coo K) (size : ℕ) (c : CArg K) : Except Fail (VecW K) :=
  match c with
  | .vec len f => if len ≠ size then .error (.raised .valueError)
      else .ok (L.map fun t => (t.row, t.val * f t.col))
  | _ => .error (.raised .valueError)

/-- `MultiDomain.calc_fint` (lines 1029-1041). -/
def Multi.calcFint (E : Env K) (M : Multi K) (c : CArg K) : Except Fail (VecW K × Multi K) := do
  let size := M.getSize
  let (f, M) ← fintLoop E c size M.panels M
  let (kConn, _, M) ← M.getKCconn E none
  let g ← Coo.mulVec kConn size c
  return (f ++ g, M)

end Verif.Model
