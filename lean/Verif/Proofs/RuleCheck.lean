import Verif.Proofs.IntegralCheck
import Verif.Proofs.GaussTab

/-!
# Integral tables against the Gauss sums of the printed shape functions
-/

namespace Verif.RuleCheck

open Model Spec IntCheck Finset

/-- Coefficients (lowest power first) of row `i` of a printed table. -/
def lst (T : List Gen.FRow) (i : ℕ) : List ℚ :=
  match T[i]? with
  | some r => (List.range (max i 3 + 1)).map fun k =>
      ((r.coef.filter fun t => t.1 == k).map fun t => dec t.2.1 t.2.2).sum
  | none => []

/-- Tolerance: `10^-15` as long as both indices are below 15. -/
def tol (i j : ℕ) : ℚ := if i < 15 ∧ j < 15 then 1 / 10 ^ 15 else 3 / 10 ^ 8

def chk (T : List (List Gen.IEntry)) (p : List ℚ) (i j : ℕ) (v : List ℚ) : Bool :=
  let I := dot p v
  match findEntry T i j with
  | some e => decide (|dec e.z e.e - I| ≤ tol i j) && (e.fx == min i 4) && (e.fy == min j 4)
  | none => decide (|I| ≤ tol i j)

def chkAll (T : List (List Gen.IEntry)) (a b : ℕ → List ℚ) : Bool :=
  (List.range 30).all fun j =>
    let v := vmom (b j) 30 0
    (List.range 30).all fun i => chk T (a i) i j v

/-- Rows carry their flag, powers not above `max i 3`, sum of coefficients below `10^10`. -/
def rowOK (T : List Gen.FRow) : Bool :=
  (List.range 30).all fun i =>
    match T[i]? with
    | some r => (r.fl == min i 4) && (r.coef.all fun t => Nat.ble t.1 (max i 3)) &&
        decide (((lst T i).map fun c => |c|).sum ≤ 10 ^ 10)
    | none => false

end Verif.RuleCheck
