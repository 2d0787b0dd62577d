import Mathlib.Algebra.Field.Basic
import Mathlib.Order.Defs.LinearOrder
import Mathlib.Algebra.Order.Field.Basic

/-!
# Penalty constants (`panels/multidomain/connections/penalties.py`)

The panels are taken after `build_panel_lam` (lines 87-99), whose first statement `_rebuild`
always sets `lam` or raises, so that the three checks that follow it are dead code.
-/

namespace Verif.Model

variable {K : Type*}

/-- What the penalties read of a panel: `lam.A[0,0]`, `lam.A[1,1]`, `lam.D[0,0]`, `lam.D[1,1]`,
`lam.h`, `a`, `b`. -/
structure PenLam (K : Type*) where
  A11 : K
  A22 : K
  D11 : K
  D22 : K
  h : K
  a : K
  b : K

/-- `str.lower` (ASCII letters only). -/
def lower (s : String) : String := String.ofList (s.toList.map Char.toLower)

/-- `calc_kt_kr` (`penalties.py` lines 56-142).  The outer `none` is the value `None` that the
function returns when it falls off the end of the `if` chain; the inner one is `kr = None`. -/
def calcKtKr [Field K] [LinearOrder K] (p1 p2 : PenLam K) (ctype : String) :
    Option (K × Option K) :=
  if lower ctype = "xcte" then
    some (4 * p1.A11 * p2.A11 / ((p1.A11 + p2.A11) * (p1.h + p2.h)),
      some (4 * p1.D11 * p2.D11 / ((p1.D11 + p2.D11) * (p1.h + p2.h))))
  else if lower ctype = "ycte" then
    some (4 * p1.A22 * p2.A22 / ((p1.A22 + p2.A22) * (p1.h + p2.h)),
      some (4 * p1.D22 * p2.D22 / ((p1.D22 + p2.D22) * (p1.h + p2.h))))
  else if lower ctype = "bot-top" then
    some (4 * p1.A11 * p2.A11 / ((p1.A11 + p2.A11) * (p1.h + p2.h)) / min p1.a p1.b, none)
  else if lower ctype = "xcte-ycte" then
    some (4 * p1.A11 * p2.A22 / ((p1.A11 + p2.A22) * (p1.h + p2.h)),
      some (4 * p1.D11 * p2.D22 / ((p1.D11 + p2.D22) * (p1.h + p2.h))))
  else if lower ctype = "ycte-xcte" then
    some (4 * p1.A22 * p2.A11 / ((p1.A22 + p2.A11) * (p1.h + p2.h)),
      some (4 * p1.D22 * p2.D11 / ((p1.D22 + p2.D11) * (p1.h + p2.h))))
  else none

/-- `calc_ku_kv_kw_point_pd` (lines 5-12). -/
def kuvwPoint (p : PenLam K) : K × K × K := (p.A11, p.A22, p.A11)

/-- `calc_ku_kv_kw_line_pd_xcte` (lines 15-21). -/
def kuvwLineX [Field K] (p : PenLam K) : K × K × K := (p.A11 / p.b, p.A22 / p.b, p.A11 / p.b)

/-- `calc_ku_kv_kw_line_pd_ycte` (lines 24-30). -/
def kuvwLineY [Field K] (p : PenLam K) : K × K × K := (p.A11 / p.a, p.A22 / p.a, p.A11 / p.a)

/-- Outcome of `calc_kw_tsl` (lines 35-53): the final `return` reads a variable that is bound only
for `'linear'` (`UnboundLocalError`). -/
inductive Tsl (K : Type*)
  | value (kw : K)
  | valueError
  | unboundLocal

/-- `calc_kw_tsl`. -/
def calcKwTsl [Field K] [DecidableEq K] (pA pB : PenLam K) (tsl : String) : Tsl K :=
  if pA.a ≠ pB.a ∨ pA.b ≠ pB.b then .valueError
  else if tsl = "linear" then .value (10000 / (pA.a * pA.b)) else .unboundLocal

end Verif.Model
