import Verif.Model.Types
import Verif.Gen.BardellTab
import Verif.Gen.IntegralTab
import Verif.Gen.GaussTab
import Mathlib.Algebra.Field.Basic
import Mathlib.Data.Rat.Cast.Defs

/-!
# Look-up functions around the generated tables
-/

namespace Verif

/-- Flag number `k` of a table row (4: no flag, factor 1). -/
def Flags.get {K : Type*} [One K] (fl : Flags K) (k : ℕ) : K :=
  match k with
  | 0 => fl.t1
  | 1 => fl.r1
  | 2 => fl.t2
  | 3 => fl.r2
  | _ => 1

namespace Model

open Gen

/-- The printed decimal `z / 10^e`. -/
def dec (z : ℤ) (e : ℕ) : ℚ := (z : ℚ) / 10 ^ e

variable {K : Type*} [Field K]

/-- Value of one printed expression, e.g. `xi1t*(0.25*pow(xi, 3) - 0.75*xi + 0.5)`. -/
def rowVal (r : FRow) (x : K) (fl : Flags K) : K :=
  fl.get r.fl * (r.coef.map fun t => ((dec t.2.1 t.2.2 : ℚ) : K) * x ^ t.1).sum

/-- `switch(i) { case 0: return …; …; default: return 0.; }`
(`panels/core/src/bardell_functions.cpp`, functions `f`, `fp`, `fpp`). -/
def tabVal (T : List FRow) (i : ℕ) (x : K) (fl : Flags K) : K :=
  match T[i]? with
  | some r => rowVal r x fl
  | none => 0

/-- The scalar evaluators `f`, `fp`, `fpp` (`bardell_functions.cpp`). -/
def scShape (K : Type*) [Field K] : Shape K where
  f := tabVal sc_f
  fp := tabVal sc_fp
  fpp := tabVal sc_fpp

/-- The vector evaluators `vec_f`, `vec_fp`, `vec_fpp` (`bardell_functions.cpp`); they write
positions 0 to 29 of a buffer, positions beyond are not written (modelled by 0). -/
def vecShape (K : Type*) [Field K] : Shape K where
  f := tabVal vec_f
  fp := tabVal vec_fp
  fpp := tabVal vec_fpp

/-- The entry found by `switch(i) { case …: switch(j) { case …: } default: return 0.; }`. -/
def findEntry (T : List (List IEntry)) (i j : ℕ) : Option IEntry :=
  match T[i]? with
  | some row => row.find? fun e => e.j == j
  | none => none

/-- `integral_ff` etc. (`panels/core/src/bardell.cpp`). -/
def intVal (T : List (List IEntry)) (i j : ℕ) (fa fb : Flags K) : K :=
  match findEntry T i j with
  | some e => ((dec e.z e.e : ℚ) : K) * fa.get e.fx * fb.get e.fy
  | none => 0

/-- The six integral tables. -/
def intTab (K : Type*) [Field K] : Tab K where
  ff := intVal i_ff
  ffp := intVal i_ffp
  ffpp := intVal i_ffpp
  fpfp := intVal i_fpfp
  fpfpp := intVal i_fpfpp
  fppfpp := intVal i_fppfpp

/-- Number `i` of the rule with `n` points (`case n:`); without a case the buffers keep their zeros
(`leggauss_quad` has no default branch). -/
def gaussPair (n i : ℕ) : ℤ × ℤ :=
  if n < 2 then (0, 0) else ((gaussRows[n - 2]?.getD [])[i]?).getD (0, 0)

/-- `leggauss_quad` (`panels/core/src/legendre_gauss_quadrature.cpp` lines 9-4296). -/
def gaussTab (K : Type*) [Field K] : GaussTab K where
  pt n i := ((dec (gaussPair n i).1 56 : ℚ) : K)
  wt n i := ((dec (gaussPair n i).2 56 : ℚ) : K)

end Model
end Verif
