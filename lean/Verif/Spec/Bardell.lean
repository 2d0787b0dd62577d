import Verif.Spec.ListPoly
import Verif.Model.Types

/-!
# Bardell's hierarchical functions from their closed formula

N. S. Bardell, "Free vibration analysis of a flat plate using the hierarchical finite element
method": four cubic Hermite functions, then (for the 1-based index `r > 4`, here `r = i + 1`)

`f_r(x) = ∑_n (-1)^n (2r-2n-7)!! / (2^n n! (r-2n-1)!) x^(r-2n-1)`.
-/

namespace Verif.Spec

/-- `(2n-1)!! = 1·3·5⋯(2n-1)`. -/
def oddDF : ℕ → ℕ
  | 0 => 1
  | n + 1 => (2 * n + 1) * oddDF n

/-- `k!`. -/
def fact : ℕ → ℕ
  | 0 => 1
  | n + 1 => (n + 1) * fact n

/-- Coefficient of `x^k` in function `i ≥ 4` (0-based). -/
def bcoef (i k : ℕ) : ℚ :=
  if (i - k) % 2 = 0 then
    let n := (i - k) / 2
    (if n % 2 = 0 then 1 else -1) * (oddDF (i - n - 2) : ℚ) / ((2 ^ n * fact n * fact k : ℕ) : ℚ)
  else 0

/-- Coefficients of function `i` (0-based). -/
def bardell (i : ℕ) : List ℚ :=
  match i with
  | 0 => [1/2, -3/4, 0, 1/4]
  | 1 => [1/8, -1/8, -1/8, 1/8]
  | 2 => [1/2, 3/4, 0, -1/4]
  | 3 => [-1/8, -1/8, 1/8, 1/8]
  | i => (List.range (i + 1)).map (bcoef i)

/-- Flag that multiplies function `i`: edge-1 translation, edge-1 rotation, edge-2
translation, edge-2 rotation, none. -/
def flag {K : Type*} [One K] (fl : Flags K) (i : ℕ) : K :=
  match i with
  | 0 => fl.t1
  | 1 => fl.r1
  | 2 => fl.t2
  | 3 => fl.r2
  | _ => 1

/-- The exact Bardell functions with their derivatives. -/
def bardellShape (K : Type*) [Field K] : Shape K where
  f i x fl := flag fl i * pev (bardell i) x
  fp i x fl := flag fl i * pev (pder (bardell i)) x
  fpp i x fl := flag fl i * pev (pder (pder (bardell i))) x

example : bardell 4 = [1/8, 0, -1/4, 0, 1/8] := by decide +kernel
example : bardell 5 = [0, 1/8, 0, -1/4, 0, 1/8] := by decide +kernel

end Verif.Spec
