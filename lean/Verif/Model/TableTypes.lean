import Mathlib.Data.Rat.Defs

/-!
# Data types of the generated tables
-/

namespace Verif.Gen

/-- One shape function as printed: code of the flag in front (0 `xi1t`, 1 `xi1r`, 2 `xi2t`,
3 `xi2r`, 4 none) and the terms `(power, mantissa, decimals)` in source order. -/
structure FRow where
  fl : ℕ
  coef : List (ℕ × ℤ × ℕ)
deriving DecidableEq

/-- One `case j: return …` of an integral table: the number as `z / 10^e` and the codes of the
flags it is multiplied by (`fx` one of `x1t x1r x2t x2r`, `fy` one of `y1t y1r y2t y2r`). -/
structure IEntry where
  j : ℕ
  z : ℤ
  e : ℕ
  fx : ℕ
  fy : ℕ
deriving DecidableEq

end Verif.Gen
