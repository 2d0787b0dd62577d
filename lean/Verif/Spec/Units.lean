import Verif.Model.Types

/-!
# Specification: change of units

Lengths are multiplied by `len`, forces by `force`, times by `time`; every other quantity follows from
its dimension.
-/

namespace Verif.Spec

variable {K : Type*} [Field K]

/-- A change of units. -/
structure UnitSys (K : Type*) [Field K] where
  len : K
  force : K
  time : K
  len_ne : len ≠ 0
  force_ne : force ≠ 0
  time_ne : time ≠ 0

namespace UnitSys

variable (U : UnitSys K)

/-- Force per length: membrane stiffness, load per length, and every entry of a stiffness matrix, since all
amplitudes are lengths. -/
def line : K := U.force / U.len

/-- Force per area: pressure. -/
def area : K := U.force / U.len ^ 2

/-- Force per volume. -/
def vol : K := U.force / U.len ^ 3

/-- Mass is force times time squared over length. -/
def mass : K := U.force * U.time ^ 2 / U.len

/-- Mass per volume. -/
def rho : K := U.mass / U.len ^ 3

/-- An `ABD` matrix in other units. -/
def abd (F : ℕ → ℕ → K) (s t : ℕ) : K :=
  if s < 3 ∧ t < 3 then U.line * F s t
  else if s < 3 ∨ t < 3 then U.force * F s t
  else U.force * U.len * F s t

/-- One of two coordinates that limit the domain of integration; `-1` means that the limit is not given, and
then the other one means nothing. -/
def coord [DecidableEq K] (x x' : K) : K := if x = -1 ∨ x' = -1 then x else U.len * x

/-- A panel in other units; flags and numbers of terms have no dimension. -/
def panel [DecidableEq K] (P : Panel K) : Panel K :=
  { P with
    a := U.len * P.a, b := U.len * P.b, r := U.len * P.r
    x1 := U.coord P.x1 P.x2, x2 := U.coord P.x2 P.x1, y1 := U.coord P.y1 P.y2, y2 := U.coord P.y2 P.y1 }

/-- No limit of the domain of integration that is given happens to be `-1` in the new units. -/
def Clear (P : Panel K) : Prop :=
  (P.x1 ≠ -1 → P.x2 ≠ -1 → U.len * P.x1 ≠ -1 ∧ U.len * P.x2 ≠ -1) ∧
    (P.y1 ≠ -1 → P.y2 ≠ -1 → U.len * P.y1 ≠ -1 ∧ U.len * P.y2 ≠ -1)

end UnitSys

/-- A matrix with all values multiplied by `k`. -/
def scale (k : K) (L : Coo K) : Coo K := L.map fun t => ⟨t.row, t.col, k * t.val⟩

end Verif.Spec
