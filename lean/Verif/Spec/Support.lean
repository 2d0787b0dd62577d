import Verif.Spec.Field
import Verif.Spec.Bardell
import Verif.Spec.RealField

/-!
# Supports: which amplitudes are switched on and which motions the edge flags prevent
-/

namespace Verif.Spec

/-- The amplitude number `k` of a panel whose block starts at `s0` belongs to a component `α` and to
a term `(i, j)` that both edge flags switch on. -/
def Active (P : Panel ℝ) (s0 k : ℕ) : Prop :=
  ∃ α < 3, ∃ i < P.m, ∃ j < P.n, flag (P.xf α) i ≠ 0 ∧ flag (P.yf α) j ≠ 0 ∧
    k = s0 + 3 * (j * P.m + i) + α

/-- One of the two translations at the ends is fixed. -/
def Held (fl : Flags ℝ) : Prop := fl.t1 = 0 ∨ fl.t2 = 0

/-- Two of the four boundary terms are fixed, not only the rotations. -/
def Bent (fl : Flags ℝ) : Prop :=
  (fl.t1 = 0 ∧ (fl.t2 = 0 ∨ fl.r1 = 0 ∨ fl.r2 = 0)) ∨ (fl.t2 = 0 ∧ (fl.r1 = 0 ∨ fl.r2 = 0))

/-- The edge flags prevent the motions without strain: the deflection is held against tilting in
one of the two directions, and the membrane displacements against translation and rotation. -/
def Supported (P : Panel ℝ) : Prop :=
  (Bent (P.xf 2) ∨ Bent (P.yf 2)) ∧
    ((Held (P.xf 0) ∧ (Held (P.xf 1) ∨ Held (P.yf 1))) ∨ (Held (P.yf 1) ∧ Held (P.yf 0)))

end Verif.Spec
