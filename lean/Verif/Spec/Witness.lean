import Verif.Spec.Field

/-!
# Concrete data for the examples beside the theorems
-/

namespace Verif.Witness

variable {K : Type*} [Field K]

/-- A 3 × 1 curved panel with different numbers of terms and mixed edge conditions. -/
def panel : Panel K where
  a := 3
  b := 1
  r := 2
  m := 5
  n := 7
  x1 := -1
  x2 := -1
  y1 := -1
  y2 := -1
  xu := ⟨0, 1, 1, 1⟩
  xv := ⟨0, 1, 0, 1⟩
  xw := ⟨0, 0, 0, 1⟩
  yu := ⟨1, 1, 1, 1⟩
  yv := ⟨0, 1, 1, 1⟩
  yw := ⟨0, 1, 0, 1⟩

/-- A second panel of another size. -/
def panel2 : Panel K where
  a := 3
  b := 2
  r := 2
  m := 4
  n := 6
  x1 := -1
  x2 := -1
  y1 := -1
  y2 := -1
  xu := ⟨1, 1, 0, 1⟩
  xv := ⟨1, 1, 0, 1⟩
  xw := ⟨1, 1, 0, 0⟩
  yu := ⟨1, 1, 1, 1⟩
  yv := ⟨1, 1, 0, 1⟩
  yw := ⟨1, 1, 0, 1⟩

/-- A laminate with all membrane, coupling and bending terms: `tag s t` is different from 0
everywhere on the 6×6 square. -/
def abd (s t : ℕ) : K :=
  (if s = t then 20 else 0) + ((s % 3 + t % 3 : ℕ) : K) + ((s / 3 + t / 3 : ℕ) : K) + 1

theorem abd_sym : Spec.ABDSym (abd : ℕ → ℕ → K) where
  symm s t := by
    simp only [abd, eq_comm, Nat.add_comm]
  b12 := by simp [abd]
  b16 := by simp [abd]
  b26 := by simp [abd]

end Verif.Witness
