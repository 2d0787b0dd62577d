import Verif.Spec.Printed
import Verif.Model.Dev

/-!
# Running a printed kernel

`c` begins at `-1`; the arrays of rows, columns and values begin with zeros.  A value is the list of texts added
to it.
-/

namespace Verif.Spec.Kernel

open Model.Dev

structure Mem where
  c : ℤ := -1
  r : ℤ → ℕ := fun _ => 0
  k : ℤ → ℕ := fun _ => 0
  v : ℤ → List Text := fun _ => []

/-- One line, in the block that begins at `row`, `col`. -/
def step (row col : ℕ) (s : Mem) : Line → Mem
  | .note _ => s
  | .next => { s with c := s.c + 1 }
  | .row rel i => { s with r := fun x => if x = s.c then (if rel then row + i else i) else s.r x }
  | .col rel j => { s with k := fun x => if x = s.c then (if rel then col + j else j) else s.k x }
  | .put t => { s with v := fun x => if x = s.c then s.v x ++ [t] else s.v x }

def run (row col : ℕ) (l : List Line) : Mem := l.foldl (step row col) {}

/-- The text means the same as the expression, and has no powers of words left. -/
def Means (t : Text) (e : Printed.Ex) : Prop :=
  ∃ e', t = Printed.text e' ∧ Printed.Reads 2 e' ∧ Printed.powers e' = [] ∧
    ∀ {K : Type} [Field K] (ν : Printed.Meaning K), Printed.eval ν e' = Printed.eval ν e

/-- What the arrays hold: entry `n` of the list at `n`, and nothing else. -/
def Holds (row col : ℕ) (full l0 r0 : Bool) (m : ℕ → ℕ → Option Printed.Ex) (s : Mem) (L : List (ℕ × ℕ)) : Prop :=
  s.c + 1 = L.length ∧ (∀ x : ℤ, x < 0 ∨ (L.length : ℤ) ≤ x → s.r x = 0 ∧ s.k x = 0 ∧ s.v x = []) ∧
    ∀ n (h : n < L.length), ∃ e t, m (L[n]).1 (L[n]).2 = some e ∧
      s.r n = (if full ∨ l0 then (L[n]).1 else row + (L[n]).1) ∧
      s.k n = (if full ∨ r0 then (L[n]).2 else col + (L[n]).2) ∧ s.v n = [t] ∧ Means t e

/-- The entries to be written, each once: those that are not zero, of the upper triangle only when the matrix is
symmetric. -/
def Wanted (nr nc : ℕ) (m : ℕ → ℕ → Option Printed.Ex) (full : Bool) (L : List (ℕ × ℕ)) : Prop :=
  L.Nodup ∧ ∀ i j, (i, j) ∈ L ↔ i < nr ∧ j < nc ∧ m i j ≠ none ∧ (full → i ≤ j)

/-- The place of an entry in a dense kernel: row by row, or column by column. -/
def slot (nr nc : ℕ) (order : Char) (i j : ℕ) : ℕ := if order = 'C' then i * nc + j else j * nr + i

end Verif.Spec.Kernel
