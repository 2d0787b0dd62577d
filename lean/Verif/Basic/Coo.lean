import Mathlib.Algebra.BigOperators.Group.Finset.Basic
import Mathlib.Algebra.BigOperators.Group.Finset.Sigma
import Mathlib.Algebra.BigOperators.Ring.Finset
import Mathlib.Algebra.BigOperators.Ring.List
import Mathlib.Algebra.Field.Basic
import Mathlib.Algebra.CharZero.Defs
import Mathlib.Tactic.Ring
import Mathlib.Tactic.LinearCombination

/-!
# Triplet lists

Model of `scipy.sparse.coo_matrix((v, (r, c)))` (triplets, duplicates add) and of
`structsolve.sparseutils.finalize_symmetric_matrix`, used e.g. in
`panels/shell.py` lines 481-482 (kC), 537-538 (kG), 614-615 (kM).
-/

namespace Verif

open Finset

/-- One triplet of a COO matrix. -/
structure Trip (K : Type*) where
  row : ℕ
  col : ℕ
  val : K
deriving DecidableEq, Repr

/-- `coo_matrix((v, (r, c)))`. -/
abbrev Coo (K : Type*) := List (Trip K)

namespace Coo

variable {K : Type*} [Field K]

/-- The entry `(r, c)` of the matrix: the sum of all triplets stored there. -/
def entry (L : Coo K) (r c : ℕ) : K :=
  (L.map fun t => if t.row = r ∧ t.col = c then t.val else 0).sum

/-- `yᵀ L x` (rows contracted with `x`, columns with `y`). -/
def bilin (L : Coo K) (x y : ℕ → K) : K :=
  (L.map fun t => t.val * x t.row * y t.col).sum

/-- `vᵀ L v`. -/
def quad (L : Coo K) (v : ℕ → K) : K := bilin L v v

/-- `structsolve.sparseutils.make_symmetric` (called by `finalize_symmetric_matrix`):
only the triplets with `row ≤ col` are kept and those with `row < col` are mirrored. -/
def finalizeSym (L : Coo K) : Coo K :=
  L.filter (fun t => t.row ≤ t.col) ++
    (L.filter (fun t => t.row < t.col)).map (fun t => ⟨t.col, t.row, t.val⟩)

/-- `structsolve.sparseutils.make_skew_symmetric` (`panels/shell.py` line 673):
as `finalizeSym`, but the mirrored triplets change sign. -/
def finalizeSkew (L : Coo K) : Coo K :=
  L.filter (fun t => t.row ≤ t.col) ++
    (L.filter (fun t => t.row < t.col)).map (fun t => ⟨t.col, t.row, -t.val⟩)

/-- The pre-allocated buffers `np.zeros(fdim)`: entries that were never written stay
`(0, 0, 0)`. -/
def pad (fdim : ℕ) (L : Coo K) : Coo K :=
  L ++ List.replicate (fdim - L.length) ⟨0, 0, 0⟩

/-- Weight with which a triplet enters the quadratic form of the finalised matrix. -/
def symW (v : ℕ → K) (t : Trip K) : K :=
  if t.row < t.col then 2 * (t.val * v t.row * v t.col)
  else if t.row = t.col then t.val * v t.row * v t.col else 0

@[simp] theorem bilin_nil (x y : ℕ → K) : bilin ([] : Coo K) x y = 0 := rfl

@[simp] theorem bilin_cons (t : Trip K) (L : Coo K) (x y : ℕ → K) :
    bilin (t :: L) x y = t.val * x t.row * y t.col + bilin L x y := by
  simp [bilin]

@[simp] theorem bilin_append (L M : Coo K) (x y : ℕ → K) :
    bilin (L ++ M) x y = bilin L x y + bilin M x y := by
  simp [bilin]

@[simp] theorem quad_append (L M : Coo K) (v : ℕ → K) :
    quad (L ++ M) v = quad L v + quad M v := by
  simp [quad]

@[simp] theorem entry_nil (r c : ℕ) : entry ([] : Coo K) r c = 0 := rfl

@[simp] theorem entry_cons (t : Trip K) (L : Coo K) (r c : ℕ) :
    entry (t :: L) r c = (if t.row = r ∧ t.col = c then t.val else 0) + entry L r c := by
  simp [entry]

@[simp] theorem entry_append (L M : Coo K) (r c : ℕ) :
    entry (L ++ M) r c = entry L r c + entry M r c := by
  simp [entry]

theorem quad_finalizeSym (L : Coo K) (v : ℕ → K) :
    quad (finalizeSym L) v = (L.map (symW v)).sum := by
  induction L with
  | nil => simp [finalizeSym, quad]
  | cons t L ih =>
    have ih' : bilin (L.filter (fun t => t.row ≤ t.col)) v v +
        bilin ((L.filter (fun t => t.row < t.col)).map
          (fun t => (⟨t.col, t.row, t.val⟩ : Trip K))) v v = (L.map (symW v)).sum := by
      rw [← ih]; simp [finalizeSym, quad]
    simp only [finalizeSym, quad, bilin_append, List.map_cons, List.sum_cons]
    rcases lt_trichotomy t.row t.col with h | h | h
    · have h1 : t.row ≤ t.col := h.le
      simp only [List.filter_cons, h1, h, decide_true, if_true, bilin_cons, List.map_cons, symW]
      linear_combination ih'
    · have h1 : t.row ≤ t.col := h.le
      have h2 : ¬ t.row < t.col := by omega
      simp only [List.filter_cons, h1, h2, decide_true, decide_false, if_true, bilin_cons, symW,
        if_false]
      simp only [h, if_true]
      simp only [Bool.false_eq_true, if_false]
      linear_combination ih'
    · have h1 : ¬ t.row ≤ t.col := by omega
      have h2 : ¬ t.row < t.col := by omega
      have h3 : ¬ t.row = t.col := by omega
      simp only [List.filter_cons, h1, h2, h3, decide_false, symW, if_false, Bool.false_eq_true]
      linear_combination ih'

/-- The finalised matrix is symmetric. -/
theorem entry_finalizeSym_comm (L : Coo K) (r c : ℕ) :
    entry (finalizeSym L) r c = entry (finalizeSym L) c r := by
  induction L with
  | nil => simp [finalizeSym]
  | cons t L ih =>
    simp only [finalizeSym, entry_append] at ih ⊢
    rcases lt_trichotomy t.row t.col with h | h | h
    · have h1 : t.row ≤ t.col := h.le
      simp only [List.filter_cons, h1, h, decide_true, if_true, entry_cons, List.map_cons]
      have e1 : (t.row = r ∧ t.col = c) ↔ (t.col = c ∧ t.row = r) := and_comm
      have e2 : (t.row = c ∧ t.col = r) ↔ (t.col = r ∧ t.row = c) := and_comm
      simp only [e1, e2]
      linear_combination ih
    · have h1 : t.row ≤ t.col := h.le
      have h2 : ¬ t.row < t.col := by omega
      simp only [List.filter_cons, h1, h2, decide_true, decide_false, if_true, entry_cons,
        if_false, Bool.false_eq_true]
      have e1 : (t.row = r ∧ t.col = c) ↔ (t.row = c ∧ t.col = r) := by omega
      simp only [e1]
      linear_combination ih
    · have h1 : ¬ t.row ≤ t.col := by omega
      have h2 : ¬ t.row < t.col := by omega
      simp only [List.filter_cons, h1, h2, decide_false, if_false, Bool.false_eq_true]
      exact ih

theorem quad_pad (fdim : ℕ) (L : Coo K) (v : ℕ → K) : quad (pad fdim L) v = quad L v := by
  simp [pad, quad, bilin]

theorem finalizeSym_append_quad (L M : Coo K) (v : ℕ → K) :
    quad (finalizeSym (L ++ M)) v = quad (finalizeSym L) v + quad (finalizeSym M) v := by
  simp [quad_finalizeSym]

theorem quad_finalizeSym_pad (fdim : ℕ) (L : Coo K) (v : ℕ → K) :
    quad (finalizeSym (pad fdim L)) v = quad (finalizeSym L) v := by
  simp [pad, quad_finalizeSym, symW]

end Coo
end Verif
