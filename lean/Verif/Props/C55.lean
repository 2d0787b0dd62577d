import Verif.Model.Shell
import Mathlib.Tactic.IntervalCases
import Mathlib.Tactic.NormNum
import Mathlib.Algebra.BigOperators.Fin

/-!
# C55: forcing an orthotropic laminate
-/

namespace Verif.C55

open Model Finset

variable {K : Type} [Field K] [DecidableEq K]

/-- Rows and columns 2 and 5 of the ABD matrix belong to shear and twist; an entry couples them with
extension or bending if exactly one of its indices is such. -/
def Coupling (i j : ℕ) : Prop := (i = 2 ∨ i = 5) ↔ ¬ (j = 2 ∨ j = 5)

instance (i j : ℕ) : Decidable (Coupling i j) := by unfold Coupling; infer_instance

/-- The couplings become zero and every other entry is kept. -/
theorem ortho_entries (F : ℕ → ℕ → K) (i j : ℕ) (hi : i < 6) (hj : j < 6) :
    lamABD true F i j = if Coupling i j then 0 else F i j := by
  interval_cases i <;> interval_cases j <;> simp [lamABD, orthoWrites, putZero, Coupling]

/-- The list of the property: `A16, A26, B16, B26, D16, D26` and their transposes are the couplings. -/
theorem coupling_names (i j : ℕ) (hi : i < 6) (hj : j < 6) : Coupling i j ↔
    (i, j) ∈ ([(0, 2), (1, 2), (0, 5), (1, 5), (3, 2), (4, 2), (3, 5), (4, 5)] : List (ℕ × ℕ)) ∨
    (j, i) ∈ ([(0, 2), (1, 2), (0, 5), (1, 5), (3, 2), (4, 2), (3, 5), (4, 5)] : List (ℕ × ℕ)) := by
  interval_cases i <;> interval_cases j <;> simp [Coupling]

/-- Nothing happens unless asked for. -/
theorem not_forced (F : ℕ → ℕ → K) : lamABD false F = F := rfl

/-- Symmetry is preserved. -/
theorem symmetric (force : Bool) (F : ℕ → ℕ → K) (h : ∀ i j, i < 6 → j < 6 → F i j = F j i)
    (i j : ℕ) (hi : i < 6) (hj : j < 6) : lamABD force F i j = lamABD force F j i := by
  cases force
  · exact h i j hi hj
  · rw [ortho_entries F i j hi hj, ortho_entries F j i hj hi, h i j hi hj]
    have : Coupling i j ↔ Coupling j i := by unfold Coupling; tauto
    simp only [this]

/-- Quadratic form of the laminate. -/
def energy (F : ℕ → ℕ → K) (e : ℕ → K) : K :=
  ∑ i ∈ range 6, ∑ j ∈ range 6, F i j * e i * e j

/-- The strain state with shear and twist reversed. -/
def mirror (e : ℕ → K) (i : ℕ) : K := if i = 2 ∨ i = 5 then - e i else e i

/-- What it is for: the energy no longer depends on the sign of shear and twist. -/
theorem mirror_invariant (F : ℕ → ℕ → K) (e : ℕ → K) :
    energy (lamABD true F) (mirror e) = energy (lamABD true F) e := by
  refine sum_congr rfl fun i hi => sum_congr rfl fun j hj => ?_
  rw [ortho_entries F i j (mem_range.1 hi) (mem_range.1 hj)]
  by_cases h : Coupling i j
  · simp [h]
  · rw [if_neg h]
    unfold Coupling at h
    unfold mirror
    by_cases h1 : i = 2 ∨ i = 5 <;> by_cases h2 : j = 2 ∨ j = 5
    · rw [if_pos h1, if_pos h2]; ring
    · exact absurd (iff_of_true h1 h2) h
    · exact absurd (iff_of_false h1 (not_not.2 h2)) h
    · rw [if_neg h1, if_neg h2]

/-- Forcing twice is forcing once; so it does not matter that `calc_kG` does it again on a matrix that
may already be changed. -/
theorem idempotent (F : ℕ → ℕ → K) (i j : ℕ) (hi : i < 6) (hj : j < 6) :
    lamABD true (lamABD true F) i j = lamABD true F i j := by
  rw [ortho_entries _ i j hi hj, ortho_entries F i j hi hj]
  split <;> rfl

/-- In the class: after a rebuild, the attribute `ABD` is the laminate matrix without couplings. -/
theorem rebuilt (E : Env K) (s t : Shell K) (hs : s.forceOrtho = true) (h : s.rebuild E = .ok t) :
    ∃ lam F, E.mkLam s.stack t.plyts t.laminaprops t.rhos s.offset = .ok lam ∧ t.ABD = some F ∧
      ∀ i j, i < 6 → j < 6 → F i j = if Coupling i j then 0 else lam.ABD i j := by
  unfold Shell.rebuild at h
  simp only at h
  split at h; · cases h
  split at h; · cases h
  split at h; · cases h
  split at h; · cases h
  split at h; · cases h
  rename_i lam hl
  cases h
  refine ⟨lam, _, hl, rfl, fun i j hi hj => ?_⟩
  rw [hs]
  exact ortho_entries _ i j hi hj

/-- Finding: the analytical builder `fk0` does not read this attribute but `lam.ABD`.  It sees the
couplings removed only if `lam.ABD` is the same array on every access (`Env.shared`), which is
decided in the package `composites`. -/
theorem analytical_matrix (E : Env K) (s t : Shell K) (h : s.rebuild E = .ok t) :
    ∃ lam lam', E.mkLam s.stack t.plyts t.laminaprops t.rhos s.offset = .ok lam ∧
      t.lam = some lam' ∧ lam'.ABD = lamABD (s.forceOrtho && E.shared) lam.ABD := by
  unfold Shell.rebuild at h
  simp only at h
  split at h; · cases h
  split at h; · cases h
  split at h; · cases h
  split at h; · cases h
  split at h; · cases h
  rename_i lam hl
  cases h
  exact ⟨lam, _, hl, rfl, rfl⟩

/-- Concrete case: a full matrix. -/
example : lamABD true (fun i j => ((i + 1) * (j + 1) : ℚ)) 2 3 = 0 ∧
    lamABD true (fun i j => ((i + 1) * (j + 1) : ℚ)) 2 5 = 18 := by
  rw [ortho_entries _ 2 3 (by norm_num) (by norm_num), ortho_entries _ 2 5 (by norm_num) (by norm_num)]
  simp [Coupling]
  norm_num

/-- The energy of that matrix does depend on the sign before. -/
example : energy (fun i j => ((i + 1) * (j + 1) : ℚ)) (mirror fun _ => 1)
    ≠ energy (fun i j => ((i + 1) * (j + 1) : ℚ)) fun _ => 1 := by
  simp [energy, mirror, sum_range_succ]
  norm_num

end Verif.C55
