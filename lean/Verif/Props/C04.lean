import Verif.Model.Tables
import Mathlib.Tactic.Ring

/-!
# C04: swap symmetry of the integral tables
-/

namespace Verif.C04

open Model

/-- Entries `(i, j)` and `(j, i)` hold the same decimal with exchanged flags. -/
def swapOK (T : List (List Gen.IEntry)) : Bool :=
  Nat.ble T.length 30 && (T.all fun row => row.all fun e => Nat.ble (e.j + 1) 30) &&
  (List.range 30).all fun i => (List.range 30).all fun j =>
    match findEntry T i j, findEntry T j i with
    | some e, some e' => (e.z == e'.z) && (e.e == e'.e) && (e.fx == e'.fy) && (e.fy == e'.fx)
    | none, none => true
    | _, _ => false

theorem ff_ok : swapOK Gen.i_ff = true := by decide +kernel
theorem fpfp_ok : swapOK Gen.i_fpfp = true := by decide +kernel
theorem fppfpp_ok : swapOK Gen.i_fppfpp = true := by decide +kernel

theorem findEntry_none {T : List (List Gen.IEntry)} (h : swapOK T = true) {i j : ℕ}
    (hij : 30 ≤ i ∨ 30 ≤ j) : findEntry T i j = none := by
  simp only [swapOK, Bool.and_eq_true, List.all_eq_true] at h
  obtain ⟨⟨h1, h2⟩, _⟩ := h
  have hl := Nat.le_of_ble_eq_true h1
  unfold findEntry
  rcases hr : T[i]? with _ | row
  · rfl
  · rcases hij with hi | hj
    · rw [List.getElem?_eq_none (by omega)] at hr; exact absurd hr (by simp)
    · simp only
      rw [List.find?_eq_none]
      intro e he
      have := Nat.le_of_ble_eq_true (h2 row (List.mem_of_getElem? hr) e he)
      simp only [beq_iff_eq]
      omega

theorem swap_sound {K : Type*} [Field K] {T : List (List Gen.IEntry)} (h : swapOK T = true)
    (i j : ℕ) (fa fb : Flags K) : intVal T i j fa fb = intVal T j i fb fa := by
  by_cases hij : 30 ≤ i ∨ 30 ≤ j
  · rw [intVal, intVal, findEntry_none h hij, findEntry_none h hij.symm]
  · push Not at hij
    simp only [swapOK, Bool.and_eq_true, List.all_eq_true] at h
    have := h.2 i (List.mem_range.2 hij.1) j (List.mem_range.2 hij.2)
    rw [intVal, intVal]
    rcases h1 : findEntry T i j with _ | e <;> rcases h2 : findEntry T j i with _ | e' <;>
      rw [h1, h2] at this
    · exact absurd this (by simp)
    · exact absurd this (by simp)
    · simp only [Bool.and_eq_true, beq_iff_eq] at this
      obtain ⟨⟨⟨a, b⟩, c⟩, d⟩ := this
      simp only [a, b, c, d]
      ring

/-- `integral_ff`, `integral_fpfp`, `integral_fppfpp` do not depend on the order of the two
functions: for all indices, all flag values, in every field. -/
theorem swap_symmetric {K : Type*} [Field K] (i j : ℕ) (fa fb : Flags K) :
    (intTab K).ff i j fa fb = (intTab K).ff j i fb fa ∧
    (intTab K).fpfp i j fa fb = (intTab K).fpfp j i fb fa ∧
    (intTab K).fppfpp i j fa fb = (intTab K).fppfpp j i fb fa :=
  ⟨swap_sound ff_ok i j fa fb, swap_sound fpfp_ok i j fa fb, swap_sound fppfpp_ok i j fa fb⟩

/-- The theorem says something: the entry is not zero, and the mixed tables are not symmetric. -/
example : (intTab ℚ).ff 0 4 ⟨1, 1, 1, 1⟩ ⟨1, 1, 1, 1⟩ ≠ 0 := by decide +kernel
example : (intTab ℚ).ffp 0 4 ⟨1, 1, 1, 1⟩ ⟨1, 1, 1, 1⟩ ≠
    (intTab ℚ).ffp 4 0 ⟨1, 1, 1, 1⟩ ⟨1, 1, 1, 1⟩ := by decide +kernel

end Verif.C04
