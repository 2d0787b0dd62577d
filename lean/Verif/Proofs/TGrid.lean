import Verif.Model.TStiff
import Mathlib.Analysis.SpecialFunctions.Trigonometric.Basic
import Mathlib.Tactic.IntervalCases

/-!
# Position of the panels of the stiffened panel
-/

set_option linter.unusedSectionVars false

namespace Verif

open Model

/-- Dimensions that make sense: the base of the stiffener lies inside the skin, the defect is a part of
the length. -/
structure TDims (q : TArgs ℝ) : Prop where
  a : 0 < q.a
  bb : 0 < q.bb
  bf : 0 < q.bf
  right : q.bb / 2 < q.ys
  left : q.ys + q.bb / 2 < q.b
  defect0 : 0 ≤ q.defectA
  defect1 : q.defectA < 1

/-- Grid lines `x = const`. -/
noncomputable def gx (q : TArgs ℝ) : ℕ → ℝ
  | 0 => 0
  | 1 => q.alow
  | 2 => q.alow + q.defect
  | _ => q.a

/-- Grid lines `y = const` of the skin. -/
noncomputable def gy (q : TArgs ℝ) : ℕ → ℝ
  | 0 => 0
  | 1 => q.ys - q.bb / 2
  | 2 => q.ys + q.bb / 2
  | _ => q.b

def tcol (k : ℕ) : ℕ := [2, 2, 2, 1, 1, 1, 0, 0, 0, 2, 2, 1, 1, 0, 0].getD k 0
def trow (k : ℕ) : ℕ := [2, 1, 0, 2, 1, 0, 2, 1, 0, 1, 0, 1, 0, 1, 0].getD k 0
def tgroup (k : ℕ) : String := if k < 9 then "skin" else if k % 2 = 1 then "base" else "flange"

variable {q : TArgs ℝ}

theorem TDims.defect (h : TDims q) : 0 < q.defect ∧ q.defect < q.a := by
  have := h.a
  unfold TArgs.defect
  split
  · constructor <;> linarith
  · rename_i h0
    have : 0 ≤ q.defectA * q.a := mul_nonneg h.defect0 h.a.le
    refine ⟨lt_of_le_of_ne this (Ne.symm h0), ?_⟩
    have := mul_lt_mul_of_pos_right h.defect1 h.a
    linarith

theorem TDims.alow (h : TDims q) : 0 < q.alow ∧ q.aup = q.alow ∧ q.alow + q.defect + q.alow = q.a := by
  have := h.defect
  refine ⟨?_, rfl, ?_⟩ <;> unfold TArgs.alow
  · linarith
  · ring

theorem TDims.gx_lt (h : TDims q) {i j : ℕ} (hij : i < j) (hj : j ≤ 3) : gx q i < gx q j := by
  have h1 := h.defect
  obtain ⟨h2, -, h3⟩ := h.alow
  have : j = 1 ∨ j = 2 ∨ j = 3 := by omega
  rcases this with rfl | rfl | rfl
  · obtain rfl : i = 0 := by omega
    exact h2
  · have : i = 0 ∨ i = 1 := by omega
    rcases this with rfl | rfl <;> simp only [gx] <;> linarith
  · have : i = 0 ∨ i = 1 ∨ i = 2 := by omega
    rcases this with rfl | rfl | rfl <;> simp only [gx] <;> linarith

theorem TDims.gy_lt (h : TDims q) {i j : ℕ} (hij : i < j) (hj : j ≤ 3) : gy q i < gy q j := by
  have h1 := h.bb
  have h2 := h.right
  have h3 := h.left
  have : j = 1 ∨ j = 2 ∨ j = 3 := by omega
  rcases this with rfl | rfl | rfl
  · obtain rfl : i = 0 := by omega
    simp only [gy]; linarith
  · have : i = 0 ∨ i = 1 := by omega
    rcases this with rfl | rfl <;> simp only [gy] <;> linarith
  · have : i = 0 ∨ i = 1 ∨ i = 2 := by omega
    rcases this with rfl | rfl | rfl <;> simp only [gy] <;> linarith

theorem TDims.gx_inj (h : TDims q) {i j : ℕ} (hi : i ≤ 3) (hj : j ≤ 3) (e : gx q i = gx q j) : i = j := by
  rcases Nat.lt_trichotomy i j with h1 | h1 | h1
  · exact absurd e (h.gx_lt h1 hj).ne
  · exact h1
  · exact absurd e (h.gx_lt h1 hi).ne'

theorem TDims.gy_inj (h : TDims q) {i j : ℕ} (hi : i ≤ 3) (hj : j ≤ 3) (e : gy q i = gy q j) : i = j := by
  rcases Nat.lt_trichotomy i j with h1 | h1 | h1
  · exact absurd e (h.gy_lt h1 hj).ne
  · exact h1
  · exact absurd e (h.gy_lt h1 hi).ne'

/-- Two intervals of the grid that overlap are the same. -/
theorem TDims.gx_overlap (h : TDims q) {i j : ℕ} (hi : i ≤ 2) (hj : j ≤ 2) (h1 : gx q i < gx q (j + 1))
    (h2 : gx q j < gx q (i + 1)) : i = j := by
  rcases Nat.lt_trichotomy i j with h3 | h3 | h3
  · rcases Nat.lt_or_ge (i + 1) j with h4 | h4
    · exact absurd h2 (h.gx_lt h4 (by omega)).not_gt
    · rw [show j = i + 1 by omega] at h2
      exact absurd h2 (lt_irrefl _)
  · exact h3
  · rcases Nat.lt_or_ge (j + 1) i with h4 | h4
    · exact absurd h1 (h.gx_lt h4 (by omega)).not_gt
    · rw [show i = j + 1 by omega] at h1
      exact absurd h1 (lt_irrefl _)

theorem TDims.gy_overlap (h : TDims q) {i j : ℕ} (hi : i ≤ 2) (hj : j ≤ 2) (h1 : gy q i < gy q (j + 1))
    (h2 : gy q j < gy q (i + 1)) : i = j := by
  rcases Nat.lt_trichotomy i j with h3 | h3 | h3
  · rcases Nat.lt_or_ge (i + 1) j with h4 | h4
    · exact absurd h2 (h.gy_lt h4 (by omega)).not_gt
    · rw [show j = i + 1 by omega] at h2
      exact absurd h2 (lt_irrefl _)
  · exact h3
  · rcases Nat.lt_or_ge (j + 1) i with h4 | h4
    · exact absurd h1 (h.gy_lt h4 (by omega)).not_gt
    · rw [show i = j + 1 by omega] at h1
      exact absurd h1 (lt_irrefl _)

/-- Where the panels are. -/
theorem TDims.grid (h : TDims q) (x1u : ℝ) (dn : ℕ) {k : ℕ} (hk : k < 15) :
    let p := q.part x1u dn k
    p.group = tgroup k ∧ p.x0 = gx q (tcol k) ∧ p.x0 + p.shell.pan.a = gx q (tcol k + 1) ∧
      (tgroup k ≠ "flange" → p.y0 = gy q (trow k) ∧ p.y0 + p.shell.pan.b = gy q (trow k + 1)) ∧
      (tgroup k = "flange" → p.y0 = 0 ∧ p.shell.pan.b = q.bf) := by
  obtain ⟨-, h2, h3⟩ := h.alow
  interval_cases k <;> refine ⟨rfl, rfl, ?_, ?_, ?_⟩
  all_goals first
    | exact fun hf => absurd hf (by decide)
    | exact fun hf => absurd rfl hf
    | exact fun _ => ⟨rfl, rfl⟩
    | (intro _
       refine ⟨rfl, ?_⟩
       simp only [TArgs.part, TArgs.parts, List.getD, List.getElem?_cons_succ, List.getElem?_cons_zero,
         Option.getD_some, TArgs.skin, TArgs.air, TArgs.base, TArgs.flange, tPart, Shell.new, trow, gy, TArgs.bleft,
         TArgs.bright]
       ring)
    | (simp only [TArgs.part, TArgs.parts, List.getD, List.getElem?_cons_succ, List.getElem?_cons_zero,
         Option.getD_some, TArgs.skin, TArgs.air, TArgs.base, TArgs.flange, tPart, Shell.new, tcol, gx]
       <;> linarith)

theorem tcol_le (k : ℕ) (hk : k < 15) : tcol k ≤ 2 := by
  interval_cases k <;> decide

theorem trow_le (k : ℕ) (hk : k < 15) : trow k ≤ 2 := by
  interval_cases k <;> decide

end Verif
