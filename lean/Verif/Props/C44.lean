import Verif.Model.Penalty
import Mathlib.Tactic.FieldSimp
import Mathlib.Tactic.Ring
import Mathlib.Tactic.Positivity
import Mathlib.Tactic.Linarith
import Mathlib.Tactic.NormNum
import Mathlib.Data.Real.Basic

/-!
# C44: connection penalties are positive, symmetric and bounded

The lower bound of the claim is false in general (`below_both_witness`) and an unknown joint type
does return nothing (`unknown_type_returns_nothing`); what holds is proved beside.
-/

set_option linter.unusedSectionVars false

namespace Verif.C44

open Model

variable {K : Type*} [Field K] [LinearOrder K] [IsStrictOrderedRing K]

/-- Stiffnesses, thickness and dimensions are positive. -/
structure Pos (p : PenLam K) : Prop where
  A11 : 0 < p.A11
  A22 : 0 < p.A22
  D11 : 0 < p.D11
  D22 : 0 < p.D22
  h : 0 < p.h
  a : 0 < p.a
  b : 0 < p.b

/-- The documented joint types. -/
def types : List String := ["xcte", "ycte", "bot-top", "xcte-ycte", "ycte-xcte"]

/-- Every documented type gives positive constants. -/
theorem positive {p1 p2 : PenLam K} (h1 : Pos p1) (h2 : Pos p2) {t : String} (ht : t ∈ types) :
    ∃ kt kr, calcKtKr p1 p2 t = some (kt, kr) ∧ 0 < kt ∧ ∀ k, kr = some k → 0 < k := by
  obtain ⟨a1, b1, c1, d1, e1, f1, g1⟩ := h1
  obtain ⟨a2, b2, c2, d2, e2, f2, g2⟩ := h2
  simp only [types, List.mem_cons, List.not_mem_nil, or_false] at ht
  have l1 : lower "xcte" = "xcte" := by decide
  have l2 : lower "ycte" = "ycte" := by decide
  have l3 : lower "bot-top" = "bot-top" := by decide
  have l4 : lower "xcte-ycte" = "xcte-ycte" := by decide
  have l5 : lower "ycte-xcte" = "ycte-xcte" := by decide
  rcases ht with rfl | rfl | rfl | rfl | rfl
  all_goals
    simp only [calcKtKr, l1, l2, l3, l4, l5]
    simp
    first
      | exact ⟨by positivity, by positivity⟩
      | positivity

/-- The result does not depend on the order of the panels for the symmetric types; the two mixed
types are exchanged. -/
theorem symmetric (p1 p2 : PenLam K) :
    calcKtKr p1 p2 "xcte" = calcKtKr p2 p1 "xcte" ∧
    calcKtKr p1 p2 "ycte" = calcKtKr p2 p1 "ycte" ∧
    calcKtKr p1 p2 "xcte-ycte" = calcKtKr p2 p1 "ycte-xcte" := by
  have l1 : lower "xcte" = "xcte" := by decide
  have l2 : lower "ycte" = "ycte" := by decide
  have l4 : lower "xcte-ycte" = "xcte-ycte" := by decide
  have l5 : lower "ycte-xcte" = "ycte-xcte" := by decide
  refine ⟨?_, ?_, ?_⟩
  · simp only [calcKtKr, l1]; simp; constructor <;> ring
  · simp only [calcKtKr, l2]; simp; constructor <;> ring
  · simp only [calcKtKr, l4, l5]; simp; constructor <;> ring

/-- `bot-top` divides by the size of the *first* panel: symmetric when both have the same smaller
side. -/
theorem bot_top_symmetric_partial (p1 p2 : PenLam K) (h : min p1.a p1.b = min p2.a p2.b) :
    calcKtKr p1 p2 "bot-top" = calcKtKr p2 p1 "bot-top" := by
  have l3 : lower "bot-top" = "bot-top" := by decide
  simp only [calcKtKr, l3, h]; simp; ring

/-- Otherwise the order matters. -/
theorem bot_top_order_matters : ∃ p1 p2 : PenLam ℚ, Pos p1 ∧ Pos p2 ∧
    calcKtKr p1 p2 "bot-top" ≠ calcKtKr p2 p1 "bot-top" := by
  refine ⟨⟨1, 1, 1, 1, 1, 1, 1⟩, ⟨1, 1, 1, 1, 1, 2, 2⟩, ?_, ?_, ?_⟩
  · constructor <;> norm_num
  · constructor <;> norm_num
  · have l3 : lower "bot-top" = "bot-top" := by decide
    simp only [calcKtKr, l3]; simp; norm_num

/-- One panel connected to itself: stiffness over thickness. -/
theorem self_value (p : PenLam K) (hp : Pos p) :
    calcKtKr p p "xcte" = some (p.A11 / p.h, some (p.D11 / p.h)) ∧
    calcKtKr p p "ycte" = some (p.A22 / p.h, some (p.D22 / p.h)) := by
  obtain ⟨a1, b1, c1, d1, e1, f1, g1⟩ := hp
  have l1 : lower "xcte" = "xcte" := by decide
  have l2 : lower "ycte" = "ycte" := by decide
  constructor
  · simp only [calcKtKr, l1]; simp; constructor <;> (field_simp; norm_num)
  · simp only [calcKtKr, l2]; simp; constructor <;> (field_simp; norm_num)

theorem upper_aux {A B g h : K} (hA : 0 < A) (hB : 0 < B) (hg : 0 < g) (hh : 0 < h) :
    4 * A * B / ((A + B) * (g + h)) ≤ max (A / g) (B / h) := by
  have key : ∀ m, A ≤ m * g → B ≤ m * h → 4 * A * B / ((A + B) * (g + h)) ≤ m := by
    intro m h1 h2
    rw [div_le_iff₀ (by positivity)]
    have : A + B ≤ m * (g + h) := by linarith
    nlinarith [sq_nonneg (A - B), mul_le_mul_of_nonneg_left this (add_pos hA hB).le]
  refine key _ ?_ ?_
  · rw [← div_le_iff₀ hg]; exact le_max_left _ _
  · rw [← div_le_iff₀ hh]; exact le_max_right _ _

theorem lower_aux {A B h : K} (hA : 0 < A) (hB : 0 < B) (hh : 0 < h) :
    min (A / h) (B / h) ≤ 4 * A * B / ((A + B) * (h + h)) := by
  rw [le_div_iff₀ (by positivity)]
  rcases le_total A B with hle | hle
  · rw [min_eq_left (div_le_div_of_nonneg_right hle hh.le), show A / h * ((A + B) * (h + h))
      = 2 * A * (A + B) by field_simp; ring]
    nlinarith
  · rw [min_eq_right (div_le_div_of_nonneg_right hle hh.le), show B / h * ((A + B) * (h + h))
      = 2 * B * (A + B) by field_simp; ring]
    nlinarith

/-- Never above the larger of the two single-panel values. -/
theorem bounded_above {p1 p2 : PenLam K} (h1 : Pos p1) (h2 : Pos p2) :
    (∀ kt kr, calcKtKr p1 p2 "xcte" = some (kt, some kr) →
      kt ≤ max (p1.A11 / p1.h) (p2.A11 / p2.h) ∧ kr ≤ max (p1.D11 / p1.h) (p2.D11 / p2.h)) ∧
    (∀ kt kr, calcKtKr p1 p2 "ycte" = some (kt, some kr) →
      kt ≤ max (p1.A22 / p1.h) (p2.A22 / p2.h) ∧ kr ≤ max (p1.D22 / p1.h) (p2.D22 / p2.h)) := by
  have l1 : lower "xcte" = "xcte" := by decide
  have l2 : lower "ycte" = "ycte" := by decide
  constructor <;> intro kt kr h
  · simp only [calcKtKr, l1] at h
    simp at h
    obtain ⟨rfl, rfl⟩ := h
    exact ⟨upper_aux h1.A11 h2.A11 h1.h h2.h, upper_aux h1.D11 h2.D11 h1.h h2.h⟩
  · simp only [calcKtKr, l2] at h
    simp at h
    obtain ⟨rfl, rfl⟩ := h
    exact ⟨upper_aux h1.A22 h2.A22 h1.h h2.h, upper_aux h1.D22 h2.D22 h1.h h2.h⟩

/-- Not below the smaller single-panel value when the thicknesses are equal.  Missing for the full
claim: different thicknesses, where it is false. -/
theorem bounded_below_partial {p1 p2 : PenLam K} (h1 : Pos p1) (h2 : Pos p2) (hh : p2.h = p1.h) :
    (∀ kt kr, calcKtKr p1 p2 "xcte" = some (kt, some kr) →
      min (p1.A11 / p1.h) (p2.A11 / p2.h) ≤ kt ∧ min (p1.D11 / p1.h) (p2.D11 / p2.h) ≤ kr) ∧
    (∀ kt kr, calcKtKr p1 p2 "ycte" = some (kt, some kr) →
      min (p1.A22 / p1.h) (p2.A22 / p2.h) ≤ kt ∧ min (p1.D22 / p1.h) (p2.D22 / p2.h) ≤ kr) := by
  have l1 : lower "xcte" = "xcte" := by decide
  have l2 : lower "ycte" = "ycte" := by decide
  constructor <;> intro kt kr h
  · simp only [calcKtKr, l1] at h
    simp at h
    obtain ⟨rfl, rfl⟩ := h
    rw [hh]
    exact ⟨lower_aux h1.A11 h2.A11 h1.h, lower_aux h1.D11 h2.D11 h1.h⟩
  · simp only [calcKtKr, l2] at h
    simp at h
    obtain ⟨rfl, rfl⟩ := h
    rw [hh]
    exact ⟨lower_aux h1.A22 h2.A22 h1.h, lower_aux h1.D22 h2.D22 h1.h⟩

/-- Two panels of the same material (`A/h = 1` for both), one a hundred times thicker: the constant
is 25 times smaller than the value of either panel alone. -/
theorem below_both_witness : ∃ p1 p2 : PenLam ℚ, Pos p1 ∧ Pos p2 ∧
    ∃ kt kr, calcKtKr p1 p2 "xcte" = some (kt, some kr) ∧
      kt < (1 / 25) * min (p1.A11 / p1.h) (p2.A11 / p2.h) := by
  refine ⟨⟨1, 1, 1, 1, 1, 1, 1⟩, ⟨100, 100, 1000000, 1000000, 100, 1, 1⟩, ?_, ?_, 400 / 10201,
    4000000 / 101000101, ?_, ?_⟩
  · constructor <;> norm_num
  · constructor <;> norm_num
  · have l1 : lower "xcte" = "xcte" := by decide
    simp only [calcKtKr, l1]
    simp only [if_true]
    norm_num
  · norm_num

/-- Any other string gives `None` instead of an error. -/
theorem unknown_type_returns_nothing (p1 p2 : PenLam K) (t : String) (ht : lower t ∉ types) :
    calcKtKr p1 p2 t = none := by
  simp only [types, List.mem_cons, List.not_mem_nil, or_false, not_or] at ht
  obtain ⟨h1, h2, h3, h4, h5⟩ := ht
  simp only [calcKtKr, h1, h2, h3, h4, h5, if_false]

example : calcKtKr (K := ℚ) ⟨1, 1, 1, 1, 1, 1, 1⟩ ⟨1, 1, 1, 1, 1, 1, 1⟩ "xycte" = none :=
  unknown_type_returns_nothing _ _ _ (by decide)

/-- Concrete case of positivity and of the bounds: `A = 3, 6`, `h = 1, 2`. -/
example : Pos (⟨3, 2, 1, 1, 1, 5, 4⟩ : PenLam ℚ) ∧ Pos (⟨6, 5, 1, 2, 2, 5, 4⟩ : PenLam ℚ) := by
  constructor <;> constructor <;> norm_num

/-- Prescribed-displacement penalties are positive as well. -/
theorem pd_positive {p : PenLam K} (h : Pos p) :
    ∀ k ∈ [kuvwPoint p, kuvwLineX p, kuvwLineY p], 0 < k.1 ∧ 0 < k.2.1 ∧ 0 < k.2.2 := by
  obtain ⟨a1, b1, c1, d1, e1, f1, g1⟩ := h
  intro k hk
  simp only [List.mem_cons, List.not_mem_nil, or_false] at hk
  rcases hk with rfl | rfl | rfl <;> simp only [kuvwPoint, kuvwLineX, kuvwLineY] <;>
    exact ⟨by positivity, by positivity, by positivity⟩

/-- Traction-separation constant: defined for `'linear'` and panels of the same size only. -/
theorem tsl_domain (pA pB : PenLam K) (t : String) :
    (∃ k, calcKwTsl pA pB t = .value k) ↔ pA.a = pB.a ∧ pA.b = pB.b ∧ t = "linear" := by
  unfold calcKwTsl
  constructor
  · rintro ⟨k, hk⟩
    split_ifs at hk with h1 h2
    rw [not_or, not_not, not_not] at h1
    exact ⟨h1.1, h1.2, h2⟩
  · rintro ⟨h1, h2, rfl⟩
    exact ⟨10000 / (pA.a * pA.b), by simp [h1, h2]⟩

end Verif.C44
