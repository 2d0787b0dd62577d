import Verif.Model.Tables
import Verif.Spec.Bardell
import Mathlib.Analysis.Calculus.Deriv.Pow
import Mathlib.Analysis.Calculus.Deriv.Add
import Mathlib.Analysis.Calculus.Deriv.Mul
import Mathlib.Algebra.Order.BigOperators.Group.Finset
import Mathlib.Algebra.Order.BigOperators.Group.List

/-!
# Checker of the shape-function tables and its soundness
-/

set_option maxRecDepth 100000

namespace Verif.ShapeCheck

open Model

/-- Terms `(power, coefficient)` of a row. -/
def terms (r : Gen.FRow) : List (ℕ × ℚ) := r.coef.map fun t => (t.1, dec t.2.1 t.2.2)

/-- Terms of the derivative. -/
def dterms (l : List (ℕ × ℚ)) : List (ℕ × ℚ) :=
  (l.filter fun t => t.1 ≠ 0).map fun t => (t.1 - 1, t.1 * t.2)

def diffs : List (ℕ × ℚ) → List (ℕ × ℚ) → ℚ
  | a :: A, b :: B => |a.2 - b.2| + diffs A B
  | _, _ => 0

/-- `∑ |coefficient|`. -/
def mag (l : List (ℕ × ℚ)) : ℚ := (l.map fun t => |t.2|).sum

def derOK (A B : ℚ) (a b : Gen.FRow) : Bool :=
  (a.fl == b.fl) && ((dterms (terms a)).map Prod.fst == (terms b).map Prod.fst) &&
  decide (diffs (dterms (terms a)) (terms b) ≤ A * mag (terms b)) &&
  decide (diffs (dterms (terms a)) (terms b) ≤ B)

def derTabOK (A B : ℚ) (T T' : List Gen.FRow) : Bool :=
  (List.range 30).all fun i =>
    match T[i]?, T'[i]? with
    | some a, some b => derOK A B a b && (a.fl == min i 4)
    | _, _ => false

theorem f_fp_ok : derTabOK (3 / 10 ^ 15) (3 / 10 ^ 7) Gen.sc_f Gen.sc_fp = true := by decide +kernel
theorem fp_fpp_ok : derTabOK (4 / 10 ^ 15) (4 / 10 ^ 6) Gen.sc_fp Gen.sc_fpp = true := by
  decide +kernel

/-- The vector evaluators hold the same expressions as the scalar ones. -/
theorem vec_eq : Gen.vec_f = Gen.sc_f ∧ Gen.vec_fp = Gen.sc_fp ∧ Gen.vec_fpp = Gen.sc_fpp := by
  decide +kernel

/-- Value of a list of terms. -/
noncomputable def tev (l : List (ℕ × ℚ)) (x : ℝ) : ℝ := (l.map fun t => (t.2 : ℝ) * x ^ t.1).sum

theorem rowVal_eq (r : Gen.FRow) (x : ℝ) (fl : Flags ℝ) :
    rowVal r x fl = fl.get r.fl * tev (terms r) x := by
  rw [rowVal, tev, terms, List.map_map]; rfl

theorem get_min {K : Type*} [One K] (fl : Flags K) (i : ℕ) :
    fl.get (min i 4) = Spec.flag fl i := by
  match i with
  | 0 => rfl
  | 1 => rfl
  | 2 => rfl
  | 3 => rfl
  | n + 4 =>
    have : min (n + 4) 4 = 4 := by omega
    rw [this]; rfl

theorem tev_hasDeriv (l : List (ℕ × ℚ)) (x : ℝ) :
    HasDerivAt (tev l) (tev (dterms l) x) x := by
  induction l with
  | nil =>
    have e : tev [] = fun _ => (0 : ℝ) := by funext y; simp [tev]
    have e2 : tev (dterms []) x = 0 := by simp [tev, dterms]
    rw [e, e2]
    exact hasDerivAt_const x (0 : ℝ)
  | cons t l ih =>
    have e : tev (t :: l) = fun y => (t.2 : ℝ) * y ^ t.1 + tev l y := by
      funext y; simp [tev]
    have e2 : tev (dterms (t :: l)) x = (t.2 : ℝ) * ((t.1 : ℝ) * x ^ (t.1 - 1)) + tev (dterms l) x := by
      by_cases h : t.1 = 0
      · simp [tev, dterms, h]
      · simp only [tev, dterms, List.filter_cons, h, ne_eq, not_false_eq_true, decide_true, if_true,
          List.map_cons, List.sum_cons]
        push_cast; ring
    rw [e, e2]
    exact ((hasDerivAt_pow t.1 x).const_mul _).add ih

theorem tev_diff (A : List (ℕ × ℚ)) : ∀ (B : List (ℕ × ℚ)), A.map Prod.fst = B.map Prod.fst →
    ∀ x : ℝ, |x| ≤ 1 → |tev A x - tev B x| ≤ (diffs A B : ℝ) := by
  induction A with
  | nil =>
    intro B h x _
    match B, h with
    | [], _ => simp [tev, diffs]
  | cons a A ih =>
    intro B h x hx
    match B, h with
    | b :: B, h =>
      simp only [List.map_cons, List.cons.injEq] at h
      have h1 := ih B h.2 x hx
      have e : tev (a :: A) x - tev (b :: B) x
          = ((a.2 : ℝ) - b.2) * x ^ a.1 + (tev A x - tev B x) := by
        simp only [tev, List.map_cons, List.sum_cons, h.1]; ring
      rw [e]
      refine (abs_add_le _ _).trans ?_
      simp only [diffs]
      push_cast
      refine add_le_add ?_ h1
      rw [abs_mul, abs_pow]
      calc |(a.2 : ℝ) - b.2| * |x| ^ a.1 ≤ |(a.2 : ℝ) - b.2| * 1 :=
            mul_le_mul_of_nonneg_left (pow_le_one₀ (abs_nonneg _) hx) (abs_nonneg _)
        _ = _ := mul_one _

theorem derTab_sound {A B : ℚ} {T T' : List Gen.FRow} (h : derTabOK A B T T' = true) (i : ℕ)
    (hi : i < 30) : ∃ a b, T[i]? = some a ∧ T'[i]? = some b ∧ a.fl = min i 4 ∧ b.fl = min i 4 ∧
      ∀ x : ℝ, |x| ≤ 1 → |tev (dterms (terms a)) x - tev (terms b) x| ≤ A * mag (terms b) ∧
        |tev (dterms (terms a)) x - tev (terms b) x| ≤ B := by
  rw [derTabOK, List.all_eq_true] at h
  have h1 := h i (List.mem_range.2 hi)
  rcases ha : T[i]? with _ | a <;> rcases hb : T'[i]? with _ | b <;> rw [ha, hb] at h1
  · exact absurd h1 (by simp)
  · exact absurd h1 (by simp)
  · exact absurd h1 (by simp)
  · simp only [derOK, Bool.and_eq_true, beq_iff_eq, decide_eq_true_eq] at h1
    obtain ⟨⟨⟨⟨e1, e2⟩, e3⟩, e4⟩, e5⟩ := h1
    refine ⟨a, b, rfl, rfl, e5, e1 ▸ e5, fun x hx => ?_⟩
    have := tev_diff _ _ e2 x hx
    exact ⟨this.trans (by exact_mod_cast (Rat.cast_le (K := ℝ)).2 e3),
      this.trans (by exact_mod_cast (Rat.cast_le (K := ℝ)).2 e4)⟩

end Verif.ShapeCheck
