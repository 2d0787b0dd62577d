import Verif.Model.Tables
import Mathlib.Algebra.BigOperators.Group.Finset.Basic
import Mathlib.Algebra.BigOperators.Ring.Finset
import Mathlib.Algebra.BigOperators.Ring.List
import Mathlib.Algebra.Order.BigOperators.Group.Finset
import Mathlib.Algebra.Order.BigOperators.Ring.Finset
import Mathlib.Algebra.Polynomial.Eval.Degree
import Mathlib.Analysis.SpecialFunctions.Integrals.Basic
import Mathlib.Tactic.Linarith
import Mathlib.Tactic.FieldSimp
import Mathlib.Tactic.Ring
import Mathlib.Tactic.Positivity

/-!
# Kernel-evaluated check of the Gauss tables and its lifting
-/

set_option maxRecDepth 100000

namespace Verif.GaussCheck

open Model Finset

/-- `vs = [w p^(2k)]`, `d = 2k+1`, `E = 10^(56 (2k+1))`: the moments `2k, 2k+2, …` are within
`10^-53` of `2/(2k+1)`. -/
def evenOK (qs : List ℕ) : ℕ → List ℕ → ℕ → ℕ → Bool
  | 0, _, _, _ => true
  | fuel + 1, vs, d, E =>
    Nat.ble (vs.sum * d * 10 ^ 53) (2 * E * 10 ^ 53 + d * E) &&
    Nat.ble (2 * E * 10 ^ 53) (vs.sum * d * 10 ^ 53 + d * E) &&
    evenOK qs fuel (List.zipWith (· * ·) vs qs) (d + 2) (E * 10 ^ 112)

def incOK : List (ℤ × ℤ) → Bool
  | [] => true
  | [_] => true
  | s :: t :: l => decide (s.1 < t.1) && incOK (t :: l)

def rowOK (n : ℕ) (row : List (ℤ × ℤ)) : Bool :=
  (row.length == n) && (row.reverse == row.map fun t => (-t.1, t.2)) &&
  (row.all fun t => decide (0 < t.2)) && (row.all fun t => decide (t.1.natAbs < 10 ^ 56)) &&
  incOK row &&
  evenOK (row.map fun t => t.1.natAbs * t.1.natAbs) n (row.map fun t => t.2.natAbs) 1 (10 ^ 56)

def tableOK : Bool := (List.range 63).all fun k =>
  match Gen.gaussRows[k]? with
  | some row => rowOK (k + 2) row
  | none => false

theorem tableOK_true : tableOK = true := by decide +kernel

theorem row_exists (n : ℕ) (h2 : 2 ≤ n) (h64 : n ≤ 64) :
    ∃ row, Gen.gaussRows[n - 2]? = some row ∧ rowOK n row = true := by
  have h := tableOK_true
  rw [tableOK, List.all_eq_true] at h
  have h1 := h (n - 2) (List.mem_range.2 (by omega))
  have e : n - 2 + 2 = n := by omega
  rcases hr : Gen.gaussRows[n - 2]? with _ | row
  · rw [hr] at h1; exact absurd h1 (by simp)
  · rw [hr] at h1
    exact ⟨row, rfl, by rw [← e]; exact h1⟩

theorem gaussPair_row {n : ℕ} (h2 : 2 ≤ n) {row : List (ℤ × ℤ)}
    (h : Gen.gaussRows[n - 2]? = some row) (i : ℕ) : gaussPair n i = row[i]?.getD (0, 0) := by
  rw [gaussPair, if_neg (by omega), h]; rfl

theorem sum_getD {α M : Type*} [AddCommMonoid M] (d : α) (g : α → M) (L : List α) :
    ∑ i ∈ range L.length, g (L[i]?.getD d) = (L.map g).sum := by
  induction L with
  | nil => simp
  | cons a L ih =>
    rw [List.length_cons, Finset.sum_range_succ']
    simp only [List.getElem?_cons_succ, List.getElem?_cons_zero, Option.getD_some, ih,
      List.map_cons, List.sum_cons]
    exact add_comm _ _

theorem evenOK_sound (row : List (ℤ × ℤ)) (fuel : ℕ) : ∀ (k0 d E : ℕ),
    evenOK (row.map fun t => t.1.natAbs * t.1.natAbs) fuel
      (row.map fun t => t.2.natAbs * (t.1.natAbs * t.1.natAbs) ^ k0) d E = true →
    ∀ k < fuel,
      let s := (row.map fun t => t.2.natAbs * (t.1.natAbs * t.1.natAbs) ^ (k0 + k)).sum
      let E' := E * (10 ^ 112) ^ k
      s * (d + 2 * k) * 10 ^ 53 ≤ 2 * E' * 10 ^ 53 + (d + 2 * k) * E' ∧
      2 * E' * 10 ^ 53 ≤ s * (d + 2 * k) * 10 ^ 53 + (d + 2 * k) * E' := by
  induction fuel with
  | zero => intro _ _ _ _ k hk; omega
  | succ fuel ih =>
    intro k0 d E h k hk
    rw [evenOK, Bool.and_eq_true, Bool.and_eq_true] at h
    obtain ⟨⟨h1, h2⟩, h3⟩ := h
    match k with
    | 0 =>
      simp only [pow_zero, mul_one, mul_zero, add_zero]
      exact ⟨Nat.le_of_ble_eq_true h1, Nat.le_of_ble_eq_true h2⟩
    | k + 1 =>
      have e : List.zipWith (· * ·)
          (row.map fun t => t.2.natAbs * (t.1.natAbs * t.1.natAbs) ^ k0)
          (row.map fun t => t.1.natAbs * t.1.natAbs)
          = row.map fun t => t.2.natAbs * (t.1.natAbs * t.1.natAbs) ^ (k0 + 1) := by
        rw [List.zipWith_map, List.zipWith_self]
        refine List.map_congr_left fun t _ => ?_
        rw [pow_succ, mul_assoc]
      rw [e] at h3
      have := ih (k0 + 1) (d + 2) (E * 10 ^ 112) h3 k (by omega)
      have e1 : k0 + 1 + k = k0 + (k + 1) := by omega
      have e2 : d + 2 + 2 * k = d + 2 * (k + 1) := by omega
      have e3 : E * 10 ^ 112 * (10 ^ 112) ^ k = E * (10 ^ 112) ^ (k + 1) := by
        rw [pow_succ (10 ^ 112) k, mul_assoc, mul_comm (10 ^ 112)]
      rw [e1, e2, e3] at this
      exact this

structure RowFacts (n : ℕ) (row : List (ℤ × ℤ)) : Prop where
  len : row.length = n
  sym : row.reverse = row.map fun t => (-t.1, t.2)
  pos : ∀ t ∈ row, 0 < t.2
  ins : ∀ t ∈ row, t.1.natAbs < 10 ^ 56
  inc : incOK row = true
  ev : ∀ k < n,
      let s := (row.map fun t => t.2.natAbs * (t.1.natAbs * t.1.natAbs) ^ k).sum
      let E' := 10 ^ 56 * (10 ^ 112) ^ k
      s * (2 * k + 1) * 10 ^ 53 ≤ 2 * E' * 10 ^ 53 + (2 * k + 1) * E' ∧
      2 * E' * 10 ^ 53 ≤ s * (2 * k + 1) * 10 ^ 53 + (2 * k + 1) * E'

theorem rowFacts {n : ℕ} {row : List (ℤ × ℤ)} (h : rowOK n row = true) : RowFacts n row := by
  simp only [rowOK, Bool.and_eq_true, beq_iff_eq, List.all_eq_true, decide_eq_true_eq] at h
  obtain ⟨⟨⟨⟨⟨h1, h2⟩, h3⟩, h4⟩, h5⟩, h6⟩ := h
  refine ⟨h1, h2, h3, h4, h5, ?_⟩
  intro k hk
  have := evenOK_sound row n 0 1 (10 ^ 56) (by simpa only [pow_zero, mul_one] using h6) k hk
  rw [zero_add, add_comm 1] at this
  exact this

theorem incOK_lt (row : List (ℤ × ℤ)) (h : incOK row = true) :
    row.Pairwise fun s t => s.1 < t.1 := by
  induction row with
  | nil => exact List.Pairwise.nil
  | cons a l ih =>
    match l, h, ih with
    | [], _, _ => exact List.pairwise_singleton _ _
    | b :: l, h, ih =>
      rw [incOK, Bool.and_eq_true, decide_eq_true_eq] at h
      have hp := ih h.2
      refine List.Pairwise.cons ?_ hp
      intro c hc
      rcases List.mem_cons.1 hc with rfl | hc
      · exact h.1
      · exact h.1.trans (List.rel_of_pairwise_cons hp hc)

variable {K : Type*} [Field K] [LinearOrder K] [IsStrictOrderedRing K]

theorem odd_row {n : ℕ} {row : List (ℤ × ℤ)} (h : RowFacts n row) (k : ℕ) (hk : k % 2 = 1) :
    (row.map fun t => t.2 * t.1 ^ k).sum = 0 := by
  have hodd : Odd k := Nat.odd_iff.2 hk
  have e : (row.map fun t => t.2 * t.1 ^ k).sum = -(row.map fun t => t.2 * t.1 ^ k).sum := by
    calc (row.map fun t => t.2 * t.1 ^ k).sum
        = (row.reverse.map fun t => t.2 * t.1 ^ k).sum := by
          rw [List.map_reverse, List.sum_reverse]
      _ = (row.map fun t => -(t.2 * t.1 ^ k)).sum := by
          rw [h.sym, List.map_map]
          congr 1
          refine List.map_congr_left fun t _ => ?_
          simp only [Function.comp, hodd.neg_pow, mul_neg]
      _ = -(row.map fun t => t.2 * t.1 ^ k).sum := by
          rw [← neg_one_mul, ← List.sum_map_mul_left]
          simp only [neg_one_mul]
  omega

theorem even_row {n : ℕ} {row : List (ℤ × ℤ)} (h : RowFacts n row) (m : ℕ) :
    (row.map fun t => t.2 * t.1 ^ (2 * m)).sum
      = (((row.map fun t => t.2.natAbs * (t.1.natAbs * t.1.natAbs) ^ m).sum : ℕ) : ℤ) := by
  rw [Nat.cast_list_sum, List.map_map]
  congr 1
  refine List.map_congr_left fun t ht => ?_
  simp only [Function.comp, Nat.cast_mul, Nat.cast_pow]
  rw [Int.natAbs_of_nonneg (h.pos t ht).le, ← Nat.cast_mul, Int.natAbs_mul_self, pow_mul, pow_two]

/-- Moments of a row, in units of the table. -/
theorem moment_row {n : ℕ} {row : List (ℤ × ℤ)} (h : RowFacts n row) (k : ℕ) (hk : k < 2 * n) :
    |(((row.map fun t => t.2 * t.1 ^ k).sum : ℤ) : K) / (10 ^ 56) ^ (k + 1)
      - (if k % 2 = 0 then 2 / ((k : K) + 1) else 0)| ≤ 1 / 10 ^ 53 := by
  rcases Nat.mod_two_eq_zero_or_one k with hk0 | hk1
  · obtain ⟨m, rfl⟩ : ∃ m, k = 2 * m := ⟨k / 2, by omega⟩
    rw [if_pos hk0, even_row h]
    obtain ⟨h1, h2⟩ := h.ev m (by omega)
    generalize (row.map fun t => t.2.natAbs * (t.1.natAbs * t.1.natAbs) ^ m).sum = s at *
    have hE : (10 ^ 56 * (10 ^ 112) ^ m : ℕ) = (10 ^ 56) ^ (2 * m + 1) := by
      rw [pow_succ (10 ^ 56) (2 * m), pow_mul, ← pow_mul 10 56 2, mul_comm]
    rw [hE] at h1 h2
    have eE : ((10 : K) ^ 56) ^ (2 * m + 1) = (((10 ^ 56) ^ (2 * m + 1) : ℕ) : K) := by
      rw [Nat.cast_pow, Nat.cast_pow, Nat.cast_ofNat]
    have eT : (10 : K) ^ 53 = ((10 ^ 53 : ℕ) : K) := by rw [Nat.cast_pow, Nat.cast_ofNat]
    have hEp : 0 < (10 ^ 56) ^ (2 * m + 1) := by positivity
    have hT : 0 < 10 ^ 53 := by positivity
    rw [eE, eT]
    generalize (10 ^ 56) ^ (2 * m + 1) = E at *
    generalize 10 ^ 53 = T at *
    have c1 : (s : K) * (2 * m + 1) * T ≤ 2 * E * T + (2 * m + 1) * E := by exact_mod_cast h1
    have c2 : 2 * (E : K) * T ≤ s * (2 * m + 1) * T + (2 * m + 1) * E := by exact_mod_cast h2
    replace hEp : (0 : K) < E := by exact_mod_cast hEp
    replace hT : (0 : K) < T := by exact_mod_cast hT
    have e0 : ((2 * m : ℕ) : K) + 1 = 2 * m + 1 := by push_cast; ring
    rw [e0, Int.cast_natCast]
    have hd : (0 : K) < 2 * (m : K) + 1 := by positivity
    generalize 2 * (m : K) + 1 = d at *
    generalize (E : K) = E at *
    generalize (T : K) = T at *
    generalize (s : K) = s at *
    rw [div_sub_div _ _ hEp.ne' hd.ne', abs_div, abs_of_pos (mul_pos hEp hd),
      div_le_div_iff₀ (mul_pos hEp hd) hT]
    rcases abs_cases (s * d - E * 2) with ⟨e, _⟩ | ⟨e, _⟩ <;> rw [e] <;> nlinarith
  · rw [if_neg (by omega), odd_row h k hk1]
    simp

omit [LinearOrder K] [IsStrictOrderedRing K] in
theorem sum_gauss {n : ℕ} (h2 : 2 ≤ n) {row : List (ℤ × ℤ)}
    (hr : Gen.gaussRows[n - 2]? = some row) (hl : row.length = n) (k : ℕ) [CharZero K] :
    ∑ i ∈ range n, (gaussTab K).wt n i * (gaussTab K).pt n i ^ k
      = (((row.map fun t => t.2 * t.1 ^ k).sum : ℤ) : K) / (10 ^ 56) ^ (k + 1) := by
  have e : ∀ i, (gaussTab K).wt n i * (gaussTab K).pt n i ^ k
      = (fun t : ℤ × ℤ => ((t.2 * t.1 ^ k : ℤ) : K) / (10 ^ 56) ^ (k + 1)) (row[i]?.getD (0, 0)) := by
    intro i
    simp only [gaussTab, gaussPair_row h2 hr, dec]
    push_cast
    rw [div_pow, div_mul_div_comm, pow_succ (10 ^ 56) k, mul_comm ((10 ^ 56) ^ k)]
  simp only [e]
  rw [← hl]
  refine (sum_getD (0, 0) (fun t : ℤ × ℤ => ((t.2 * t.1 ^ k : ℤ) : K) / (10 ^ 56) ^ (k + 1))
    row).trans ?_
  rw [Int.cast_list_sum, List.map_map]
  simp only [div_eq_mul_inv]
  rw [← List.sum_map_mul_right]
  congr 1

theorem moment (n : ℕ) (h2 : 2 ≤ n) (h64 : n ≤ 64) (k : ℕ) (hk : k < 2 * n) :
    |∑ i ∈ range n, (gaussTab K).wt n i * (gaussTab K).pt n i ^ k
      - (if k % 2 = 0 then 2 / ((k : K) + 1) else 0)| ≤ 1 / 10 ^ 53 := by
  obtain ⟨row, hr, hok⟩ := row_exists n h2 h64
  have hf := rowFacts hok
  rw [sum_gauss h2 hr hf.len]
  exact moment_row hf k hk

theorem getD_mem {n : ℕ} {row : List (ℤ × ℤ)} (hl : row.length = n) {i : ℕ} (hi : i < n) :
    row[i]?.getD (0, 0) ∈ row := by
  subst hl
  rw [List.getElem?_eq_getElem hi, Option.getD_some]
  exact List.getElem_mem hi

theorem dec_lt (z w : ℤ) : ((dec z 56 : ℚ) : K) < ((dec w 56 : ℚ) : K) ↔ z < w := by
  rw [Rat.cast_lt, dec, dec, div_lt_div_iff_of_pos_right (by positivity), Int.cast_lt]

theorem wt_pos (n : ℕ) (h2 : 2 ≤ n) (h64 : n ≤ 64) (i : ℕ) (hi : i < n) :
    0 < (gaussTab K).wt n i := by
  obtain ⟨row, hr, hok⟩ := row_exists n h2 h64
  have hf := rowFacts hok
  have e : (0 : K) = ((dec 0 56 : ℚ) : K) := by simp [dec]
  simp only [gaussTab, gaussPair_row h2 hr]
  rw [e, dec_lt]
  exact hf.pos _ (getD_mem hf.len hi)

theorem pt_inside (n : ℕ) (h2 : 2 ≤ n) (h64 : n ≤ 64) (i : ℕ) (hi : i < n) :
    -1 < (gaussTab K).pt n i ∧ (gaussTab K).pt n i < 1 := by
  obtain ⟨row, hr, hok⟩ := row_exists n h2 h64
  have hf := rowFacts hok
  have e1 : (1 : K) = ((dec (10 ^ 56) 56 : ℚ) : K) := by
    rw [dec, Int.cast_pow, Int.cast_ofNat, div_self (by positivity), Rat.cast_one]
  have e2 : (-1 : K) = ((dec (-(10 ^ 56)) 56 : ℚ) : K) := by
    rw [dec, Int.cast_neg, Int.cast_pow, Int.cast_ofNat, neg_div, div_self (by positivity),
      Rat.cast_neg, Rat.cast_one]
  simp only [gaussTab, gaussPair_row h2 hr]
  rw [e2, e1, dec_lt, dec_lt]
  have := hf.ins _ (getD_mem hf.len hi)
  omega

theorem pt_strictMono (n : ℕ) (h2 : 2 ≤ n) (h64 : n ≤ 64) (i j : ℕ) (hij : i < j) (hj : j < n) :
    (gaussTab K).pt n i < (gaussTab K).pt n j := by
  obtain ⟨row, hr, hok⟩ := row_exists n h2 h64
  have hf := rowFacts hok
  have hp := incOK_lt row hf.inc
  simp only [gaussTab, gaussPair_row h2 hr]
  rw [dec_lt]
  have hj' : j < row.length := by rw [hf.len]; exact hj
  have hi' : i < row.length := by omega
  rw [List.getElem?_eq_getElem hi', List.getElem?_eq_getElem hj', Option.getD_some,
    Option.getD_some]
  exact List.pairwise_iff_getElem.1 hp i j hi' hj' hij

omit [LinearOrder K] [IsStrictOrderedRing K] in
theorem symmetric [CharZero K] (n : ℕ) (h2 : 2 ≤ n) (h64 : n ≤ 64) (i : ℕ) (hi : i < n) :
    (gaussTab K).pt n (n - 1 - i) = -(gaussTab K).pt n i ∧
    (gaussTab K).wt n (n - 1 - i) = (gaussTab K).wt n i := by
  obtain ⟨row, hr, hok⟩ := row_exists n h2 h64
  have hf := rowFacts hok
  have hi' : i < row.length := by rw [hf.len]; exact hi
  have hj' : n - 1 - i < row.length := by rw [hf.len]; omega
  have h := congrArg (fun l => l[i]?) hf.sym
  simp only [List.getElem?_reverse hi', List.getElem?_map, hf.len] at h
  simp only [gaussTab, gaussPair_row h2 hr]
  rw [h, List.getElem?_eq_getElem hi']
  simp only [Option.map_some, Option.getD_some, dec, Int.cast_neg, neg_div, Rat.cast_neg, and_self]

end Verif.GaussCheck
