import Verif.Proofs.IndepTab
import Verif.Spec.Legendre
import Mathlib.Tactic.FieldSimp

/-!
# Bardell's functions are integrals of Legendre polynomials
-/

namespace Verif.Legendre

open Polynomial Spec Indep

/-- `(-1)^k (2(d+k-e)-1)!! / (2^k k! d!)`. -/
noncomputable def cc (e d k : ℕ) : ℝ :=
  (-1) ^ k * (oddDF (d + k - e) : ℝ) / (2 ^ k * fact k * fact d)

/-- The coefficients of `p` are those of the Legendre polynomial of degree `N - e`, integrated `e`
times. -/
structure IsC (e N : ℕ) (p : ℝ[X]) : Prop where
  on : ∀ k d, d + 2 * k = N → p.coeff d = cc e d k
  off : ∀ d, (∀ k, d + 2 * k ≠ N) → p.coeff d = 0

theorem IsC.unique {e N : ℕ} {p q : ℝ[X]} (hp : IsC e N p) (hq : IsC e N q) : p = q := by
  ext d
  by_cases h : ∃ k, d + 2 * k = N
  · obtain ⟨k, hk⟩ := h
    rw [hp.on k d hk, hq.on k d hk]
  · push Not at h
    rw [hp.off d h, hq.off d h]

theorem fact_ne (n : ℕ) : (fact n : ℝ) ≠ 0 := Nat.cast_ne_zero.2 (fact_pos n).ne'

theorem fact_succ (n : ℕ) : (fact (n + 1) : ℝ) = (n + 1) * fact n := by
  rw [fact]; push_cast; ring

theorem odd_succ (n : ℕ) : (oddDF (n + 1) : ℝ) = (2 * n + 1) * oddDF n := by
  rw [oddDF]; push_cast; ring

/-- The polynomials of the recursion. -/
noncomputable def leg : ℕ → ℝ[X]
  | 0 => 1
  | 1 => X
  | n + 2 => C (1 / ((n : ℝ) + 2)) *
      (C (2 * (n : ℝ) + 3) * (X * leg (n + 1)) - C ((n : ℝ) + 1) * leg n)

theorem eval_leg (n : ℕ) (x : ℝ) : (leg n).eval x = legendre n x := by
  induction n using Nat.twoStepInduction with
  | zero => simp [leg, legendre]
  | one => simp [leg, legendre]
  | more n h0 h1 =>
    rw [leg, legendre]
    simp only [eval_mul, eval_sub, eval_C, eval_X, h0, h1]
    ring

theorem cc_leg (n d k : ℕ) (h : d + 1 + 2 * (k + 1) = n + 2) :
    cc 0 (d + 1) (k + 1) = 1 / ((n : ℝ) + 2) *
      ((2 * n + 3) * cc 0 d (k + 1) - (n + 1) * cc 0 (d + 1) k) := by
  have hn : (n : ℝ) = d + 2 * k + 1 := by
    have : n = d + 2 * k + 1 := by omega
    rw [this]; push_cast; ring
  have f1 := fact_ne k
  have f2 := fact_ne d
  have hn2 : (n : ℝ) + 2 ≠ 0 := by positivity
  have hk : (k : ℝ) + 1 ≠ 0 := by positivity
  have hd : (d : ℝ) + 1 ≠ 0 := by positivity
  simp only [cc, Nat.sub_zero, fact_succ, show d + 1 + (k + 1) = d + k + 1 + 1 by ring,
    show d + (k + 1) = d + k + 1 by ring, show d + 1 + k = d + k + 1 by ring, odd_succ]
  push_cast
  field_simp
  rw [hn]
  ring

theorem leg_isC (n : ℕ) : IsC 0 n (leg n) := by
  induction n using Nat.twoStepInduction with
  | zero =>
    refine ⟨fun k d h => ?_, fun d h => ?_⟩
    · obtain rfl : d = 0 := by omega
      obtain rfl : k = 0 := by omega
      simp [leg, cc, oddDF, fact]
    · have : d ≠ 0 := by simpa using h 0
      simp [leg, coeff_one, this]
  | one =>
    refine ⟨fun k d h => ?_, fun d h => ?_⟩
    · obtain rfl : k = 0 := by omega
      obtain rfl : d = 1 := by omega
      simp [leg, cc, oddDF, fact]
    · have : d ≠ 1 := by simpa using h 0
      simp [leg, coeff_X, Ne.symm this]
  | more n h0 h1 =>
    refine ⟨fun k d h => ?_, fun d h => ?_⟩
    · rw [leg, coeff_C_mul, coeff_sub, coeff_C_mul, coeff_C_mul]
      cases d with
      | zero =>
        obtain ⟨k, rfl⟩ : ∃ j, k = j + 1 := ⟨k - 1, by omega⟩
        rw [mul_coeff_zero, coeff_X_zero, zero_mul, mul_zero, h0.on k 0 (by omega)]
        have hn : (n : ℝ) = 2 * k := by
          have : n = 2 * k := by omega
          rw [this]; push_cast; ring
        have f1 := fact_ne k
        have hk : (k : ℝ) + 1 ≠ 0 := by positivity
        simp only [cc, Nat.sub_zero, fact_succ, Nat.zero_add, odd_succ, pow_succ]
        rw [hn]
        field_simp
        ring
      | succ d =>
        rw [coeff_X_mul]
        cases k with
        | zero =>
          have hn : (n : ℝ) + 1 = d := by
            have : d = n + 1 := by omega
            rw [this]; push_cast; ring
          rw [h1.on 0 d (by omega), h0.off (d + 1) fun k => by omega, mul_zero, sub_zero]
          have f1 := fact_ne d
          have hd : (d : ℝ) + 1 ≠ 0 := by positivity
          simp only [cc, Nat.sub_zero, Nat.add_zero, fact_succ, odd_succ]
          rw [show (n : ℝ) + 2 = d + 1 by linarith, show 2 * (n : ℝ) + 3 = 2 * d + 1 by linarith]
          field_simp
        | succ k =>
          rw [h1.on (k + 1) d (by omega), h0.on k (d + 1) (by omega)]
          exact (cc_leg n d k h).symm
    · rw [leg, coeff_C_mul, coeff_sub, coeff_C_mul, coeff_C_mul,
        h0.off d fun k hk => h (k + 1) (by omega)]
      cases d with
      | zero => rw [mul_coeff_zero, coeff_X_zero, zero_mul]; ring
      | succ d =>
        rw [coeff_X_mul, h1.off d fun k hk => h k (by omega)]
        ring

/-- The derivative. -/
theorem IsC.deriv {e N : ℕ} {l : List ℚ} (h : IsC (e + 1) (N + 1) (poly l)) :
    IsC e N (poly (pder l)) := by
  have hc : ∀ d, (poly (pder l)).coeff d = (poly l).coeff (d + 1) * (d + 1) := by
    intro d
    rw [coeff_poly, getD_pder, coeff_poly]
    push_cast
    ring
  refine ⟨fun k d hk => ?_, fun d hd => ?_⟩
  · rw [hc, h.on k (d + 1) (by omega)]
    have f1 := fact_ne k
    have f2 := fact_ne d
    have hd : (d : ℝ) + 1 ≠ 0 := by positivity
    simp only [cc, fact_succ, show d + 1 + k - (e + 1) = d + k - e by omega]
    field_simp
  · rw [hc, h.off (d + 1) fun k hk => hd k (by omega), zero_mul]

/-- The difference of two neighbours is an integral. -/
theorem IsC.step {e N : ℕ} (he : 2 * e ≤ N) {p q r : ℝ[X]} (hp : IsC e (N + 2) p) (hq : IsC e N q)
    (hr : IsC (e + 1) (N + 2) r) : p - q = C (2 * (N : ℝ) + 3 - 2 * e) * r := by
  ext d
  rw [coeff_sub, coeff_C_mul]
  by_cases hd : ∃ k, d + 2 * k = N + 2
  · obtain ⟨k, hk⟩ := hd
    rw [hp.on k d hk, hr.on k d hk]
    have f1 := fact_ne k
    have f2 := fact_ne d
    cases k with
    | zero =>
      rw [hq.off d fun k => by omega]
      obtain ⟨M, hM⟩ : ∃ M, d - e = M + 1 := ⟨d - e - 1, by omega⟩
      have hN : (N : ℝ) = M + e - 1 := by
        have : N + 1 = M + e := by omega
        have h' : (N : ℝ) + 1 = M + e := by exact_mod_cast this
        linarith
      simp only [cc, Nat.add_zero, hM, show d - (e + 1) = M by omega, odd_succ]
      rw [hN]
      field_simp
      ring
    | succ k =>
      rw [hq.on k d (by omega)]
      obtain ⟨M, hM⟩ : ∃ M, d + (k + 1) - e = M + 1 := ⟨d + k - e, by omega⟩
      have hN : (N : ℝ) = M + k + e := by
        have : N = M + k + e := by omega
        rw [this]; push_cast; ring
      have f3 := fact_ne k
      have hk1 : (k : ℝ) + 1 ≠ 0 := by positivity
      simp only [cc, hM, show d + (k + 1) - (e + 1) = M by omega, show d + k - e = M by omega,
        odd_succ, fact_succ, pow_succ]
      rw [hN]
      field_simp
      ring
  · push Not at hd
    rw [hp.off d hd, hr.off d hd, hq.off d fun k hk => hd (k + 1) (by omega)]
    ring

/-- Bardell's functions beyond the cubics. -/
theorem bardell_isC (N : ℕ) (h : 4 ≤ N) : IsC 2 N (poly (bardell N)) := by
  have hb : ∀ d ≤ N, (bardell N).getD d 0 = bcoef N d := by
    intro d hd
    rw [bardell_high h, List.getD_eq_getElem?_getD, List.getElem?_map,
      List.getElem?_range (Nat.lt_succ_of_le hd)]
    rfl
  refine ⟨fun k d hk => ?_, fun d hd => ?_⟩
  · rw [coeff_poly, hb d (by omega), bcoef, if_pos (by omega)]
    have hk2 : (N - d) / 2 = k := by omega
    have hs : ((if k % 2 = 0 then (1 : ℚ) else -1 : ℚ) : ℝ) = (-1) ^ k := by
      rcases Nat.even_or_odd k with hev | hod
      · rw [if_pos (Nat.even_iff.1 hev), hev.neg_one_pow]; norm_num
      · rw [if_neg (by rw [Nat.odd_iff.1 hod]; norm_num), hod.neg_one_pow]; norm_num
    simp only [hk2, cc, show N - k - 2 = d + k - 2 by omega]
    rw [Rat.cast_div, Rat.cast_mul, hs]
    push_cast
    ring
  · by_cases hN : d ≤ N
    · rw [coeff_poly, hb d hN, bcoef, if_neg fun h0 => hd ((N - d) / 2) (by omega), Rat.cast_zero]
    · rw [coeff_poly, bardell_above h (by omega), Rat.cast_zero]

/-- The value at the ends. -/
theorem legendre_ends (n : ℕ) : legendre n 1 = 1 ∧ legendre n (-1) = (-1) ^ n := by
  induction n using Nat.twoStepInduction with
  | zero => simp [legendre]
  | one => simp [legendre]
  | more n h0 h1 =>
    have hn : (n : ℝ) + 2 ≠ 0 := by positivity
    rw [legendre, legendre, h0.1, h0.2, h1.1, h1.2]
    constructor
    · field_simp; ring
    · field_simp; ring

end Verif.Legendre
