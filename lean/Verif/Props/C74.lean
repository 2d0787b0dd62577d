import Verif.Proofs.Legendre
import Verif.Props.C03

/-!
# C74: the evaluators are Bardell's functions, the integrated Legendre polynomials
-/

set_option maxRecDepth 100000

namespace Verif.C74

open Spec Model Indep Legendre RuleCheck

/-! ## The exact functions -/

theorem flag_one (fl : Flags ℝ) (i : ℕ) (h : 4 ≤ i) : flag fl i = 1 := by
  obtain ⟨n, rfl⟩ : ∃ n, i = n + 4 := ⟨i - 4, by omega⟩
  rfl

/-- The second derivative of function `i ≥ 4` is the Legendre polynomial of degree `i - 2`. -/
theorem second (i : ℕ) (h : 4 ≤ i) (x : ℝ) (fl : Flags ℝ) :
    (bardellShape ℝ).fpp i x fl = legendre (i - 2) x := by
  obtain ⟨n, rfl⟩ : ∃ n, i = n + 2 := ⟨i - 2, by omega⟩
  have h1 : IsC 0 n (poly (pder (pder (bardell (n + 2))))) := (bardell_isC (n + 2) h).deriv.deriv
  show flag fl (n + 2) * pev (pder (pder (bardell (n + 2)))) x = _
  rw [flag_one fl _ h, one_mul, ← eval_poly, h1.unique (leg_isC n), eval_leg]
  rfl

theorem first_isC (n : ℕ) (h : 2 ≤ n) : ∃ p, IsC 1 n p := by
  rcases Nat.lt_or_ge n 3 with h3 | h3
  · obtain rfl : n = 2 := by omega
    refine ⟨poly [-1 / 2, 0, 1 / 2], ⟨fun k d hk => ?_, fun d hd => ?_⟩⟩
    · rw [coeff_poly]
      rcases Nat.lt_or_ge k 1 with h1 | h1
      · obtain rfl : k = 0 := by omega
        obtain rfl : d = 2 := by omega
        norm_num [cc, oddDF, fact]
      · obtain rfl : k = 1 := by omega
        obtain rfl : d = 0 := by omega
        norm_num [cc, oddDF, fact]
    · rw [coeff_poly]
      match d with
      | 0 => exact absurd rfl (hd 1)
      | 1 => norm_num
      | 2 => exact absurd rfl (hd 0)
      | d + 3 => simp
  · exact ⟨_, (bardell_isC (n + 1) (by omega)).deriv⟩

theorem first_eval {n : ℕ} {p : Polynomial ℝ} (hp : IsC 1 (n + 2) p) (x : ℝ) :
    p.eval x = (legendre (n + 2) x - legendre n x) / (2 * n + 3) := by
  have h := IsC.step (Nat.zero_le n) (leg_isC (n + 2)) (leg_isC n) hp
  have h' := congrArg (Polynomial.eval x) h
  simp only [Polynomial.eval_sub, Polynomial.eval_mul, Polynomial.eval_C, eval_leg] at h'
  have hn : (2 : ℝ) * n + 3 ≠ 0 := by positivity
  rw [eq_div_iff hn, h']
  push_cast
  ring

/-- The first derivative is its integral, a difference of two Legendre polynomials. -/
theorem first (i : ℕ) (h : 4 ≤ i) (x : ℝ) (fl : Flags ℝ) :
    (bardellShape ℝ).fp i x fl = (legendre (i - 1) x - legendre (i - 3) x) / (2 * i - 3) := by
  obtain ⟨n, rfl⟩ : ∃ n, i = n + 3 := ⟨i - 3, by omega⟩
  have h1 : IsC 1 (n + 2) (poly (pder (bardell (n + 3)))) := (bardell_isC (n + 3) h).deriv
  show flag fl (n + 3) * pev (pder (bardell (n + 3))) x = _
  rw [flag_one fl _ h, one_mul, ← eval_poly, first_eval h1]
  push_cast
  congr 1
  ring

/-- The function itself, integrated once more. -/
theorem value (i : ℕ) (h : 4 ≤ i) (x : ℝ) (fl : Flags ℝ) :
    (bardellShape ℝ).f i x fl = ((legendre i x - legendre (i - 2) x) / (2 * i - 1)
      - (legendre (i - 2) x - legendre (i - 4) x) / (2 * i - 5)) / (2 * i - 3) := by
  obtain ⟨n, rfl⟩ : ∃ n, i = n + 4 := ⟨i - 4, by omega⟩
  obtain ⟨p, hp⟩ := first_isC (n + 4) (by omega)
  obtain ⟨q, hq⟩ := first_isC (n + 2) (by omega)
  have h1 := IsC.step (e := 1) (N := n + 2) (by omega) hp hq (bardell_isC (n + 4) h)
  have h' := congrArg (Polynomial.eval x) h1
  simp only [Polynomial.eval_sub, Polynomial.eval_mul, Polynomial.eval_C, eval_poly,
    first_eval hp, first_eval hq] at h'
  show flag fl (n + 4) * pev (bardell (n + 4)) x = _
  have hn : (2 : ℝ) * (n + 4) - 3 ≠ 0 := by
    have : (0 : ℝ) ≤ n := Nat.cast_nonneg n
    linarith
  rw [flag_one fl _ h, one_mul]
  push_cast at h' ⊢
  rw [eq_div_iff hn,
    show (2 : ℝ) * (n + 4) - 1 = 2 * (n + 2) + 3 by ring,
    show (2 : ℝ) * (n + 4) - 5 = 2 * n + 3 by ring]
  refine Eq.trans ?_ h'.symm
  ring

/-- Both vanish at the two ends. -/
theorem ends (i : ℕ) (h : 4 ≤ i) (fl : Flags ℝ) :
    (bardellShape ℝ).f i 1 fl = 0 ∧ (bardellShape ℝ).f i (-1) fl = 0 ∧
    (bardellShape ℝ).fp i 1 fl = 0 ∧ (bardellShape ℝ).fp i (-1) fl = 0 := by
  rw [value i h, value i h, first i h, first i h]
  obtain ⟨n, rfl⟩ : ∃ n, i = n + 4 := ⟨i - 4, by omega⟩
  simp only [(legendre_ends _).1, (legendre_ends _).2, show n + 4 - 1 = n + 3 from rfl,
    show n + 4 - 2 = n + 2 from rfl, show n + 4 - 3 = n + 1 from rfl, show n + 4 - 4 = n from rfl,
    pow_succ]
  norm_num

theorem legendre_continuous : ∀ n : ℕ, Continuous (legendre n)
  | 0 => by simpa only [legendre] using continuous_const
  | 1 => by simpa only [legendre] using continuous_id'
  | n + 2 => by
    have h1 := legendre_continuous n
    have h2 := legendre_continuous (n + 1)
    simp only [legendre]
    fun_prop

/-- `x Pₙ` by the recursion. -/
theorem legendre_x (n : ℕ) (x : ℝ) :
    (2 * n + 3) * (x * legendre (n + 1) x) = (n + 2) * legendre (n + 2) x + (n + 1) * legendre n x := by
  have hn : (n : ℝ) + 2 ≠ 0 := by positivity
  have : legendre (n + 2) x = ((2 * n + 3) * x * legendre (n + 1) x - (n + 1) * legendre n x) / (n + 2) := by
    rw [legendre]
  rw [this]
  field_simp
  ring

/-- Inner product over the line segment. -/
noncomputable def inner (f g : ℝ → ℝ) : ℝ := ∫ x in (-1 : ℝ)..1, f x * g x

theorem inner_comm (f g : ℝ → ℝ) : inner f g = inner g f := by
  unfold inner
  simp only [mul_comm]

theorem inner_step (f : ℝ → ℝ) (hf : Continuous f) (n : ℕ) :
    (2 * n + 3) * (∫ x in (-1 : ℝ)..1, f x * (x * legendre (n + 1) x))
      = (n + 2) * inner f (legendre (n + 2)) + (n + 1) * inner f (legendre n) := by
  have h0 := legendre_continuous n
  have h1 := legendre_continuous (n + 1)
  have h2 := legendre_continuous (n + 2)
  unfold inner
  simp only [← intervalIntegral.integral_const_mul]
  rw [← intervalIntegral.integral_add]
  · refine intervalIntegral.integral_congr fun x _ => ?_
    have := legendre_x n x
    show (2 * (n : ℝ) + 3) * (f x * (x * legendre (n + 1) x)) = _
    linear_combination f x * this
  · exact ((hf.mul h2).const_mul _).intervalIntegrable _ _
  · exact ((hf.mul h0).const_mul _).intervalIntegrable _ _

theorem mean_zero (n : ℕ) : ∫ x in (-1 : ℝ)..1, legendre (n + 1) x = 0 := by
  rcases n with _ | n
  · simp [legendre]
  · have h1 : ∀ x, HasDerivAt (fun x => (bardellShape ℝ).fp (n + 4) x ⟨1, 1, 1, 1⟩)
        (legendre (n + 2) x) x := fun x => by
      have := bardellShape_C2.d2 (n + 4) x ⟨1, 1, 1, 1⟩
      rwa [second (n + 4) (by omega)] at this
    rw [intervalIntegral.integral_eq_sub_of_hasDerivAt (fun x _ => h1 x)
      ((legendre_continuous _).intervalIntegrable _ _)]
    obtain ⟨-, -, e1, e2⟩ := ends (n + 4) (by omega) ⟨1, 1, 1, 1⟩
    rw [e1, e2, sub_zero]

theorem inner_lt : ∀ m n : ℕ, m < n → inner (legendre m) (legendre n) = 0
  | 0, n, h => by
    obtain ⟨k, rfl⟩ : ∃ k, n = k + 1 := ⟨n - 1, by omega⟩
    simpa [inner, legendre] using mean_zero k
  | 1, n, h => by
    obtain ⟨k, rfl⟩ : ∃ k, n = k + 2 := ⟨n - 2, by omega⟩
    have := inner_step (legendre 0) (legendre_continuous 0) (k + 1)
    rw [inner_lt 0 (k + 1 + 2) (by omega), inner_lt 0 (k + 1) (by omega), mul_zero, mul_zero,
      add_zero] at this
    have h3 : (2 : ℝ) * ((k + 1 : ℕ) : ℝ) + 3 ≠ 0 := by positivity
    simpa [inner, legendre] using (mul_eq_zero.1 this).resolve_left h3
  | m + 2, n, h => by
    obtain ⟨k, rfl⟩ : ∃ k, n = k + 2 := ⟨n - 2, by omega⟩
    have e1 := inner_step (legendre (k + 2)) (legendre_continuous _) m
    have e2 := inner_step (legendre (m + 1)) (legendre_continuous _) (k + 1)
    rw [inner_lt (m + 1) (k + 1 + 2) (by omega), inner_lt (m + 1) (k + 1) (by omega), mul_zero,
      mul_zero, add_zero] at e2
    have h3 : (2 : ℝ) * ((k + 1 : ℕ) : ℝ) + 3 ≠ 0 := by positivity
    have e2 := (mul_eq_zero.1 e2).resolve_left h3
    have e3 : (∫ x in (-1 : ℝ)..1, legendre (k + 2) x * (x * legendre (m + 1) x)) = 0 := by
      rw [← e2]
      refine intervalIntegral.integral_congr fun x _ => ?_
      show _ = legendre (m + 1) x * (x * legendre (k + 2) x)
      ring
    rw [e3, mul_zero, inner_comm _ (legendre m), inner_lt m (k + 2) (by omega), mul_zero, add_zero] at e1
    have h4 : (m : ℝ) + 2 ≠ 0 := by positivity
    rw [inner_comm]
    exact (mul_eq_zero.1 e1.symm).resolve_left h4

theorem inner_self (n : ℕ) : inner (legendre n) (legendre n) = 2 / (2 * n + 1) := by
  induction n with
  | zero => simp [inner, legendre]; norm_num
  | succ n ih =>
    have e1 := inner_step (legendre n) (legendre_continuous _) n
    rw [inner_lt n (n + 2) (by omega), mul_zero, zero_add, ih] at e1
    have e2 : (∫ x in (-1 : ℝ)..1, legendre n x * (x * legendre (n + 1) x))
        = (n + 1) / (2 * n + 1) * inner (legendre (n + 1)) (legendre (n + 1)) := by
      have e : (∫ x in (-1 : ℝ)..1, legendre n x * (x * legendre (n + 1) x))
          = ∫ x in (-1 : ℝ)..1, legendre (n + 1) x * (x * legendre n x) :=
        intervalIntegral.integral_congr fun x _ => by
          show legendre n x * (x * legendre (n + 1) x) = legendre (n + 1) x * (x * legendre n x)
          ring
      rw [e]
      rcases n with _ | n
      · simp [inner, legendre]
      · have e3 := inner_step (legendre (n + 1 + 1)) (legendre_continuous _) n
        rw [inner_comm _ (legendre n), inner_lt n (n + 1 + 1) (by omega), mul_zero, add_zero] at e3
        have h3 : (2 : ℝ) * n + 3 ≠ 0 := by positivity
        have h4 : (2 : ℝ) * ((n + 1 : ℕ) : ℝ) + 1 ≠ 0 := by positivity
        rw [div_mul_eq_mul_div, eq_div_iff h4]
        push_cast
        rw [mul_comm, show (2 : ℝ) * (n + 1) + 1 = 2 * n + 3 by ring, e3]
        ring
    rw [e2] at e1
    have h1 : (2 : ℝ) * n + 1 ≠ 0 := by positivity
    have h2 : (2 : ℝ) * n + 3 ≠ 0 := by positivity
    have h3 : (n : ℝ) + 1 ≠ 0 := by positivity
    push_cast
    rw [show (2 : ℝ) * (n + 1) + 1 = 2 * n + 3 by ring, eq_div_iff h2]
    field_simp at e1
    linarith

/-- The Legendre polynomials are orthogonal: all degrees. -/
theorem legendre_orthogonal (m n : ℕ) : ∫ x in (-1 : ℝ)..1, legendre m x * legendre n x
    = if m = n then 2 / (2 * (n : ℝ) + 1) else 0 := by
  rcases lt_trichotomy m n with h | rfl | h
  · rw [if_neg h.ne]
    exact inner_lt m n h
  · rw [if_pos rfl]
    exact inner_self m
  · rw [if_neg h.ne']
    exact (inner_comm _ _).trans (inner_lt n m h)

/-- The second derivatives of the functions `i ≥ 4` are orthogonal, for any number of them. -/
theorem orthogonal (i j : ℕ) (hi : 4 ≤ i) (hj : 4 ≤ j) (fa fb : Flags ℝ) :
    ∫ x in (-1 : ℝ)..1, (bardellShape ℝ).fpp i x fa * (bardellShape ℝ).fpp j x fb
      = if i = j then (2 : ℝ) / (2 * (i : ℝ) - 3) else 0 := by
  simp only [second i hi, second j hj, legendre_orthogonal]
  by_cases hij : i = j
  · subst hij
    rw [if_pos rfl, if_pos rfl, Nat.cast_sub (by omega)]
    push_cast
    congr 1
    ring
  · rw [if_neg (by omega), if_neg hij]

/-- The printed integrals of the products of second derivatives beyond the cubics: a diagonal. -/
theorem table_diagonal (i j : ℕ) (hi : 4 ≤ i) (hj : 4 ≤ j) (hi' : i < 30) (hj' : j < 30)
    (fa fb : Flags ℝ) :
    |(intTab ℝ).fppfpp i j fa fb - (if i = j then (2 : ℝ) / (2 * (i : ℝ) - 3) else 0)| ≤ 1 / 10 ^ 15 := by
  have h := (C03.integral_tables i j hi' hj' fa fb).2.2.2.2.2
  simp only [orthogonal i j hi hj, flag_one _ i hi, flag_one _ j hj, abs_one, mul_one] at h
  exact h

/-! ## The printed functions -/

/-- `∑ |aₖ - bₖ|`. -/
def gap (a b : List ℚ) : ℚ := match a, b with
  | [], b => (b.map abs).sum
  | a, [] => (a.map abs).sum
  | x :: a, y :: b => |x - y| + gap a b

theorem pev_le (b : List ℚ) {x : ℝ} (hx : |x| ≤ 1) : |pev b x| ≤ (((b.map abs).sum : ℚ) : ℝ) := by
  induction b with
  | nil => simp [pev]
  | cons c b ih =>
    simp only [pev, List.map_cons, List.sum_cons]
    push_cast
    refine (abs_add_le _ _).trans (add_le_add le_rfl ?_)
    rw [abs_mul]
    calc |x| * |pev b x| ≤ 1 * |pev b x| := mul_le_mul_of_nonneg_right hx (abs_nonneg _)
      _ ≤ _ := by rw [one_mul]; exact_mod_cast ih

theorem gap_sound (a b : List ℚ) {x : ℝ} (hx : |x| ≤ 1) : |pev a x - pev b x| ≤ (gap a b : ℝ) := by
  induction a generalizing b with
  | nil =>
    rw [gap, pev, zero_sub, abs_neg]
    exact pev_le b hx
  | cons c a ih =>
    cases b with
    | nil =>
      have : gap (c :: a) [] = ((c :: a).map abs).sum := rfl
      rw [this, show pev ([] : List ℚ) x = 0 from rfl, sub_zero]
      exact pev_le (c :: a) hx
    | cons d b =>
      simp only [pev, gap]
      push_cast
      have e : (c : ℝ) + x * pev a x - (d + x * pev b x) = (c - d) + x * (pev a x - pev b x) := by ring
      rw [e]
      refine (abs_add_le _ _).trans (add_le_add le_rfl ?_)
      rw [abs_mul]
      calc |x| * |pev a x - pev b x| ≤ 1 * |pev a x - pev b x| :=
            mul_le_mul_of_nonneg_right hx (abs_nonneg _)
        _ ≤ _ := by rw [one_mul]; exact ih b

/-- All 30 rows of a table are within `B` of given polynomials. -/
def nearOK (T : List Gen.FRow) (p : ℕ → List ℚ) (B : ℚ) : Bool :=
  (List.range 30).all fun i => decide (gap (lst T i) (p i) ≤ B)

theorem near_sound {T : List Gen.FRow} (hT : rowOK T = true) {p : ℕ → List ℚ} {B : ℚ}
    (h : nearOK T p B = true) (i : ℕ) (hi : i < 30) {x : ℝ} (hx : |x| ≤ 1) (fl : Flags ℝ) :
    |tabVal T i x fl - flag fl i * pev (p i) x| ≤ |flag fl i| * B := by
  have h1 := of_decide_eq_true (List.all_eq_true.1 h i (List.mem_range.2 hi))
  rw [tabVal_eq hT i hi, ← mul_sub, abs_mul]
  refine mul_le_mul_of_nonneg_left ((gap_sound _ _ hx).trans ?_) (abs_nonneg _)
  exact_mod_cast h1

theorem near_ok : nearOK Gen.sc_f bardell (4 / 10 ^ 9) = true ∧
    nearOK Gen.sc_fp (fun i => pder (bardell i)) (2 / 10 ^ 7) = true ∧
    nearOK Gen.sc_fpp (fun i => pder (pder (bardell i))) (1 / 10 ^ 6) = true := by decide +kernel

/-- Every printed evaluator is Bardell's function (derivative, second derivative) to the accuracy of
the printed decimals, for any flags. -/
theorem printed (i : ℕ) (hi : i < 30) (x : ℝ) (hx : |x| ≤ 1) (fl : Flags ℝ) :
    |(vecShape ℝ).f i x fl - (bardellShape ℝ).f i x fl| ≤ |flag fl i| * (4 / 10 ^ 9) ∧
    |(vecShape ℝ).fp i x fl - (bardellShape ℝ).fp i x fl| ≤ |flag fl i| * (2 / 10 ^ 7) ∧
    |(vecShape ℝ).fpp i x fl - (bardellShape ℝ).fpp i x fl| ≤ |flag fl i| * (1 / 10 ^ 6) := by
  rw [C01.vec_eq_scalar]
  obtain ⟨h0, h1, h2⟩ := near_ok
  have e0 := near_sound row_f h0 i hi hx fl
  have e1 := near_sound row_fp h1 i hi hx fl
  have e2 := near_sound row_fpp h2 i hi hx fl
  push_cast at e0 e1 e2
  exact ⟨e0, e1, e2⟩

theorem exact_ok : (List.range 16).all (fun i => gap (lst Gen.sc_fp i) (pder (bardell i)) == 0 &&
    gap (lst Gen.sc_fpp i) (pder (pder (bardell i))) == 0) = true ∧
    (List.range 6).all (fun i => gap (lst Gen.sc_f i) (bardell i) == 0) = true := by decide +kernel

/-- Up to the sixteenth term the two derivatives are exact on the whole line segment. -/
theorem printed_exact (i : ℕ) (hi : i < 16) (x : ℝ) (hx : |x| ≤ 1) (fl : Flags ℝ) :
    (vecShape ℝ).fp i x fl = (bardellShape ℝ).fp i x fl ∧
    (vecShape ℝ).fpp i x fl = (bardellShape ℝ).fpp i x fl := by
  rw [C01.vec_eq_scalar]
  have h := List.all_eq_true.1 exact_ok.1 i (List.mem_range.2 hi)
  rw [Bool.and_eq_true] at h
  have z : ∀ {a b : List ℚ}, (gap a b == 0) = true → pev a x = pev b x := by
    intro a b hab
    have := gap_sound a b hx
    rw [eq_of_beq hab, Rat.cast_zero] at this
    exact sub_eq_zero.1 (abs_nonpos_iff.1 this)
  constructor
  · exact (tabVal_eq row_fp i (by omega) x fl).trans (congrArg _ (z h.1))
  · exact (tabVal_eq row_fpp i (by omega) x fl).trans (congrArg _ (z h.2))

/-- The printed second derivatives are the Legendre polynomials. -/
theorem printed_second (i : ℕ) (h : 4 ≤ i) (hi : i < 30) (x : ℝ) (hx : |x| ≤ 1) (fl : Flags ℝ) :
    |(vecShape ℝ).fpp i x fl - legendre (i - 2) x| ≤ 1 / 10 ^ 6 := by
  have := (printed i hi x hx fl).2.2
  rwa [second i h, flag_one fl i h, abs_one, one_mul] at this

example : legendre 3 (1 / 2) = -7 / 16 := by norm_num [legendre]

example : (vecShape ℝ).fpp 5 (1 / 2) ⟨1, 0, 1, 1⟩ = -7 / 16 := by
  rw [(printed_exact 5 (by norm_num) (1 / 2) (by norm_num [abs_of_pos]) _).2,
    second 5 (by norm_num)]
  norm_num [legendre]

end Verif.C74
