import Verif.Spec.Field
import Verif.Spec.Support
import Mathlib.Algebra.Polynomial.Roots
import Mathlib.Algebra.Polynomial.BigOperators
import Mathlib.Data.Real.Basic
import Mathlib.Tactic.Linarith

/-!
# Independence of the shape functions
-/

namespace Verif.Indep

open Polynomial Finset Spec

/-- A sum `∑ aᵢ φᵢ` that vanishes on `A` has `aᵢ = 0` for the terms in `act`. -/
def Sep (φ : ℕ → ℝ → ℝ) (m : ℕ) (A : Set ℝ) (act : ℕ → Prop) : Prop :=
  ∀ a : ℕ → ℝ, (∀ x ∈ A, ∑ i ∈ range m, a i * φ i x = 0) → ∀ i < m, act i → a i = 0

/-- Products of two families that separate separate. -/
theorem Sep.prod {φ ψ : ℕ → ℝ → ℝ} {m n : ℕ} {A B : Set ℝ} {p q : ℕ → Prop} (hφ : Sep φ m A p)
    (hψ : Sep ψ n B q) (c : ℕ → ℕ → ℝ)
    (h : ∀ x ∈ A, ∀ y ∈ B, ∑ i ∈ range m, ∑ j ∈ range n, c i j * (φ i x * ψ j y) = 0)
    {i j : ℕ} (hi : i < m) (hj : j < n) (hp : p i) (hq : q j) : c i j = 0 := by
  refine hψ (c i) (fun y hy => ?_) j hj hq
  refine hφ (fun i => ∑ j ∈ range n, c i j * ψ j y) (fun x hx => ?_) i hi hp
  rw [← h x hx y hy]
  refine sum_congr rfl fun i _ => ?_
  rw [sum_mul]
  exact sum_congr rfl fun j _ => by ring

/-- The coefficients of the four cubic functions (`k = 0`) and of their derivatives. -/
def base (k i d : ℕ) : ℚ :=
  match k, i, d with
  | 0, 0, 0 => 1 / 2 | 0, 0, 1 => -3 / 4 | 0, 0, 3 => 1 / 4
  | 0, 1, 0 => 1 / 8 | 0, 1, 1 => -1 / 8 | 0, 1, 2 => -1 / 8 | 0, 1, 3 => 1 / 8
  | 0, 2, 0 => 1 / 2 | 0, 2, 1 => 3 / 4 | 0, 2, 3 => -1 / 4
  | 0, 3, 0 => -1 / 8 | 0, 3, 1 => -1 / 8 | 0, 3, 2 => 1 / 8 | 0, 3, 3 => 1 / 8
  | 1, 0, 0 => -3 / 4 | 1, 0, 2 => 3 / 4
  | 1, 1, 0 => -1 / 8 | 1, 1, 1 => -1 / 4 | 1, 1, 2 => 3 / 8
  | 1, 2, 0 => 3 / 4 | 1, 2, 2 => -3 / 4
  | 1, 3, 0 => -1 / 8 | 1, 3, 1 => 1 / 4 | 1, 3, 2 => 3 / 8
  | 2, 0, 1 => 3 / 2
  | 2, 1, 0 => -1 / 4 | 2, 1, 1 => 3 / 4
  | 2, 2, 1 => -3 / 2
  | 2, 3, 0 => 1 / 4 | 2, 3, 1 => 3 / 4
  | _, _, _ => 0

/-- `k`-th derivatives of a hierarchical family: the four cubics, then degree `i` in term `i`. -/
structure Fam (k N : ℕ) (q : ℕ → ℝ[X]) : Prop where
  deg : ∀ i, 4 ≤ i → i < N → (q i).natDegree ≤ i - k
  lead : ∀ i, 4 ≤ i → i < N → (q i).coeff (i - k) ≠ 0
  low : ∀ i, i < 4 → ∀ d, (q i).coeff d = (base k i d : ℝ)

theorem base_zero {k i d : ℕ} (h : 4 - k ≤ d) (hk : k ≤ 2) : base k i d = 0 := by
  unfold base
  split <;> first | rfl | (exfalso; omega)

/-- If `∑ bᵢ qᵢ` has more zeros than its degree then every higher `bᵢ` is 0 and the cubic part
vanishes. -/
theorem Fam.zero {k N : ℕ} {q : ℕ → ℝ[X]} (hq : Fam k N q) (hk : k ≤ 2) (m : ℕ) (hm : m ≤ N)
    (b : ℕ → ℝ) (s : Finset ℝ) (hs : max 3 (m - 1) < s.card)
    (h : ∀ x ∈ s, ∑ i ∈ range m, b i * (q i).eval x = 0) :
    (∀ i, 4 ≤ i → i < m → b i = 0) ∧
      ∀ d, ∑ i ∈ range 4, (if i < m then b i else 0) * (base k i d : ℝ) = 0 := by
  have hdeg : ∀ i, i < 4 → (q i).natDegree ≤ 3 - k := fun i hi =>
    natDegree_le_iff_coeff_eq_zero.2 fun d hd => by
      rw [hq.low i hi, base_zero (by omega) hk, Rat.cast_zero]
  have hp : ∑ i ∈ range m, C (b i) * q i = 0 := by
    refine eq_zero_of_natDegree_lt_card_of_eval_eq_zero' _ s (fun x hx => ?_) (lt_of_le_of_lt ?_ hs)
    · rw [eval_finset_sum, ← h x hx]
      exact sum_congr rfl fun i _ => by rw [eval_mul, eval_C]
    · refine natDegree_sum_le_of_forall_le _ _ fun i hi => ?_
      refine (natDegree_C_mul_le _ _).trans ?_
      have him := mem_range.1 hi
      by_cases h4 : i < 4
      · have := hdeg i h4; omega
      · have := hq.deg i (by omega) (by omega); omega
  have hc : ∀ d, ∑ i ∈ range m, b i * (q i).coeff d = 0 := fun d => by
    have := congrArg (fun p => coeff p d) hp
    simpa only [finset_sum_coeff, coeff_C_mul, coeff_zero] using this
  have high : ∀ t i, m - i ≤ t → 4 ≤ i → i < m → b i = 0 := by
    intro t
    induction t with
    | zero => intro i h1 _ h3; omega
    | succ t ih =>
      intro i h1 h2 h3
      have e := hc (i - k)
      rw [sum_eq_single i] at e
      · exact (mul_eq_zero.1 e).resolve_right (hq.lead i h2 (by omega))
      · intro j hj hne
        have hjm := mem_range.1 hj
        rcases Nat.lt_or_gt_of_ne hne with hlt | hgt
        · rw [coeff_eq_zero_of_natDegree_lt, mul_zero]
          by_cases h4 : j < 4
          · have := hdeg j h4; omega
          · have := hq.deg j (by omega) (by omega); omega
        · rw [ih j (by omega) (by omega) hjm, zero_mul]
      · intro hn; exact absurd (mem_range.2 h3) hn
  refine ⟨fun i h1 h2 => high m i (by omega) h1 h2, fun d => Eq.trans ?_ (hc d)⟩
  have e1 : ∑ i ∈ range m, b i * (q i).coeff d
      = ∑ i ∈ range m with i < 4, b i * (base k i d : ℝ) := by
    rw [sum_filter]
    refine sum_congr rfl fun i hi => ?_
    by_cases h4 : i < 4
    · rw [if_pos h4, hq.low i h4]
    · rw [if_neg h4, high m i (by omega) (by omega) (mem_range.1 hi), zero_mul]
  have e2 : ∑ i ∈ range 4, (if i < m then b i else 0) * (base k i d : ℝ)
      = ∑ i ∈ range 4 with i < m, b i * (base k i d : ℝ) := by
    rw [sum_filter]
    exact sum_congr rfl fun i _ => by split <;> simp
  rw [e1, e2]
  refine sum_congr (Finset.ext fun i => ?_) fun _ _ => rfl
  simp only [mem_filter, mem_range]
  tauto

/-- What has to be fixed so that the `k`-th derivatives are independent. -/
def Fixed (k : ℕ) (fl : Flags ℝ) : Prop :=
  match k with
  | 0 => True
  | 1 => Held fl
  | _ => Bent fl

/-- The terms of a family that are switched on are independent on every set with enough points. -/
theorem Fam.sep {k N : ℕ} {q : ℕ → ℝ[X]} (hq : Fam k N q) (hk : k ≤ 2) {m : ℕ} (hm : m ≤ N)
    {A : Set ℝ} {s : Finset ℝ} (hsA : ∀ x ∈ s, x ∈ A) (hs : max 3 (m - 1) < s.card)
    (fl : Flags ℝ) (hf : Fixed k fl) :
    Sep (fun i x => Spec.flag fl i * (q i).eval x) m A fun i => Spec.flag fl i ≠ 0 := by
  intro a h i hi hact
  obtain ⟨h4, h0⟩ := hq.zero hk m hm (fun i => a i * Spec.flag fl i) s hs fun x hx => by
    rw [← h x (hsA x hx)]
    exact sum_congr rfl fun i _ => by ring
  by_cases hi4 : 4 ≤ i
  · exact (mul_eq_zero.1 (h4 i hi4 hi)).resolve_right hact
  · set e : ℕ → ℝ := fun i => if i < m then a i * Spec.flag fl i else 0 with he
    have hz : ∀ j, Spec.flag fl j = 0 → e j = 0 := fun j hj => by simp [he, hj]
    have hsum : ∀ d, e 0 * base k 0 d + e 1 * base k 1 d + e 2 * base k 2 d + e 3 * base k 3 d = 0 := by
      intro d
      have := h0 d
      rwa [sum_range_succ, sum_range_succ, sum_range_succ, sum_range_succ, sum_range_zero,
        zero_add] at this
    have hall : e 0 = 0 ∧ e 1 = 0 ∧ e 2 = 0 ∧ e 3 = 0 := by
      have s0 := hsum 0
      have s1 := hsum 1
      have s2 := hsum 2
      have s3 := hsum 3
      have f0 : fl.t1 = 0 → e 0 = 0 := hz 0
      have f1 : fl.r1 = 0 → e 1 = 0 := hz 1
      have f2 : fl.t2 = 0 → e 2 = 0 := hz 2
      have f3 : fl.r2 = 0 → e 3 = 0 := hz 3
      match k, hk with
      | 0, _ =>
        simp only [base] at s0 s1 s2 s3
        push_cast at s0 s1 s2 s3
        refine ⟨?_, ?_, ?_, ?_⟩ <;> linarith
      | 1, _ =>
        simp only [base] at s0 s1 s2 s3
        push_cast at s0 s1 s2 s3
        rcases hf with hf | hf
        · have := f0 hf
          refine ⟨?_, ?_, ?_, ?_⟩ <;> linarith
        · have := f2 hf
          refine ⟨?_, ?_, ?_, ?_⟩ <;> linarith
      | 2, _ =>
        simp only [base] at s0 s1 s2 s3
        push_cast at s0 s1 s2 s3
        rcases hf with ⟨g, g' | g' | g'⟩ | ⟨g, g' | g'⟩
        · have := f0 g; have := f2 g'; refine ⟨?_, ?_, ?_, ?_⟩ <;> linarith
        · have := f0 g; have := f1 g'; refine ⟨?_, ?_, ?_, ?_⟩ <;> linarith
        · have := f0 g; have := f3 g'; refine ⟨?_, ?_, ?_, ?_⟩ <;> linarith
        · have := f2 g; have := f1 g'; refine ⟨?_, ?_, ?_, ?_⟩ <;> linarith
        · have := f2 g; have := f3 g'; refine ⟨?_, ?_, ?_, ?_⟩ <;> linarith
    have hei : e i = 0 := by
      obtain ⟨g0, g1, g2, g3⟩ := hall
      match i, hi4 with
      | 0, _ => exact g0
      | 1, _ => exact g1
      | 2, _ => exact g2
      | 3, _ => exact g3
      | i + 4, h => exact absurd (by omega) h
    rw [he] at hei
    simp only [if_pos hi] at hei
    exact (mul_eq_zero.1 hei).resolve_right hact

/-- The functions and derivatives of `S` are flags times the polynomials of a hierarchical family of
`N` terms. -/
def Hier (S : Shape ℝ) (N : ℕ) : Prop :=
  ∃ q : ℕ → ℕ → ℝ[X], ∀ k ≤ 2, Fam k N (q k) ∧
    ∀ i < N, ∀ x fl, S.D k i x fl = Spec.flag fl i * (q k i).eval x

theorem Hier.sep {S : Shape ℝ} {N : ℕ} (hS : Hier S N) {k : ℕ} (hk : k ≤ 2) {m : ℕ} (hm : m ≤ N)
    {A : Set ℝ} {s : Finset ℝ} (hsA : ∀ x ∈ s, x ∈ A) (hs : max 3 (m - 1) < s.card)
    (fl : Flags ℝ) (hf : Fixed k fl) :
    Sep (fun i x => S.D k i x fl) m A fun i => Spec.flag fl i ≠ 0 := by
  obtain ⟨q, hq⟩ := hS
  obtain ⟨h1, h2⟩ := hq k hk
  intro a h
  refine h1.sep hk hm hsA hs fl hf a fun x hx => ?_
  rw [← h x hx]
  refine sum_congr rfl fun i hi => ?_
  have := mem_range.1 hi
  exact congrArg (a i * ·) (h2 i (by omega) x fl).symm

theorem Hier.off {S : Shape ℝ} {N : ℕ} (hS : Hier S N) {k : ℕ} (hk : k ≤ 2) {i : ℕ} (hi : i < N)
    (x : ℝ) {fl : Flags ℝ} (h : Spec.flag fl i = 0) : S.D k i x fl = 0 := by
  obtain ⟨q, hq⟩ := hS
  rw [(hq k hk).2 i hi, h, zero_mul]

end Verif.Indep
