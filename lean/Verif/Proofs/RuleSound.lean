import Verif.Proofs.RuleCheckA
import Verif.Proofs.RuleCheckB
import Verif.Proofs.RuleCheckC

/-!
# Soundness of the comparison of the integral tables with the Gauss sums
-/

namespace Verif.RuleCheck

open Model Spec IntCheck Finset

theorem pev_range (g : ℕ → ℚ) (x : ℝ) : ∀ N : ℕ,
    pev ((List.range N).map g) x = ∑ k ∈ range N, (g k : ℝ) * x ^ k := by
  intro N
  induction N generalizing g with
  | zero => simp [pev]
  | succ N ih =>
    rw [List.range_succ_eq_map, List.map_cons, pev, List.map_map, ih, Finset.sum_range_succ',
      Finset.mul_sum, add_comm]
    congr 1
    · exact Finset.sum_congr rfl fun k _ => by simp [pow_succ]; ring
    · simp

theorem sum_powers (l : List (ℕ × ℤ × ℕ)) (N : ℕ) (h : ∀ t ∈ l, t.1 < N) (x : ℝ) :
    ∑ k ∈ range N, ((((l.filter fun t => t.1 == k).map fun t => dec t.2.1 t.2.2).sum : ℚ) : ℝ)
      * x ^ k = (l.map fun t => ((dec t.2.1 t.2.2 : ℚ) : ℝ) * x ^ t.1).sum := by
  induction l with
  | nil => simp
  | cons t l ih =>
    rw [List.map_cons, List.sum_cons, ← ih fun s hs => h s (List.mem_cons_of_mem _ hs)]
    have ht := h t (List.mem_cons_self ..)
    have e : ∀ k ∈ range N,
        (((((t :: l).filter fun t => t.1 == k).map fun t => dec t.2.1 t.2.2).sum : ℚ) : ℝ) * x ^ k
        = (if t.1 = k then ((dec t.2.1 t.2.2 : ℚ) : ℝ) * x ^ t.1 else 0)
          + ((((l.filter fun t => t.1 == k).map fun t => dec t.2.1 t.2.2).sum : ℚ) : ℝ) * x ^ k := by
      intro k _
      by_cases hk : t.1 = k
      · simp only [List.filter_cons, hk, beq_self_eq_true, if_true, List.map_cons, List.sum_cons]
        push_cast; ring
      · have : (t.1 == k) = false := by simpa using hk
        simp only [List.filter_cons, this, if_neg hk, zero_add, Bool.false_eq_true, if_false]
    rw [Finset.sum_congr rfl e, Finset.sum_add_distrib, Finset.sum_ite_eq, if_pos (mem_range.2 ht)]

theorem tabVal_eq {T : List Gen.FRow} (h : rowOK T = true) (i : ℕ) (hi : i < 30) (x : ℝ)
    (fl : Flags ℝ) : tabVal T i x fl = flag fl i * pev (lst T i) x := by
  rw [rowOK, List.all_eq_true] at h
  have h1 := h i (List.mem_range.2 hi)
  unfold tabVal lst
  rcases hr : T[i]? with _ | r
  · rw [hr] at h1; exact absurd h1 (by simp)
  · rw [hr] at h1
    simp only [Bool.and_eq_true, beq_iff_eq] at h1
    simp only [rowVal]
    rw [h1.1.1, get_min, pev_range, sum_powers]
    intro t ht
    have := List.all_eq_true.1 h1.1.2 t ht
    have := Nat.le_of_ble_eq_true this
    omega

/-- Sum of the absolute values of the coefficients. -/
def mag (p : List ℚ) : ℚ := (p.map fun c => |c|).sum

theorem mag_nonneg (p : List ℚ) : 0 ≤ mag p :=
  List.sum_nonneg fun c hc => by
    obtain ⟨d, _, rfl⟩ := List.mem_map.1 hc
    exact abs_nonneg d

theorem mag_padd (p q : List ℚ) : mag (padd p q) ≤ mag p + mag q := by
  induction p generalizing q with
  | nil => simp [padd, mag]
  | cons a p ih =>
    cases q with
    | nil => simp [padd, mag]
    | cons b q =>
      have := ih q
      simp only [padd, mag, List.map_cons, List.sum_cons] at this ⊢
      have := abs_add_le a b
      linarith

theorem mag_psmul (a : ℚ) (p : List ℚ) : mag (psmul a p) = |a| * mag p := by
  induction p with
  | nil => simp [psmul, mag]
  | cons b p ih =>
    simp only [psmul, mag, List.map_cons, List.sum_cons] at ih ⊢
    rw [ih, abs_mul]; ring

theorem mag_pmul (p q : List ℚ) : mag (pmul p q) ≤ mag p * mag q := by
  induction p with
  | nil => simp [pmul, mag]
  | cons a p ih =>
    have h1 := mag_padd (psmul a q) (0 :: pmul p q)
    rw [mag_psmul] at h1
    have e1 : mag (0 :: pmul p q) = mag (pmul p q) := by simp [mag]
    have e2 : mag (a :: p) = |a| + mag p := by simp [mag]
    rw [e1] at h1
    rw [pmul, e2, add_mul]
    linarith

theorem length_padd (p q : List ℚ) : (padd p q).length = max p.length q.length := by
  induction p generalizing q with
  | nil => simp [padd]
  | cons a p ih =>
    cases q with
    | nil => simp [padd]
    | cons b q => simp only [padd, List.length_cons, ih]; omega

theorem length_pmul (p q : List ℚ) (hq : 1 ≤ q.length) :
    (pmul p q).length ≤ p.length + q.length - 1 := by
  induction p with
  | nil => simp [pmul]
  | cons a p ih =>
    rw [pmul, length_padd]
    simp only [psmul, List.length_map, List.length_cons]
    omega

theorem mom_eq (k : ℕ) : ((mom k : ℚ) : ℝ) = if k % 2 = 0 then 2 / ((k : ℝ) + 1) else 0 := by
  unfold mom
  split <;> simp

/-- The Gauss sum of a polynomial is its integral up to `10^-53` times its coefficients. -/
theorem rule_pev (n : ℕ) (h2 : 2 ≤ n) (h64 : n ≤ 64) (l : List ℚ) : ∀ k, k + l.length ≤ 2 * n →
    |∑ i ∈ range n, (gaussTab ℝ).wt n i * ((gaussTab ℝ).pt n i ^ k * pev l ((gaussTab ℝ).pt n i))
      - ((pintFrom k l : ℚ) : ℝ)| ≤ 1 / 10 ^ 53 * ((mag l : ℚ) : ℝ) := by
  induction l with
  | nil => intro k _; simp [pev, pintFrom, mag]
  | cons c l ih =>
    intro k hk
    simp only [List.length_cons] at hk
    have h1 := ih (k + 1) (by omega)
    have h0 := GaussCheck.moment (K := ℝ) n h2 h64 k (by omega)
    rw [← mom_eq] at h0
    have e : ∑ i ∈ range n, (gaussTab ℝ).wt n i *
          ((gaussTab ℝ).pt n i ^ k * pev (c :: l) ((gaussTab ℝ).pt n i))
        - ((pintFrom k (c :: l) : ℚ) : ℝ)
        = (c : ℝ) * (∑ i ∈ range n, (gaussTab ℝ).wt n i * (gaussTab ℝ).pt n i ^ k - ((mom k : ℚ) : ℝ))
          + (∑ i ∈ range n, (gaussTab ℝ).wt n i *
              ((gaussTab ℝ).pt n i ^ (k + 1) * pev l ((gaussTab ℝ).pt n i))
            - ((pintFrom (k + 1) l : ℚ) : ℝ)) := by
      have : ∀ i, (gaussTab ℝ).wt n i *
          ((gaussTab ℝ).pt n i ^ k * pev (c :: l) ((gaussTab ℝ).pt n i))
          = (c : ℝ) * ((gaussTab ℝ).wt n i * (gaussTab ℝ).pt n i ^ k)
            + (gaussTab ℝ).wt n i *
              ((gaussTab ℝ).pt n i ^ (k + 1) * pev l ((gaussTab ℝ).pt n i)) := by
        intro i; rw [pev, pow_succ]; ring
      simp only [this, Finset.sum_add_distrib, ← Finset.mul_sum, pintFrom]
      push_cast; ring
    rw [e]
    refine (abs_add_le _ _).trans ?_
    rw [abs_mul]
    have e2 : ((mag (c :: l) : ℚ) : ℝ) = |(c : ℝ)| + ((mag l : ℚ) : ℝ) := by
      simp [mag]
    rw [e2, mul_add]
    have := mul_le_mul_of_nonneg_left h0 (abs_nonneg (c : ℝ))
    linarith

theorem lst_length {T : List Gen.FRow} (h : rowOK T = true) (i : ℕ) (hi : i < 30) :
    (lst T i).length = max i 3 + 1 ∧ mag (lst T i) ≤ 10 ^ 10 := by
  rw [rowOK, List.all_eq_true] at h
  have h1 := h i (List.mem_range.2 hi)
  rcases hr : T[i]? with _ | r
  · rw [hr] at h1; exact absurd h1 (by simp)
  · rw [hr] at h1
    simp only [Bool.and_eq_true, decide_eq_true_eq] at h1
    refine ⟨by simp [lst, hr], h1.2⟩

/-- Tolerance with the error of the Gauss tables included. -/
noncomputable def del (i j : ℕ) : ℝ := if i < 15 ∧ j < 15 then 2 / 10 ^ 15 else 4 / 10 ^ 8

theorem tol_del (i j : ℕ) : ((tol i j : ℚ) : ℝ) + 1 / 10 ^ 33 ≤ del i j := by
  unfold tol del
  split <;> norm_num

/-- Table entry against the Gauss sum of the product of the two printed functions. -/
theorem sound {T : List (List Gen.IEntry)} {A B : List Gen.FRow} (hA : rowOK A = true)
    (hB : rowOK B = true) (h : chkAll T (lst A) (lst B) = true) (i j : ℕ) (hi : i < 30)
    (hj : j < 30) (n : ℕ) (h4 : 4 ≤ n) (hin : i < n) (hjn : j < n) (h64 : n ≤ 64)
    (fa fb : Flags ℝ) :
    |intVal T i j fa fb - ∑ g ∈ range n, (gaussTab ℝ).wt n g *
        (tabVal A i ((gaussTab ℝ).pt n g) fa * tabVal B j ((gaussTab ℝ).pt n g) fb)|
      ≤ del i j * (|flag fa i| * |flag fb j|) := by
  obtain ⟨lA, mA⟩ := lst_length hA i hi
  obtain ⟨lB, mB⟩ := lst_length hB j hj
  rw [chkAll, List.all_eq_true] at h
  have h1 := h j (List.mem_range.2 hj)
  simp only [List.all_eq_true] at h1
  have h2 := h1 i (List.mem_range.2 hi)
  rw [chk] at h2
  have hI := dot_vmom (lst B j) (lst A i) 30 0 (by omega)
  simp only [hI] at h2
  have hlen := length_pmul (lst A i) (lst B j) (by omega)
  have hr := rule_pev n (by omega) h64 (pmul (lst A i) (lst B j)) 0 (by omega)
  have e : ∑ g ∈ range n, (gaussTab ℝ).wt n g *
        (tabVal A i ((gaussTab ℝ).pt n g) fa * tabVal B j ((gaussTab ℝ).pt n g) fb)
      = flag fa i * flag fb j * ∑ g ∈ range n, (gaussTab ℝ).wt n g * ((gaussTab ℝ).pt n g ^ 0 *
        pev (pmul (lst A i) (lst B j)) ((gaussTab ℝ).pt n g)) := by
    rw [Finset.mul_sum]
    refine Finset.sum_congr rfl fun g _ => ?_
    rw [tabVal_eq hA i hi, tabVal_eq hB j hj, pev_pmul]
    ring
  rw [e]
  have hmag : 1 / 10 ^ 53 * ((mag (pmul (lst A i) (lst B j)) : ℚ) : ℝ) ≤ 1 / 10 ^ 33 := by
    have m1 : mag (pmul (lst A i) (lst B j)) ≤ 10 ^ 10 * 10 ^ 10 :=
      (mag_pmul _ _).trans (mul_le_mul mA mB (mag_nonneg _) (by norm_num))
    have m2 := (Rat.cast_le (K := ℝ)).2 m1
    push_cast at m2
    calc _ ≤ 1 / 10 ^ 53 * (10 ^ 10 * 10 ^ 10 : ℝ) := by gcongr
      _ = 1 / 10 ^ 33 := by norm_num
  have hr' := hr.trans hmag
  generalize ∑ g ∈ range n, (gaussTab ℝ).wt n g * ((gaussTab ℝ).pt n g ^ 0 *
        pev (pmul (lst A i) (lst B j)) ((gaussTab ℝ).pt n g)) = R at hr' ⊢
  generalize pintFrom 0 (pmul (lst A i) (lst B j)) = I at hr' h2
  have key : ∀ z : ℚ, |z - I| ≤ tol i j →
      |(z : ℝ) * flag fa i * flag fb j - flag fa i * flag fb j * R|
        ≤ del i j * (|flag fa i| * |flag fb j|) := by
    intro z hz
    have hz' : |(z : ℝ) - (I : ℝ)| ≤ ((tol i j : ℚ) : ℝ) := by
      have := (Rat.cast_le (K := ℝ)).2 hz
      rwa [Rat.cast_abs, Rat.cast_sub] at this
    have e1 : (z : ℝ) * flag fa i * flag fb j - flag fa i * flag fb j * R
        = (((z : ℝ) - I) - (R - I)) * (flag fa i * flag fb j) := by ring
    rw [e1, abs_mul, abs_mul]
    refine mul_le_mul_of_nonneg_right ?_ (by positivity)
    have := abs_sub ((z : ℝ) - I) (R - I)
    have := tol_del i j
    linarith
  rcases hf : findEntry T i j with _ | e
  · rw [hf] at h2
    have h4 : |I| ≤ tol i j := by simpa using h2
    have := key 0 (by rw [zero_sub, abs_neg]; exact h4)
    rw [Rat.cast_zero, zero_mul, zero_mul] at this
    simpa only [intVal, hf] using this
  · rw [hf] at h2
    simp only [Bool.and_eq_true, decide_eq_true_eq, beq_iff_eq] at h2
    have := key _ h2.1.1
    simpa only [intVal, hf, h2.1.2, h2.2, get_min] using this

end Verif.RuleCheck
