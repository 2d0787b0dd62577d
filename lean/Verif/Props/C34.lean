import Verif.Proofs.FieldOut
import Verif.Proofs.RealField
import Verif.Proofs.Bardell
import Verif.Proofs.VonKarman
import Verif.Spec.Witness
import Mathlib.Tactic.Positivity

/-!
# C34: point constraints are exact penalty energies
-/

namespace Verif.C34

open Model Spec Finset

variable {K : Type*} [Field K]

/-- `k` if the component is selected, else 0. -/
def on (sel : Bool) (k : K) : K := if sel then k else 0

theorem matrix_eq (S : Shape K) (P : Panel K) (x y : K) (u v w phix phiy : Bool) (kuvw kphi : K)
    (p q : ℕ) :
    let g := fg S P (fun _ _ => 0) x y
    pointConstraint S P x y u v w phix phiy kuvw kphi p q
      = on u kuvw * (g 0 p * g 0 q) + on v kuvw * (g 1 p * g 1 q) + on w kuvw * (g 2 p * g 2 q)
        + on phix kphi * (g 3 p * g 3 q) + on phiy kphi * (g 4 p * g 4 q) := by
  cases u <;> cases v <;> cases w <;> cases phix <;> cases phiy <;>
    simp [pointConstraint, on]

/-- The matrix is symmetric. -/
theorem symmetric (S : Shape K) (P : Panel K) (x y : K) (u v w phix phiy : Bool) (kuvw kphi : K)
    (p q : ℕ) : pointConstraint S P x y u v w phix phiy kuvw kphi p q
      = pointConstraint S P x y u v w phix phiy kuvw kphi q p := by
  rw [matrix_eq, matrix_eq]
  simp only [mul_comm]

theorem sum_outer (N : ℕ) (k : K) (g c d : ℕ → K) :
    ∑ p ∈ range N, ∑ q ∈ range N, c p * (k * (g p * g q)) * d q
      = k * (∑ p ∈ range N, g p * c p) * ∑ q ∈ range N, g q * d q := by
  rw [mul_assoc, sum_mul_sum, mul_sum]
  refine sum_congr rfl fun p _ => ?_
  rw [mul_sum]
  exact sum_congr rfl fun q _ => by ring

/-- `cᵀ K d` in natural coordinates. -/
theorem form_eq (S : Shape K) (P : Panel K) (x y : K) (u v w phix phiy : Bool) (kuvw kphi : K)
    (c d : ℕ → K) :
    ∑ p ∈ range (3 * P.m * P.n), ∑ q ∈ range (3 * P.m * P.n),
        c p * pointConstraint S P x y u v w phix phiy kuvw kphi p q * d q
      = on u kuvw * rowField S P 0 c 0 x y * rowField S P 0 d 0 x y
        + on v kuvw * rowField S P 0 c 1 x y * rowField S P 0 d 1 x y
        + on w kuvw * rowField S P 0 c 2 x y * rowField S P 0 d 2 x y
        + on phix kphi * rowField S P 0 c 3 x y * rowField S P 0 d 3 x y
        + on phiy kphi * rowField S P 0 c 4 x y * rowField S P 0 d 4 x y := by
  have hf : ∀ r < 5, ∀ c : ℕ → K,
      ∑ k ∈ range (3 * P.m * P.n), fg S P (fun _ _ => 0) x y r k * c k
        = rowField S P 0 c r x y := fun r hr c => by
    have := fg_dot_field S P _ (cleanG_zero P) x y r hr 0 c
    simpa only [zero_add, getSize] using this
  simp only [matrix_eq, mul_add, add_mul, sum_add_distrib, sum_outer]
  rw [hf 0 (by omega), hf 1 (by omega), hf 2 (by omega), hf 3 (by omega), hf 4 (by omega),
    hf 0 (by omega), hf 1 (by omega), hf 2 (by omega), hf 3 (by omega), hf 4 (by omega)]

/-- The quadratic form is the penalty energy (twice) of the selected displacements and rotations
at the point. -/
theorem energy {S : Shape ℝ} (hS : S.C2) (P : Panel ℝ) (x y : ℝ) (u v w phix phiy : Bool)
    (kuvw kphi : ℝ) (c : ℕ → ℝ) :
    ∑ p ∈ range (3 * P.m * P.n), ∑ q ∈ range (3 * P.m * P.n),
        c p * pointConstraint S P x y u v w phix phiy kuvw kphi p q * c q
      = on u kuvw * Spec.u S P 0 c 0 x y ^ 2 + on v kuvw * Spec.u S P 0 c 1 x y ^ 2
        + on w kuvw * Spec.u S P 0 c 2 x y ^ 2
        + on phix kphi * (-dx (Spec.u S P 0 c 2) x y) ^ 2
        + on phiy kphi * (-dy (Spec.u S P 0 c 2) x y) ^ 2 := by
  rw [form_eq]
  simp only [← phys_zero, dx_phys hS _ _ _ _ _ _ zero_lt_two, dy_phys hS _ _ _ _ _ _ zero_lt_two,
    rowField, phys, mul_div_right_comm]
  ring

/-- Positive semidefinite for stiffnesses that are not negative. -/
theorem psd {S : Shape ℝ} (hS : S.C2) (P : Panel ℝ) (x y : ℝ) (u v w phix phiy : Bool)
    {kuvw kphi : ℝ} (h1 : 0 ≤ kuvw) (h2 : 0 ≤ kphi) (c : ℕ → ℝ) :
    0 ≤ ∑ p ∈ range (3 * P.m * P.n), ∑ q ∈ range (3 * P.m * P.n),
        c p * pointConstraint S P x y u v w phix phiy kuvw kphi p q * c q := by
  rw [energy hS]
  have hon : ∀ (b : Bool) (k : ℝ), 0 ≤ k → 0 ≤ on b k := fun b k hk => by
    cases b <;> simp [on, hk]
  have := hon u kuvw h1
  have := hon v kuvw h1
  have := hon w kuvw h1
  have := hon phix kphi h2
  have := hon phiy kphi h2
  positivity

/-- With positive stiffnesses the energy vanishes exactly when every selected component does. -/
theorem zero_iff {S : Shape ℝ} (hS : S.C2) (P : Panel ℝ) (x y : ℝ) (u v w phix phiy : Bool)
    {kuvw kphi : ℝ} (h1 : 0 < kuvw) (h2 : 0 < kphi) (c : ℕ → ℝ) :
    ∑ p ∈ range (3 * P.m * P.n), ∑ q ∈ range (3 * P.m * P.n),
        c p * pointConstraint S P x y u v w phix phiy kuvw kphi p q * c q = 0 ↔
      (u → Spec.u S P 0 c 0 x y = 0) ∧ (v → Spec.u S P 0 c 1 x y = 0) ∧
      (w → Spec.u S P 0 c 2 x y = 0) ∧ (phix → dx (Spec.u S P 0 c 2) x y = 0) ∧
      (phiy → dy (Spec.u S P 0 c 2) x y = 0) := by
  rw [energy hS]
  have key : ∀ (b : Bool) (k z : ℝ), 0 < k → 0 ≤ on b k * z ^ 2 ∧
      (on b k * z ^ 2 = 0 ↔ (b = true → z = 0)) := fun b k z hk => by
    cases b
    · simp [on]
    · simp [on, hk.ne']; positivity
  obtain ⟨p0, e0⟩ := key u kuvw (Spec.u S P 0 c 0 x y) h1
  obtain ⟨p1, e1⟩ := key v kuvw (Spec.u S P 0 c 1 x y) h1
  obtain ⟨p2, e2⟩ := key w kuvw (Spec.u S P 0 c 2 x y) h1
  obtain ⟨p3, e3⟩ := key phix kphi (-dx (Spec.u S P 0 c 2) x y) h2
  obtain ⟨p4, e4⟩ := key phiy kphi (-dy (Spec.u S P 0 c 2) x y) h2
  rw [neg_eq_zero] at e3 e4
  rw [← e0, ← e1, ← e2, ← e3, ← e4]
  constructor
  · intro h
    refine ⟨?_, ?_, ?_, ?_, ?_⟩ <;> linarith
  · rintro ⟨h0, h1, h2, h3, h4⟩
    linarith

example : 0 ≤ ∑ p ∈ range (3 * 5 * 7), ∑ q ∈ range (3 * 5 * 7),
    (p : ℝ) * pointConstraint (bardellShape ℝ) Witness.panel 1 (1 / 2) true false true true false
      1000000 100000 p q * (q : ℝ) :=
  psd bardellShape_C2 Witness.panel 1 (1 / 2) true false true true false (by norm_num)
    (by norm_num) fun k => k

end Verif.C34
