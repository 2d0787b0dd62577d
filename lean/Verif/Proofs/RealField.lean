import Verif.Spec.RealField
import Mathlib.Analysis.Calculus.Deriv.Add
import Mathlib.Analysis.Calculus.Deriv.Mul
import Mathlib.Analysis.Calculus.Deriv.Comp

/-!
# The series derivatives are the derivatives
-/

namespace Verif

open Finset

theorem Shape.C2.hasDeriv {S : Shape ℝ} (h : S.C2) (p i : ℕ) (hp : p < 2) (x : ℝ)
    (fl : Flags ℝ) : HasDerivAt (fun t => S.D p i t fl) (S.D (p + 1) i x fl) x := by
  match p with
  | 0 => exact h.d1 i x fl
  | 1 => exact h.d2 i x fl

theorem Shape.C2.continuous {S : Shape ℝ} (h : S.C2) (p i : ℕ) (fl : Flags ℝ) :
    Continuous fun t => S.D p i t fl := by
  match p with
  | 0 => exact continuous_iff_continuousAt.2 fun x => (h.d1 i x fl).continuousAt
  | 1 => exact continuous_iff_continuousAt.2 fun x => (h.d2 i x fl).continuousAt
  | p + 2 => exact h.cont i fl

theorem Shape.C2.inMean {S : Shape ℝ} (h : S.C2) : S.In Mean.integral :=
  fun p i fl => h.continuous p i fl

namespace Spec

/-- `disp` at a physical point. -/
noncomputable def phys (S : Shape ℝ) (P : Panel ℝ) (s0 : ℕ) (c : ℕ → ℝ) (α p q : ℕ)
    (x y : ℝ) : ℝ := disp S P s0 c α p q (2 / P.a * x - 1) (2 / P.b * y - 1)

theorem phys_zero (S : Shape ℝ) (P : Panel ℝ) (s0 : ℕ) (c : ℕ → ℝ) (α : ℕ) :
    phys S P s0 c α 0 0 = u S P s0 c α := by
  funext x y
  simp [phys, disp, u, Shape.D]

theorem hasDerivAt_aff (g : ℝ → ℝ) (g' k x : ℝ) (h : HasDerivAt g g' (k * x - 1)) :
    HasDerivAt (fun t => g (k * t - 1)) (k * g') x := by
  have h1 : HasDerivAt (fun t : ℝ => k * t - 1) k x := by
    simpa using ((hasDerivAt_id x).const_mul k).sub_const 1
  have h2 := HasDerivAt.comp x h h1
  rw [mul_comm]
  exact h2

theorem dx_phys {S : Shape ℝ} (hS : S.C2) (P : Panel ℝ) (s0 : ℕ) (c : ℕ → ℝ) (α p q : ℕ)
    (hp : p < 2) : dx (phys S P s0 c α p q) = phys S P s0 c α (p + 1) q := by
  funext x y
  unfold dx phys disp
  have h : HasDerivAt (fun t => (2 / P.a) ^ p * (2 / P.b) ^ q *
      ∑ i ∈ range P.m, ∑ j ∈ range P.n, c (s0 + 3 * (j * P.m + i) + α) *
        (S.D p i (2 / P.a * t - 1) (P.xf α) * S.D q j (2 / P.b * y - 1) (P.yf α)))
      ((2 / P.a) ^ p * (2 / P.b) ^ q *
      ∑ i ∈ range P.m, ∑ j ∈ range P.n, c (s0 + 3 * (j * P.m + i) + α) *
        (((2 / P.a) * S.D (p + 1) i (2 / P.a * x - 1) (P.xf α)) *
          S.D q j (2 / P.b * y - 1) (P.yf α))) x := by
    apply HasDerivAt.const_mul
    apply HasDerivAt.fun_sum
    intro i _
    apply HasDerivAt.fun_sum
    intro j _
    apply HasDerivAt.const_mul
    apply HasDerivAt.mul_const
    exact hasDerivAt_aff (fun t => S.D p i t (P.xf α)) _ _ _ (hS.hasDeriv p i hp _ _)
  rw [h.deriv, pow_succ, mul_assoc, mul_assoc ((2 / P.a) ^ p), mul_assoc ((2 / P.a) ^ p)]
  congr 1
  rw [Finset.mul_sum, Finset.mul_sum]
  refine Finset.sum_congr rfl fun i _ => ?_
  rw [Finset.mul_sum, Finset.mul_sum]
  exact Finset.sum_congr rfl fun j _ => by ring

theorem dy_phys {S : Shape ℝ} (hS : S.C2) (P : Panel ℝ) (s0 : ℕ) (c : ℕ → ℝ) (α p q : ℕ)
    (hq : q < 2) : dy (phys S P s0 c α p q) = phys S P s0 c α p (q + 1) := by
  funext x y
  unfold dy phys disp
  have h : HasDerivAt (fun t => (2 / P.a) ^ p * (2 / P.b) ^ q *
      ∑ i ∈ range P.m, ∑ j ∈ range P.n, c (s0 + 3 * (j * P.m + i) + α) *
        (S.D p i (2 / P.a * x - 1) (P.xf α) * S.D q j (2 / P.b * t - 1) (P.yf α)))
      ((2 / P.a) ^ p * (2 / P.b) ^ q *
      ∑ i ∈ range P.m, ∑ j ∈ range P.n, c (s0 + 3 * (j * P.m + i) + α) *
        (S.D p i (2 / P.a * x - 1) (P.xf α) *
          ((2 / P.b) * S.D (q + 1) j (2 / P.b * y - 1) (P.yf α)))) y := by
    apply HasDerivAt.const_mul
    apply HasDerivAt.fun_sum
    intro i _
    apply HasDerivAt.fun_sum
    intro j _
    apply HasDerivAt.const_mul
    apply HasDerivAt.const_mul
    exact hasDerivAt_aff (fun t => S.D q j t (P.yf α)) _ _ _ (hS.hasDeriv q j hq _ _)
  rw [h.deriv, pow_succ, mul_assoc, mul_assoc ((2 / P.a) ^ p)]
  congr 1
  rw [Finset.mul_sum, mul_assoc, Finset.mul_sum, Finset.mul_sum]
  refine Finset.sum_congr rfl fun i _ => ?_
  rw [Finset.mul_sum, Finset.mul_sum, Finset.mul_sum]
  exact Finset.sum_congr rfl fun j _ => by ring

theorem donnell_plate {S : Shape ℝ} (hS : S.C2) (P : Panel ℝ) (s0 : ℕ) (c : ℕ → ℝ) (s : ℕ)
    (x y : ℝ) : donnell 0 (u S P s0 c 0) (u S P s0 c 1) (u S P s0 c 2) s x y
      = plateStrain S P s0 c s (2 / P.a * x - 1) (2 / P.b * y - 1) := by
  simp only [← phys_zero]
  match s with
  | 0 => simp only [donnell, dx_phys hS _ _ _ _ _ _ zero_lt_two]; rfl
  | 1 => simp only [donnell, dy_phys hS _ _ _ _ _ _ zero_lt_two, zero_mul, add_zero]; rfl
  | 2 => simp only [donnell, dx_phys hS _ _ _ _ _ _ zero_lt_two,
          dy_phys hS _ _ _ _ _ _ zero_lt_two]; rfl
  | 3 => simp only [donnell, dx_phys hS _ _ _ _ _ _ zero_lt_two,
          dx_phys hS _ _ _ _ (0 + 1) _ one_lt_two]; rfl
  | 4 => simp only [donnell, dy_phys hS _ _ _ _ _ _ zero_lt_two,
          dy_phys hS _ _ _ _ _ (0 + 1) one_lt_two]; rfl
  | n + 5 => simp only [donnell, dx_phys hS _ _ _ _ _ _ zero_lt_two,
          dy_phys hS _ _ _ _ _ _ zero_lt_two]; rfl

theorem donnell_cyl {S : Shape ℝ} (hS : S.C2) (P : Panel ℝ) (s0 : ℕ) (c : ℕ → ℝ) (s : ℕ)
    (x y : ℝ) : donnell (1 / P.r) (u S P s0 c 0) (u S P s0 c 1) (u S P s0 c 2) s x y
      = cylStrain S P s0 c s (2 / P.a * x - 1) (2 / P.b * y - 1) := by
  match s with
  | 1 =>
    have h := donnell_plate hS P s0 c 1 x y
    simp only [donnell, zero_mul, add_zero, plateStrain] at h
    simp only [donnell, cylStrain, h]
    rw [← phys_zero S P s0 c 2, phys]; ring
  | 0 => exact donnell_plate hS P s0 c 0 x y
  | n + 2 =>
    have := donnell_plate hS P s0 c (n + 2) x y
    simp only [cylStrain]
    rw [← this]
    match n with
    | 0 => rfl
    | 1 => rfl
    | 2 => rfl
    | n + 3 => rfl

/-- Integral over the physical rectangle of a function of the natural coordinates. -/
theorem integral_rect (a b : ℝ) (ha : a ≠ 0) (hb : b ≠ 0) (g : ℝ → ℝ → ℝ) :
    ∫ x in (0 : ℝ)..a, ∫ y in (0 : ℝ)..b, g (2 / a * x - 1) (2 / b * y - 1)
      = a * b / 4 * Mean.integral.L fun ξ => Mean.integral.L fun η => g ξ η := by
  have h1 : ∀ ξ, ∫ y in (0 : ℝ)..b, g ξ (2 / b * y - 1)
      = b / 2 * ∫ η in (-1 : ℝ)..1, g ξ η := by
    intro ξ
    rw [intervalIntegral.integral_comp_mul_sub (fun η => g ξ η) (by positivity : (2 / b) ≠ 0)]
    rw [smul_eq_mul, inv_div]
    congr 2
    · ring
    · field_simp; ring
  simp only [h1]
  rw [intervalIntegral.integral_const_mul]
  rw [intervalIntegral.integral_comp_mul_sub (fun ξ => ∫ η in (-1 : ℝ)..1, g ξ η)
    (by positivity : (2 / a) ≠ 0), smul_eq_mul, inv_div]
  have e1 : 2 / a * 0 - 1 = -1 := by ring
  have e2 : 2 / a * a - 1 = 1 := by field_simp; ring
  rw [e1, e2]
  simp only [Mean.integral]
  ring

end Spec
end Verif
