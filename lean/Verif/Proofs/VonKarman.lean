import Verif.Proofs.NumStiff
import Verif.Spec.VonKarman

/-!
# Von Karman strains: natural-coordinate form, directional derivative
-/

namespace Verif.Spec

open Finset

theorem u_dx {S : Shape ℝ} (hS : S.C2) (P : Panel ℝ) (s0 : ℕ) (c : ℕ → ℝ) (α : ℕ) (x y : ℝ) :
    dx (u S P s0 c α) x y = disp S P s0 c α 1 0 (2 / P.a * x - 1) (2 / P.b * y - 1) := by
  simp only [← phys_zero, dx_phys hS _ _ _ _ _ _ zero_lt_two, phys]

theorem u_dy {S : Shape ℝ} (hS : S.C2) (P : Panel ℝ) (s0 : ℕ) (c : ℕ → ℝ) (α : ℕ) (x y : ℝ) :
    dy (u S P s0 c α) x y = disp S P s0 c α 0 1 (2 / P.a * x - 1) (2 / P.b * y - 1) := by
  simp only [← phys_zero, dy_phys hS _ _ _ _ _ _ zero_lt_two, phys]

theorem linStrain_lin {S : Shape ℝ} (hS : S.C2) (κ : ℝ) (P : Panel ℝ) (s0 : ℕ) (c : ℕ → ℝ)
    (s : ℕ) (x y : ℝ) : linStrain κ S P s0 c s x y = lin κ S P s0 c s x y :=
  donnell_lin hS κ P s0 c s x y

theorem vkStrain_vk {S : Shape ℝ} (hS : S.C2) (κ : ℝ) (P : Panel ℝ) (s0 : ℕ) (c : ℕ → ℝ)
    (s : ℕ) (x y : ℝ) : vkStrain κ S P s0 c s x y = vk κ S P s0 c s x y := by
  unfold vkStrain vonKarman vk vkWith
  rw [donnell_lin hS]
  match s with
  | 0 => simp only [u_dx hS]
  | 1 => simp only [u_dy hS]
  | 2 => simp only [u_dx hS, u_dy hS, one_mul]
  | s + 3 => rfl

variable {K : Type*} [Field K]

/-- The displacement is linear in the Ritz vector. -/
theorem disp_add (S : Shape K) (P : Panel K) (s0 : ℕ) (c d : ℕ → K) (t : K) (α p q : ℕ)
    (ξ η : K) : disp S P s0 (fun k => c k + t * d k) α p q ξ η
      = disp S P s0 c α p q ξ η + t * disp S P s0 d α p q ξ η := by
  simp only [disp]
  rw [mul_left_comm t, ← mul_add]
  congr 1
  rw [Finset.mul_sum, ← Finset.sum_add_distrib]
  refine Finset.sum_congr rfl fun i _ => ?_
  rw [Finset.mul_sum, ← Finset.sum_add_distrib]
  exact Finset.sum_congr rfl fun j _ => by ring

theorem lin_add (κ : K) (S : Shape K) (P : Panel K) (s0 : ℕ) (c d : ℕ → K) (t : K) (s : ℕ)
    (x y : K) : lin κ S P s0 (fun k => c k + t * d k) s x y
      = lin κ S P s0 c s x y + t * lin κ S P s0 d s x y := by
  unfold lin
  simp only [disp_add]
  split <;> ring

/-- Variation of `vkWith g`. -/
def vkVarWith (g κ : K) (S : Shape K) (P : Panel K) (s0 : ℕ) (c d : ℕ → K) (s : ℕ) (x y : K) : K :=
  let W := fun p q => disp S P s0 c 2 p q (2 / P.a * x - 1) (2 / P.b * y - 1)
  let D := fun p q => disp S P s0 d 2 p q (2 / P.a * x - 1) (2 / P.b * y - 1)
  lin κ S P s0 d s x y +
    match s with
    | 0 => W 1 0 * D 1 0
    | 1 => W 0 1 * D 0 1
    | 2 => g * (W 1 0 * D 0 1 + W 0 1 * D 1 0)
    | _ => 0

theorem vkVarWith_one (κ : K) (S : Shape K) (P : Panel K) (s0 : ℕ) (c d : ℕ → K) (s : ℕ)
    (x y : K) : vkVarWith 1 κ S P s0 c d s x y = vkVar κ S P s0 c d s x y := by
  simp only [vkVarWith, vkVar, one_mul]
  rfl

/-- Taylor expansion of the strains: quadratic in the Ritz vector. -/
theorem vkWith_add [CharZero K] (g κ : K) (S : Shape K) (P : Panel K) (s0 : ℕ) (c d : ℕ → K)
    (t : K) (s : ℕ) (x y : K) : vkWith g κ S P s0 (fun k => c k + t * d k) s x y
      = vkWith g κ S P s0 c s x y + t * vkVarWith g κ S P s0 c d s x y
        + t ^ 2 * (vkWith g κ S P s0 d s x y - lin κ S P s0 d s x y) := by
  match s with
  | 0 => simp only [vkWith, vkVarWith, lin_add, disp_add]; ring
  | 1 => simp only [vkWith, vkVarWith, lin_add, disp_add]; ring
  | 2 => simp only [vkWith, vkVarWith, lin_add, disp_add]; ring
  | s + 3 => simp only [vkWith, vkVarWith, lin_add]; ring

theorem vk_add [CharZero K] (κ : K) (S : Shape K) (P : Panel K) (s0 : ℕ) (c d : ℕ → K) (t : K)
    (s : ℕ) (x y : K) : vk κ S P s0 (fun k => c k + t * d k) s x y
      = vk κ S P s0 c s x y + t * vkVar κ S P s0 c d s x y
        + t ^ 2 * (vk κ S P s0 d s x y - lin κ S P s0 d s x y) := by
  rw [vk, vkWith_add, vkVarWith_one]; rfl

theorem hasDerivAt_quadratic (A B C : ℝ) : HasDerivAt (fun t : ℝ => A + t * B + t ^ 2 * C) B 0 := by
  have h1 : HasDerivAt (fun t : ℝ => t * B) (1 * B) 0 := (hasDerivAt_id (0 : ℝ)).mul_const B
  have h2 : HasDerivAt (fun t : ℝ => t ^ 2 * C) (((2 : ℕ) * (0 : ℝ) ^ (2 - 1)) * C) 0 :=
    (hasDerivAt_pow 2 (0 : ℝ)).mul_const C
  have h := (h1.const_add A).add h2
  have e : 1 * B + ((2 : ℕ) * (0 : ℝ) ^ (2 - 1)) * C = B := by norm_num
  rw [e] at h
  exact h

/-- The variation used in the code is the directional derivative of the von Karman strain. -/
theorem dirDeriv_vkStrain {S : Shape ℝ} (hS : S.C2) (κ : ℝ) (P : Panel ℝ) (s0 : ℕ) (c d : ℕ → ℝ)
    (s : ℕ) (x y : ℝ) :
    dirDeriv (fun e => vkStrain κ S P s0 e s x y) c d = vkVar κ S P s0 c d s x y := by
  unfold dirDeriv
  simp only [vkStrain_vk hS, vk_add]
  exact (hasDerivAt_quadratic _ _ _).deriv

/-- It exists as a derivative (the strain is differentiable in the Ritz vector). -/
theorem hasDerivAt_vkStrain {S : Shape ℝ} (hS : S.C2) (κ : ℝ) (P : Panel ℝ) (s0 : ℕ)
    (c d : ℕ → ℝ) (s : ℕ) (x y : ℝ) :
    HasDerivAt (fun t : ℝ => vkStrain κ S P s0 (fun k => c k + t * d k) s x y)
      (vkVar κ S P s0 c d s x y) 0 := by
  simp only [vkStrain_vk hS, vk_add]
  exact hasDerivAt_quadratic _ _ _

theorem gaussP_congr [DecidableEq K] {G : GaussTab K} {nx ny : ℕ} {P : Panel K}
    {g g' : ℕ → ℕ → K → K → K} (h : ∀ p < nx, ∀ q < ny, ∀ x y, g p q x y = g' p q x y) :
    gaussP G nx ny P g = gaussP G nx ny P g' := by
  unfold gaussP gauss
  refine Finset.sum_congr rfl fun p hp => Finset.sum_congr rfl fun q hq => ?_
  rw [h p (mem_range.1 hp) q (mem_range.1 hq)]

end Verif.Spec
