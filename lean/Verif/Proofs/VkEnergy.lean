import Verif.Proofs.ShearWitness

/-!
# Strain energy of the von Karman strains and its derivatives
-/

namespace Verif.Spec

open Finset Model

/-- Strain energy `½ ∫ εᵀ F ε`, by the `nx × ny` rule, of the von Karman strains of the Ritz
vector `c`. -/
noncomputable def energy (κ : ℝ) (S : Shape ℝ) (G : GaussTab ℝ) (nx ny : ℕ) (P : Panel ℝ)
    (s0 : ℕ) (F : ℕ → ℕ → ℕ → ℕ → ℝ) (c : ℕ → ℝ) : ℝ :=
  1 / 2 * gaussP G nx ny P fun p q x y => Spec.dens 6 (F p q) fun s => vkStrain κ S P s0 c s x y

theorem hasDerivAt_poly (A B C D E : ℝ) :
    HasDerivAt (fun t : ℝ => A + t * B + t ^ 2 * C + t ^ 3 * D + t ^ 4 * E) B 0 := by
  have h1 : HasDerivAt (fun t : ℝ => t * B) (1 * B) 0 := (hasDerivAt_id (0 : ℝ)).mul_const B
  have h2 : HasDerivAt (fun t : ℝ => t ^ 2 * C) (((2 : ℕ) * (0 : ℝ) ^ (2 - 1)) * C) 0 :=
    (hasDerivAt_pow 2 (0 : ℝ)).mul_const C
  have h3 : HasDerivAt (fun t : ℝ => t ^ 3 * D) (((3 : ℕ) * (0 : ℝ) ^ (3 - 1)) * D) 0 :=
    (hasDerivAt_pow 3 (0 : ℝ)).mul_const D
  have h4 : HasDerivAt (fun t : ℝ => t ^ 4 * E) (((4 : ℕ) * (0 : ℝ) ^ (4 - 1)) * E) 0 :=
    (hasDerivAt_pow 4 (0 : ℝ)).mul_const E
  have h := (((h1.const_add A).add h2).add h3).add h4
  have e : 1 * B + ((2 : ℕ) * (0 : ℝ) ^ (2 - 1)) * C + ((3 : ℕ) * (0 : ℝ) ^ (3 - 1)) * D
      + ((4 : ℕ) * (0 : ℝ) ^ (4 - 1)) * E = B := by norm_num
  rw [e] at h
  exact h

/-- The derivative of the energy: virtual work of the stresses on the variation of the strains. -/
theorem hasDerivAt_energy {S : Shape ℝ} (hS : S.C2) (κ : ℝ) (G : GaussTab ℝ) (nx ny : ℕ)
    (P : Panel ℝ) (s0 : ℕ) (F : ℕ → ℕ → ℕ → ℕ → ℝ) (hF : ∀ p q s t, F p q s t = F p q t s)
    (c d : ℕ → ℝ) :
    HasDerivAt (fun t : ℝ => energy κ S G nx ny P s0 F fun k => c k + t * d k)
      (gaussP G nx ny P fun p q x y => work (F p q) (fun s => vk κ S P s0 c s x y)
        (fun s => vkVar κ S P s0 c d s x y)) 0 := by
  have key : ∀ t : ℝ, energy κ S G nx ny P s0 F (fun k => c k + t * d k)
      = (1 / 2 * gaussP G nx ny P fun p q x y =>
          work (F p q) (fun s => vk κ S P s0 c s x y) (fun s => vk κ S P s0 c s x y))
        + t * (gaussP G nx ny P fun p q x y =>
          work (F p q) (fun s => vk κ S P s0 c s x y) (fun s => vkVar κ S P s0 c d s x y))
        + t ^ 2 * (gaussP G nx ny P fun p q x y => 1 / 2 *
          work (F p q) (fun s => vkVar κ S P s0 c d s x y) (fun s => vkVar κ S P s0 c d s x y)
          + work (F p q) (fun s => vk κ S P s0 c s x y)
              (fun s => vk κ S P s0 d s x y - lin κ S P s0 d s x y))
        + t ^ 3 * (gaussP G nx ny P fun p q x y =>
          work (F p q) (fun s => vkVar κ S P s0 c d s x y)
              (fun s => vk κ S P s0 d s x y - lin κ S P s0 d s x y))
        + t ^ 4 * (gaussP G nx ny P fun p q x y => 1 / 2 *
          work (F p q) (fun s => vk κ S P s0 d s x y - lin κ S P s0 d s x y)
              (fun s => vk κ S P s0 d s x y - lin κ S P s0 d s x y)) := by
    intro t
    unfold energy
    simp only [← gaussP_smul, ← gaussP_add, vkStrain_vk hS, vk_add, dens_work]
    refine gaussP_congr fun p _ q _ x y => ?_
    simp only [work_add_left, work_add_right]
    rw [work_symm (F p q) (hF p q) (fun s => vkVar κ S P s0 c d s x y) (fun s => vk κ S P s0 c s x y),
      work_symm (F p q) (hF p q) (fun s => vk κ S P s0 d s x y - lin κ S P s0 d s x y)
        (fun s => vk κ S P s0 c s x y),
      work_symm (F p q) (hF p q) (fun s => vk κ S P s0 d s x y - lin κ S P s0 d s x y)
        (fun s => vkVar κ S P s0 c d s x y)]
    ring
  simp only [key]
  exact hasDerivAt_poly _ _ _ _ _

/-- The product of slopes in the shear position. -/
noncomputable def shear (g : ℝ) (s : ℕ) : ℝ := if s = 2 then g else 0

theorem work_shear {F : ℕ → ℕ → ℝ} (hF : ∀ s t, F s t = F t s) (g : ℝ) (e : ℕ → ℝ) :
    work F (fun s => shear g s) e = g * resultant F e 2 := by
  rw [work_symm F hF]
  simp only [work, Finset.sum_range_succ, Finset.sum_range_zero, shear]
  norm_num
  ring

theorem vkWith_two {S : Shape ℝ} (hS : S.C2) (κ : ℝ) (P : Panel ℝ) (s0 : ℕ) (c : ℕ → ℝ) (s : ℕ)
    (x y : ℝ) : vkWith 2 κ S P s0 c s x y
      = vk κ S P s0 c s x y + 1 * shear (dx (u S P s0 c 2) x y * dy (u S P s0 c 2) x y) s := by
  rw [u_dx hS, u_dy hS, vk]
  match s with
  | 0 => simp [vkWith, shear]
  | 1 => simp [vkWith, shear]
  | 2 => simp only [vkWith, shear, if_true]; ring
  | s + 3 => simp [vkWith, shear]

theorem vkVarWith_two {S : Shape ℝ} (hS : S.C2) (κ : ℝ) (P : Panel ℝ) (s0 : ℕ) (c e : ℕ → ℝ)
    (s : ℕ) (x y : ℝ) : vkVarWith 2 κ S P s0 c e s x y = vkVar κ S P s0 c e s x y
      + 1 * shear (dx (u S P s0 c 2) x y * dy (u S P s0 e 2) x y
        + dy (u S P s0 c 2) x y * dx (u S P s0 e 2) x y) s := by
  rw [u_dx hS, u_dy hS, u_dx hS, u_dy hS]
  match s with
  | 0 => simp [vkVarWith, vkVar, shear]
  | 1 => simp [vkVarWith, vkVar, shear]
  | 2 => simp only [vkVarWith, vkVar, shear, if_true]; ring
  | s + 3 => simp [vkVarWith, vkVar, shear]

end Verif.Spec
