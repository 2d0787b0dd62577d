import Verif.Proofs.VkEnergy
import Verif.Spec.Witness

/-!
# C15: the internal force and the gradient of the strain energy
-/

namespace Verif.C15

open Spec Model

/-- The claim for one state and one direction: the product of `calc_fint(c)` with `d` is the
derivative of the strain energy at `c` along `d` (plate for `κ = 0`). -/
def Gradient (κ : ℝ) (fint : VecW ℝ) (S : Shape ℝ) (G : GaussTab ℝ) (nx ny : ℕ) (P : Panel ℝ)
    (s0 : ℕ) (F : ℕ → ℕ → ℕ → ℕ → ℝ) (c d : ℕ → ℝ) : Prop :=
  vdot fint d = dirDeriv (energy κ S G nx ny P s0 F) c d

/-- Exactly what the code computes, for all states and directions: the gradient of the energy plus
the work, on the variation of the strains, of the stresses of an additional shear strain
`w,x w,y`. -/
theorem fint_defect {S : Shape ℝ} (hS : S.C2) (G : GaussTab ℝ) (P : Panel ℝ) (ha : P.a ≠ 0)
    (hb : P.b ≠ 0) (F : ℕ → ℕ → ℕ → ℕ → ℝ) (hF : ∀ p q, ABDSym (F p q)) (c d : ℕ → ℝ)
    (s0 nx ny : ℕ) :
    (vdot (plateFintF S G P F c s0 nx ny) d = dirDeriv (energy 0 S G nx ny P s0 F) c d
      + gaussP G nx ny P fun p q x y => dx (u S P s0 c 2) x y * dy (u S P s0 c 2) x y *
          resultant (F p q) (fun s => dirDeriv (fun e => vkStrain 0 S P s0 e s x y) c d) 2) ∧
    (P.r ≠ 0 → vdot (cylFintF S G P F c s0 nx ny) d
        = dirDeriv (energy (1 / P.r) S G nx ny P s0 F) c d
      + gaussP G nx ny P fun p q x y => dx (u S P s0 c 2) x y * dy (u S P s0 c 2) x y *
          resultant (F p q) (fun s => dirDeriv (fun e => vkStrain (1 / P.r) S P s0 e s x y) c d)
            2) := by
  have key : ∀ κ : ℝ, (gaussP G nx ny P fun p q x y =>
        work (F p q) (fun s => vkWith 2 κ S P s0 c s x y) (fun s => vkVar κ S P s0 c d s x y))
      = dirDeriv (energy κ S G nx ny P s0 F) c d
        + gaussP G nx ny P fun p q x y => dx (u S P s0 c 2) x y * dy (u S P s0 c 2) x y *
          resultant (F p q) (fun s => dirDeriv (fun e => vkStrain κ S P s0 e s x y) c d) 2 := by
    intro κ
    rw [dirDeriv, (hasDerivAt_energy hS κ G nx ny P s0 F (fun p q => (hF p q).symm) c d).deriv,
      ← gaussP_add]
    refine gaussP_congr fun p _ q _ x y => ?_
    simp only [vkWith_two hS, work_add_left, dirDeriv_vkStrain hS]
    rw [work_shear (hF p q).symm, one_mul]
  constructor
  · rw [plateFint_work S G P ha hb F hF]
    exact key 0
  · intro hr
    rw [cylFint_work S G P ha hb hr F hF]
    exact key (1 / P.r)

/-- Full claim: `Gradient` for all `c`, `d`.  Proved part: states whose deflection has
`w,x w,y = 0` at every point (in particular every state with zero or one-directional deflection).
Missing part: false, see `fint_gradient_violated`. -/
theorem fint_gradient_partial {S : Shape ℝ} (hS : S.C2) (G : GaussTab ℝ) (P : Panel ℝ)
    (ha : P.a ≠ 0) (hb : P.b ≠ 0) (F : ℕ → ℕ → ℕ → ℕ → ℝ) (hF : ∀ p q, ABDSym (F p q))
    (c d : ℕ → ℝ) (s0 nx ny : ℕ)
    (hc : ∀ x y, dx (u S P s0 c 2) x y * dy (u S P s0 c 2) x y = 0) :
    Gradient 0 (plateFintF S G P F c s0 nx ny) S G nx ny P s0 F c d ∧
    (P.r ≠ 0 → Gradient (1 / P.r) (cylFintF S G P F c s0 nx ny) S G nx ny P s0 F c d) := by
  obtain ⟨h1, h2⟩ := fint_defect hS G P ha hb F hF c d s0 nx ny
  have z : ∀ g : ℕ → ℕ → ℝ → ℝ → ℝ, (gaussP G nx ny P fun p q x y =>
      dx (u S P s0 c 2) x y * dy (u S P s0 c 2) x y * g p q x y) = 0 := by
    intro g
    simp [hc, gaussP, gauss]
  constructor
  · rw [Gradient, h1, z, add_zero]
  · intro hr
    rw [Gradient, h2 hr, z, add_zero]

/-- The derivative in the claim exists. -/
theorem energy_differentiable {S : Shape ℝ} (hS : S.C2) (κ : ℝ) (G : GaussTab ℝ) (nx ny : ℕ)
    (P : Panel ℝ) (s0 : ℕ) (F : ℕ → ℕ → ℕ → ℕ → ℝ) (hF : ∀ p q, ABDSym (F p q))
    (c d : ℕ → ℝ) : DifferentiableAt ℝ
      (fun t : ℝ => energy κ S G nx ny P s0 F fun k => c k + t * d k) 0 :=
  (hasDerivAt_energy hS κ G nx ny P s0 F (fun p q => (hF p q).symm) c d).differentiableAt

/-- Violation, with the exact shape functions and the tabulated Gauss rule of any supported order:
an orthotropic plate in pure deflection. -/
theorem fint_gradient_violated (nx ny : ℕ) (hx : 2 ≤ nx ∧ nx ≤ 64) (hy : 2 ≤ ny ∧ ny ≤ 64) :
    dirDeriv (energy 0 (bardellShape ℝ) (gaussTab ℝ) nx ny ShearWitness.plate 0
        fun _ _ => ShearWitness.lam) ShearWitness.c ShearWitness.c
      < vdot (plateFintF (bardellShape ℝ) (gaussTab ℝ) ShearWitness.plate
        (fun _ _ => ShearWitness.lam) ShearWitness.c 0 nx ny) ShearWitness.c := by
  rw [(fint_defect bardellShape_C2 (gaussTab ℝ) ShearWitness.plate (by norm_num [ShearWitness.plate])
    (by norm_num [ShearWitness.plate]) (fun _ _ => ShearWitness.lam)
    (fun _ _ => ShearWitness.lam_sym) ShearWitness.c ShearWitness.c 0 nx ny).1]
  have h := ShearWitness.pos nx ny hx hy
  have e : (gaussP (gaussTab ℝ) nx ny ShearWitness.plate fun _ _ x y =>
        dx (u (bardellShape ℝ) ShearWitness.plate 0 ShearWitness.c 2) x y
          * dy (u (bardellShape ℝ) ShearWitness.plate 0 ShearWitness.c 2) x y *
          resultant ShearWitness.lam (fun s => dirDeriv (fun e => vkStrain 0 (bardellShape ℝ)
            ShearWitness.plate 0 e s x y) ShearWitness.c ShearWitness.c) 2)
      = 2 * gaussP (gaussTab ℝ) nx ny ShearWitness.plate
          fun _ _ x y => ShearWitness.slopes x y ^ 2 := by
    rw [← gaussP_smul]
    refine gaussP_congr fun p _ q _ x y => ?_
    simp only [dirDeriv_vkStrain bardellShape_C2, u_dx bardellShape_C2, u_dy bardellShape_C2,
      ShearWitness.slopes, resultant, Finset.sum_range_succ, Finset.sum_range_zero,
      ShearWitness.lam, vkVar, lin, ShearWitness.membrane_zero _ _ _ (show 0 < 2 by norm_num),
      ShearWitness.membrane_zero _ _ _ (show 1 < 2 by norm_num)]
    norm_num
    ring
  rw [e]
  linarith

/-- The claim in full is false. -/
theorem fint_gradient_false : ¬ ∀ (P : Panel ℝ) (F : ℕ → ℕ → ℕ → ℕ → ℝ) (c d : ℕ → ℝ)
    (s0 nx ny : ℕ), P.a ≠ 0 → P.b ≠ 0 → (∀ p q, ABDSym (F p q)) →
    Gradient 0 (plateFintF (bardellShape ℝ) (gaussTab ℝ) P F c s0 nx ny) (bardellShape ℝ)
      (gaussTab ℝ) nx ny P s0 F c d := by
  intro h
  have h1 := h ShearWitness.plate (fun _ _ => ShearWitness.lam) ShearWitness.c ShearWitness.c
    0 2 2 (by norm_num [ShearWitness.plate]) (by norm_num [ShearWitness.plate])
    (fun _ _ => ShearWitness.lam_sym)
  have h2 := fint_gradient_violated 2 2 (by norm_num) (by norm_num)
  rw [Gradient] at h1
  exact absurd h1 (ne_of_gt h2)

/-- A membrane state of a cylinder. -/
example (G : GaussTab ℝ) (d : ℕ → ℝ) : let S := Spec.bardellShape ℝ
    let c : ℕ → ℝ := fun k => if k % 3 = 2 then 0 else k
    vdot (cylFintF S G Witness.panel (fun _ _ => Witness.abd) c 12 6 8) d
      = dirDeriv (energy (1 / 2) S G 6 8 Witness.panel 12 fun _ _ => Witness.abd) c d := by
  intro S c
  refine (fint_gradient_partial bardellShape_C2 G Witness.panel (by simp [Witness.panel])
    (by simp [Witness.panel]) (fun _ _ => Witness.abd) (fun _ _ => Witness.abd_sym) c d 12 6 8
    ?_).2 (by simp [Witness.panel])
  intro x y
  have : ∀ i, (12 + 3 * i + 2) % 3 = 2 := fun i => by omega
  rw [u_dx bardellShape_C2]
  simp [disp, c, this]

end Verif.C15
