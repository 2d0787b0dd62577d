import Verif.Proofs.VkEnergy
import Verif.Spec.Witness

/-!
# C19: state-dependent geometric stiffness
-/

namespace Verif.C19

open Spec Model

/-- Initial-stress density `Nxx w,x² + 2 Nxy w,x w,y + Nyy w,y²` of the deflection `w`. -/
noncomputable def initialStress (N : ℕ → ℝ) (w : ℝ → ℝ → ℝ) (x y : ℝ) : ℝ :=
  N 0 * dx w x y ^ 2 + 2 * N 2 * (dx w x y * dy w x y) + N 1 * dy w x y ^ 2

/-- The claim for one state: with the strains `e` of the state (component, x, y), the quadratic
form of the matrix is the initial-stress energy with `N = N_prescribed + [A B] e` at every
integration point. -/
def StateStress (kG : Coo ℝ) (e : ℕ → ℝ → ℝ → ℝ) (S : Shape ℝ) (G : GaussTab ℝ) (nx ny : ℕ)
    (P : Panel ℝ) (s0 : ℕ) (F : ℕ → ℕ → ℕ → ℕ → ℝ) (N : ℕ → ℝ) (d : ℕ → ℝ) : Prop :=
  Coo.quad (Coo.finalizeSym kG) d = gaussP G nx ny P fun p q x y =>
    initialStress (fun i => N i + resultant (F p q) (fun s => e s x y) i) (u S P s0 d 2) x y

theorem stressDens_eq {S : Shape ℝ} (hS : S.C2) (P : Panel ℝ) (s0 : ℕ) (d : ℕ → ℝ)
    (N : ℕ → ℝ) (x y : ℝ) :
    stressDens S P s0 d (N 0) (N 1) (N 2) x y = initialStress N (u S P s0 d 2) x y := by
  simp only [stressDens, initialStress, u_dx hS, u_dy hS]

/-- Linear kinematics (`NLgeom = False`), plate and cylinder, laminate given per point:
`N = N_prescribed + [A B] ε`, `ε` the linear strains of the state. -/
theorem kG_linear {S : Shape ℝ} (hS : S.C2) (G : GaussTab ℝ) (P : Panel ℝ) (ha : P.a ≠ 0)
    (hb : P.b ≠ 0) (F : ℕ → ℕ → ℕ → ℕ → ℝ) (hF : ∀ p q, ABDSym (F p q)) (c d : ℕ → ℝ)
    (s0 nx ny NL : ℕ) (hNL : NL ≠ 1) (N : ℕ → ℝ) :
    (∃ L, plateFkGnum S G P (.field nx ny F) c s0 s0 nx ny NL (N 0) (N 1) (N 2) = .ok L ∧
      StateStress L (linStrain 0 S P s0 c) S G nx ny P s0 F N d) ∧
    (∃ L, cylFkGnum S G P (.field nx ny F) c s0 s0 nx ny NL (N 0) (N 1) (N 2) = .ok L ∧
      StateStress L (linStrain (1 / P.r) S P s0 c) S G nx ny P s0 F N d) := by
  constructor
  · refine ⟨plateFkGnumF S G P F c s0 s0 nx ny NL (N 0) (N 1) (N 2),
      by simp [plateFkGnum, lamAt, Except.map], ?_⟩
    rw [StateStress, plateFkGnum_quad S G P ha hb F hF]
    simp only [if_neg hNL, ← stressDens_eq hS, linStrain_lin hS]
  · refine ⟨cylFkGnumF S G P F c s0 s0 nx ny NL (N 0) (N 1) (N 2),
      by simp [cylFkGnum, lamAt, Except.map], ?_⟩
    rw [StateStress, cylFkGnum_quad S G P ha hb F hF]
    simp only [if_neg hNL, ← stressDens_eq hS, linStrain_lin hS]

/-- One laminate for all points. -/
theorem kG_linear_one {S : Shape ℝ} (hS : S.C2) (G : GaussTab ℝ) (P : Panel ℝ) (ha : P.a ≠ 0)
    (hb : P.b ≠ 0) (F : ℕ → ℕ → ℝ) (hF : ABDSym F) (c d : ℕ → ℝ)
    (s0 nx ny NL : ℕ) (hNL : NL ≠ 1) (N : ℕ → ℝ) :
    (∃ L, plateFkGnum S G P (.one F) c s0 s0 nx ny NL (N 0) (N 1) (N 2) = .ok L ∧
      StateStress L (linStrain 0 S P s0 c) S G nx ny P s0 (fun _ _ => F) N d) ∧
    (∃ L, cylFkGnum S G P (.one F) c s0 s0 nx ny NL (N 0) (N 1) (N 2) = .ok L ∧
      StateStress L (linStrain (1 / P.r) S P s0 c) S G nx ny P s0 (fun _ _ => F) N d) := by
  have h := kG_linear hS G P ha hb (fun _ _ => F) (fun _ _ => hF) c d s0 nx ny NL hNL N
  have e1 : plateFkGnum S G P (.one F) c s0 s0 nx ny NL (N 0) (N 1) (N 2)
      = plateFkGnum S G P (.field nx ny fun _ _ => F) c s0 s0 nx ny NL (N 0) (N 1) (N 2) := by
    simp [plateFkGnum, lamAt]
  have e2 : cylFkGnum S G P (.one F) c s0 s0 nx ny NL (N 0) (N 1) (N 2)
      = cylFkGnum S G P (.field nx ny fun _ _ => F) c s0 s0 nx ny NL (N 0) (N 1) (N 2) := by
    simp [cylFkGnum, lamAt]
  rw [e1, e2]
  exact h

/-- With a zero state, linear or non-linear, only the prescribed loads act. -/
theorem kG_zero_state {S : Shape ℝ} (hS : S.C2) (G : GaussTab ℝ) (P : Panel ℝ) (ha : P.a ≠ 0)
    (hb : P.b ≠ 0) (F : ℕ → ℕ → ℕ → ℕ → ℝ) (hF : ∀ p q, ABDSym (F p q)) (d : ℕ → ℝ)
    (s0 nx ny NL : ℕ) (N : ℕ → ℝ) :
    Coo.quad (Coo.finalizeSym
        (plateFkGnumF S G P F (fun _ => 0) s0 s0 nx ny NL (N 0) (N 1) (N 2))) d
      = (gaussP G nx ny P fun _ _ x y => initialStress N (u S P s0 d 2) x y) ∧
    Coo.quad (Coo.finalizeSym
        (cylFkGnumF S G P F (fun _ => 0) s0 s0 nx ny NL (N 0) (N 1) (N 2))) d
      = gaussP G nx ny P fun _ _ x y => initialStress N (u S P s0 d 2) x y := by
  have hd : ∀ α p q ξ η, disp S P s0 (fun _ => 0) α p q ξ η = 0 := fun _ _ _ _ _ => by simp [disp]
  have hl : ∀ κ s x y, lin κ S P s0 (fun _ => 0) s x y = 0 := by
    intro κ s x y
    unfold lin
    simp only [hd]
    split <;> norm_num
  have hv : ∀ κ s x y, vkWith 2 κ S P s0 (fun _ => 0) s x y = 0 := by
    intro κ s x y
    unfold vkWith
    simp only [hd, hl]
    split <;> norm_num
  have hr : ∀ (f : ℕ → ℕ → ℝ) i, resultant f (fun _ => 0) i = 0 := by simp [resultant]
  constructor
  · rw [plateFkGnum_quad S G P ha hb F hF]
    simp only [hl, hv, ite_self, hr, add_zero, ← stressDens_eq hS]
  · rw [cylFkGnum_quad S G P ha hb F hF]
    simp only [hl, hv, ite_self, hr, add_zero, ← stressDens_eq hS]

/-- Non-linear kinematics, exactly what the code computes: the stresses of the von Karman strains
plus the stress of an additional shear strain `w,x w,y`. -/
theorem kG_defect {S : Shape ℝ} (hS : S.C2) (G : GaussTab ℝ) (P : Panel ℝ) (ha : P.a ≠ 0)
    (hb : P.b ≠ 0) (F : ℕ → ℕ → ℕ → ℕ → ℝ) (hF : ∀ p q, ABDSym (F p q)) (c d : ℕ → ℝ)
    (s0 nx ny : ℕ) (N : ℕ → ℝ) :
    StateStress (plateFkGnumF S G P F c s0 s0 nx ny 1 (N 0) (N 1) (N 2))
      (fun s x y => vkStrain 0 S P s0 c s x y
        + shear (dx (u S P s0 c 2) x y * dy (u S P s0 c 2) x y) s) S G nx ny P s0 F N d ∧
    StateStress (cylFkGnumF S G P F c s0 s0 nx ny 1 (N 0) (N 1) (N 2))
      (fun s x y => vkStrain (1 / P.r) S P s0 c s x y
        + shear (dx (u S P s0 c 2) x y * dy (u S P s0 c 2) x y) s) S G nx ny P s0 F N d := by
  constructor
  · rw [StateStress, plateFkGnum_quad S G P ha hb F hF]
    simp only [if_true, ← stressDens_eq hS, vkWith_two hS, vkStrain_vk hS, one_mul]
  · rw [StateStress, cylFkGnum_quad S G P ha hb F hF]
    simp only [if_true, ← stressDens_eq hS, vkWith_two hS, vkStrain_vk hS, one_mul]

/-- Full claim for `NLgeom = True`: `StateStress` with the von Karman strains, for all states.
Proved part: states with `w,x w,y = 0` at every point.
Missing part: false, see `kG_nonlinear_violated`. -/
theorem kG_nonlinear_partial {S : Shape ℝ} (hS : S.C2) (G : GaussTab ℝ) (P : Panel ℝ)
    (ha : P.a ≠ 0) (hb : P.b ≠ 0) (F : ℕ → ℕ → ℕ → ℕ → ℝ) (hF : ∀ p q, ABDSym (F p q))
    (c d : ℕ → ℝ) (s0 nx ny : ℕ) (N : ℕ → ℝ)
    (hc : ∀ x y, dx (u S P s0 c 2) x y * dy (u S P s0 c 2) x y = 0) :
    StateStress (plateFkGnumF S G P F c s0 s0 nx ny 1 (N 0) (N 1) (N 2))
      (vkStrain 0 S P s0 c) S G nx ny P s0 F N d ∧
    StateStress (cylFkGnumF S G P F c s0 s0 nx ny 1 (N 0) (N 1) (N 2))
      (vkStrain (1 / P.r) S P s0 c) S G nx ny P s0 F N d := by
  have h := kG_defect hS G P ha hb F hF c d s0 nx ny N
  have z : ∀ s, shear 0 s = 0 := fun s => by simp [shear]
  simpa only [hc, z, add_zero] using h

/-- Violation for `NLgeom = True`: an orthotropic plate in pure deflection, no prescribed loads,
any supported Gauss rule. -/
theorem kG_nonlinear_violated (nx ny : ℕ) (hx : 2 ≤ nx ∧ nx ≤ 64) (hy : 2 ≤ ny ∧ ny ≤ 64) :
    ¬ StateStress (plateFkGnumF (bardellShape ℝ) (gaussTab ℝ) ShearWitness.plate
        (fun _ _ => ShearWitness.lam) ShearWitness.c 0 0 nx ny 1 0 0 0)
      (vkStrain 0 (bardellShape ℝ) ShearWitness.plate 0 ShearWitness.c) (bardellShape ℝ)
      (gaussTab ℝ) nx ny ShearWitness.plate 0 (fun _ _ => ShearWitness.lam) (fun _ => 0)
      ShearWitness.c := by
  intro h
  have h1 := (kG_defect bardellShape_C2 (gaussTab ℝ) ShearWitness.plate
    (by norm_num [ShearWitness.plate]) (by norm_num [ShearWitness.plate])
    (fun _ _ => ShearWitness.lam) (fun _ _ => ShearWitness.lam_sym) ShearWitness.c ShearWitness.c
    0 nx ny (fun _ => 0)).1
  rw [StateStress] at h h1
  rw [h] at h1
  have hp := ShearWitness.pos nx ny hx hy
  have e : (gaussP (gaussTab ℝ) nx ny ShearWitness.plate fun _ _ x y => initialStress (fun i => 0 +
        resultant ShearWitness.lam (fun s => vkStrain 0 (bardellShape ℝ) ShearWitness.plate 0
          ShearWitness.c s x y + shear
            (dx (u (bardellShape ℝ) ShearWitness.plate 0 ShearWitness.c 2) x y
              * dy (u (bardellShape ℝ) ShearWitness.plate 0 ShearWitness.c 2) x y) s) i)
        (u (bardellShape ℝ) ShearWitness.plate 0 ShearWitness.c 2) x y)
      = (gaussP (gaussTab ℝ) nx ny ShearWitness.plate fun _ _ x y => initialStress (fun i => 0 +
        resultant ShearWitness.lam (fun s => vkStrain 0 (bardellShape ℝ) ShearWitness.plate 0
          ShearWitness.c s x y) i)
        (u (bardellShape ℝ) ShearWitness.plate 0 ShearWitness.c 2) x y)
        + 2 * gaussP (gaussTab ℝ) nx ny ShearWitness.plate
          fun _ _ x y => ShearWitness.slopes x y ^ 2 := by
    rw [← gaussP_smul, ← gaussP_add]
    refine gaussP_congr fun p _ q _ x y => ?_
    simp only [initialStress, u_dx bardellShape_C2, u_dy bardellShape_C2,
      ShearWitness.slopes, resultant, Finset.sum_range_succ, Finset.sum_range_zero,
      ShearWitness.lam, shear]
    norm_num
    ring
  rw [e] at h1
  linarith

example (G : GaussTab ℝ) (c d : ℕ → ℝ) : let S := Spec.bardellShape ℝ
    ∃ L, cylFkGnum S G Witness.panel (.one Witness.abd) c 12 12 6 8 0 (-1) 2 (1/2) = .ok L ∧
      StateStress L (linStrain (1 / 2) S Witness.panel 12 c) S G 6 8 Witness.panel 12
        (fun _ _ => Witness.abd) (fun i => if i = 0 then -1 else if i = 1 then 2 else 1/2) d := by
  intro S
  exact (kG_linear_one bardellShape_C2 G Witness.panel (by simp [Witness.panel])
    (by simp [Witness.panel]) Witness.abd Witness.abd_sym c d 12 6 8 0 (by norm_num)
    (fun i => if i = 0 then -1 else if i = 1 then 2 else 1/2)).2

end Verif.C19
