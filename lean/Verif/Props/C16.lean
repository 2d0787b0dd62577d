import Verif.Proofs.VkEnergy
import Verif.Spec.Witness

/-!
# C16: the tangent stiffness and the Jacobian of the internal force
-/

namespace Verif.C16

open Spec Model

/-- `dᵀ kT(c) e` for a plate: `Shell.calc_kT` (`shell.py` lines 551-560) adds the finalised
matrices of `calc_kC` and `calc_kG`, both with `NLgeom=True` and the state `c`; the prescribed loads
`Nxx, Nyy, Nxy` of the shell are zero (they are external loads and do not enter `calc_fint`). -/
noncomputable def plateKT (S : Shape ℝ) (G : GaussTab ℝ) (P : Panel ℝ) (F : ℕ → ℕ → ℕ → ℕ → ℝ) (c : ℕ → ℝ)
    (s0 nx ny : ℕ) : Coo ℝ :=
  Coo.finalizeSym (plateFkCnumF S G P F c s0 s0 nx ny 1)
    ++ Coo.finalizeSym (plateFkGnumF S G P F c s0 s0 nx ny 1 0 0 0)

/-- The same for a cylinder. -/
noncomputable def cylKT (S : Shape ℝ) (G : GaussTab ℝ) (P : Panel ℝ) (F : ℕ → ℕ → ℕ → ℕ → ℝ) (c : ℕ → ℝ)
    (s0 nx ny : ℕ) : Coo ℝ :=
  Coo.finalizeSym (cylFkCnumF S G P F c s0 s0 nx ny 1)
    ++ Coo.finalizeSym (cylFkGnumF S G P F c s0 s0 nx ny 1 0 0 0)

/-- The claim for one state and two directions: `dᵀ kT e` is the derivative along `e` of
`dᵀ calc_fint`. -/
def Jacobian (kT : Coo ℝ) (fint : (ℕ → ℝ) → VecW ℝ) (c d e : ℕ → ℝ) : Prop :=
  Coo.bilin kT d e = dirDeriv (fun c => vdot (fint c) d) c e

theorem hasDerivAt_line (G : GaussTab ℝ) (nx ny : ℕ) (P : Panel ℝ) (F : ℕ → ℕ → ℕ → ℕ → ℝ)
    (κ : ℝ) (S : Shape ℝ) (s0 : ℕ) (c d e : ℕ → ℝ) :
    HasDerivAt (fun t : ℝ => gaussP G nx ny P fun p q x y => work (F p q)
        (fun s => vkWith 2 κ S P s0 (fun k => c k + t * e k) s x y)
        (fun s => vkVar κ S P s0 (fun k => c k + t * e k) d s x y))
      (gaussP G nx ny P fun p q x y =>
            work (F p q) (fun s => vkVarWith 2 κ S P s0 c e s x y)
              (fun s => vkVar κ S P s0 c d s x y)
            + work (F p q) (fun s => vkWith 2 κ S P s0 c s x y)
              (fun s => vkSec S P s0 d e s x y)) 0 := by
  simp only [fint_line]
  have := fun A B C D => hasDerivAt_poly A B C D 0
  simpa only [mul_zero, add_zero] using this _ _ _ _

/-- The Jacobian exists (plate). -/
theorem fint_differentiable (S : Shape ℝ) (G : GaussTab ℝ) (P : Panel ℝ) (ha : P.a ≠ 0)
    (hb : P.b ≠ 0) (F : ℕ → ℕ → ℕ → ℕ → ℝ) (hF : ∀ p q, ABDSym (F p q)) (c d e : ℕ → ℝ)
    (s0 nx ny : ℕ) : DifferentiableAt ℝ
      (fun t : ℝ => vdot (plateFintF S G P F (fun k => c k + t * e k) s0 nx ny) d) 0 := by
  simp only [plateFint_work S G P ha hb F hF]
  exact (hasDerivAt_line G nx ny P F 0 S s0 c d e).differentiableAt

/-- The derivative of the product of slopes `w,x w,y` at the deflection of `c` along `e`. -/
noncomputable def slopes' (S : Shape ℝ) (P : Panel ℝ) (s0 : ℕ) (c e : ℕ → ℝ) (x y : ℝ) : ℝ :=
  dx (u S P s0 c 2) x y * dy (u S P s0 e 2) x y + dy (u S P s0 c 2) x y * dx (u S P s0 e 2) x y

/-- Exactly what the code computes, for all states and directions: the Jacobian contains one more
term than `kT`, the stress of an additional shear strain `w,x δw,y + w,y δw,x`. -/
theorem kT_defect {S : Shape ℝ} (hS : S.C2) (G : GaussTab ℝ) (P : Panel ℝ) (ha : P.a ≠ 0)
    (hb : P.b ≠ 0) (F : ℕ → ℕ → ℕ → ℕ → ℝ) (hF : ∀ p q, ABDSym (F p q)) (c d e : ℕ → ℝ)
    (s0 nx ny : ℕ) :
    (dirDeriv (fun c => vdot (plateFintF S G P F c s0 nx ny) d) c e
      = Coo.bilin (plateKT S G P F c s0 nx ny) d e
        + gaussP G nx ny P fun p q x y => slopes' S P s0 c e x y *
          resultant (F p q) (fun s => dirDeriv (fun e => vkStrain 0 S P s0 e s x y) c d) 2) ∧
    (P.r ≠ 0 → dirDeriv (fun c => vdot (cylFintF S G P F c s0 nx ny) d) c e
      = Coo.bilin (cylKT S G P F c s0 nx ny) d e
        + gaussP G nx ny P fun p q x y => slopes' S P s0 c e x y *
          resultant (F p q) (fun s => dirDeriv (fun e => vkStrain (1 / P.r) S P s0 e s x y) c d)
            2) := by
  have key : ∀ κ : ℝ, (gaussP G nx ny P fun p q x y =>
            work (F p q) (fun s => vkVarWith 2 κ S P s0 c e s x y)
              (fun s => vkVar κ S P s0 c d s x y)
            + work (F p q) (fun s => vkWith 2 κ S P s0 c s x y)
              (fun s => vkSec S P s0 d e s x y))
      = ((gaussP G nx ny P fun p q x y => work (F p q) (fun s => vkVar κ S P s0 c e s x y)
              (fun s => vkVar κ S P s0 c d s x y))
          + gaussP G nx ny P fun p q x y => work (F p q) (fun s => vkWith 2 κ S P s0 c s x y)
              (fun s => vkSec S P s0 d e s x y))
        + gaussP G nx ny P fun p q x y => slopes' S P s0 c e x y *
          resultant (F p q) (fun s => dirDeriv (fun e => vkStrain κ S P s0 e s x y) c d) 2 := by
    intro κ
    rw [← gaussP_add, ← gaussP_add]
    refine gaussP_congr fun p _ q _ x y => ?_
    simp only [vkVarWith_two hS, work_add_left, dirDeriv_vkStrain hS]
    rw [work_shear (hF p q).symm, slopes']
    ring
  constructor
  · unfold dirDeriv
    simp only [plateFint_work S G P ha hb F hF]
    rw [plateKT, Coo.bilin_append, plateFkCnum_bilin S G P ha hb F hF,
      plateFkGnum_bilin S G P ha hb F hF]
    simp only [if_true]
    exact (hasDerivAt_line G nx ny P F 0 S s0 c d e).deriv.trans (key 0)
  · intro hr
    unfold dirDeriv
    simp only [cylFint_work S G P ha hb hr F hF]
    rw [cylKT, Coo.bilin_append, cylFkCnum_bilin S G P ha hb hr F hF,
      cylFkGnum_bilin S G P ha hb F hF]
    simp only [if_true]
    exact (hasDerivAt_line G nx ny P F (1 / P.r) S s0 c d e).deriv.trans (key (1 / P.r))

/-- Full claim: `Jacobian` for all `c`, `d`, `e`.  Proved part: states without deflection slopes,
all directions (the pre-buckling membrane states and the undeformed state).
Missing part: false, see `kT_jacobian_violated`. -/
theorem kT_jacobian_partial {S : Shape ℝ} (hS : S.C2) (G : GaussTab ℝ) (P : Panel ℝ)
    (ha : P.a ≠ 0) (hb : P.b ≠ 0) (F : ℕ → ℕ → ℕ → ℕ → ℝ) (hF : ∀ p q, ABDSym (F p q))
    (c d e : ℕ → ℝ) (s0 nx ny : ℕ)
    (hc : ∀ x y, dx (u S P s0 c 2) x y = 0 ∧ dy (u S P s0 c 2) x y = 0) :
    Jacobian (plateKT S G P F c s0 nx ny) (fun c => plateFintF S G P F c s0 nx ny) c d e ∧
    (P.r ≠ 0 →
      Jacobian (cylKT S G P F c s0 nx ny) (fun c => cylFintF S G P F c s0 nx ny) c d e) := by
  obtain ⟨h1, h2⟩ := kT_defect hS G P ha hb F hF c d e s0 nx ny
  have z : ∀ g : ℕ → ℕ → ℝ → ℝ → ℝ, (gaussP G nx ny P fun p q x y =>
      slopes' S P s0 c e x y * g p q x y) = 0 := by
    intro g
    simp [slopes', hc, gaussP, gauss]
  constructor
  · rw [Jacobian, h1, z, add_zero]
  · intro hr
    rw [Jacobian, h2 hr, z, add_zero]

/-- Violation, with the exact shape functions and the tabulated Gauss rule of any supported order:
an orthotropic plate in pure deflection; the tangent is strictly too soft along the deflection. -/
theorem kT_jacobian_violated (nx ny : ℕ) (hx : 2 ≤ nx ∧ nx ≤ 64) (hy : 2 ≤ ny ∧ ny ≤ 64) :
    Coo.quad (plateKT (bardellShape ℝ) (gaussTab ℝ) ShearWitness.plate
        (fun _ _ => ShearWitness.lam) ShearWitness.c 0 nx ny) ShearWitness.c
      < dirDeriv (fun c => vdot (plateFintF (bardellShape ℝ) (gaussTab ℝ) ShearWitness.plate
        (fun _ _ => ShearWitness.lam) c 0 nx ny) ShearWitness.c) ShearWitness.c ShearWitness.c := by
  rw [(kT_defect bardellShape_C2 (gaussTab ℝ) ShearWitness.plate (by norm_num [ShearWitness.plate])
    (by norm_num [ShearWitness.plate]) (fun _ _ => ShearWitness.lam)
    (fun _ _ => ShearWitness.lam_sym) ShearWitness.c ShearWitness.c ShearWitness.c 0 nx ny).1]
  have h := ShearWitness.pos nx ny hx hy
  have e : (gaussP (gaussTab ℝ) nx ny ShearWitness.plate fun _ _ x y =>
        slopes' (bardellShape ℝ) ShearWitness.plate 0 ShearWitness.c ShearWitness.c x y *
          resultant ShearWitness.lam (fun s => dirDeriv (fun e => vkStrain 0 (bardellShape ℝ)
            ShearWitness.plate 0 e s x y) ShearWitness.c ShearWitness.c) 2)
      = 4 * gaussP (gaussTab ℝ) nx ny ShearWitness.plate
          fun _ _ x y => ShearWitness.slopes x y ^ 2 := by
    rw [← gaussP_smul]
    refine gaussP_congr fun p _ q _ x y => ?_
    simp only [dirDeriv_vkStrain bardellShape_C2, slopes', u_dx bardellShape_C2,
      u_dy bardellShape_C2,
      ShearWitness.slopes, resultant, Finset.sum_range_succ, Finset.sum_range_zero,
      ShearWitness.lam, vkVar, lin, ShearWitness.membrane_zero _ _ _ (show 0 < 2 by norm_num),
      ShearWitness.membrane_zero _ _ _ (show 1 < 2 by norm_num)]
    norm_num
    ring
  rw [e, Coo.quad]
  linarith

/-- The claim in full is false. -/
theorem kT_jacobian_false : ¬ ∀ (P : Panel ℝ) (F : ℕ → ℕ → ℕ → ℕ → ℝ) (c d e : ℕ → ℝ)
    (s0 nx ny : ℕ), P.a ≠ 0 → P.b ≠ 0 → (∀ p q, ABDSym (F p q)) →
    Jacobian (plateKT (bardellShape ℝ) (gaussTab ℝ) P F c s0 nx ny)
      (fun c => plateFintF (bardellShape ℝ) (gaussTab ℝ) P F c s0 nx ny) c d e := by
  intro h
  have h1 := h ShearWitness.plate (fun _ _ => ShearWitness.lam) ShearWitness.c ShearWitness.c
    ShearWitness.c 0 2 2 (by norm_num [ShearWitness.plate]) (by norm_num [ShearWitness.plate])
    (fun _ _ => ShearWitness.lam_sym)
  exact absurd h1 (ne_of_lt (kT_jacobian_violated 2 2 (by norm_num) (by norm_num)))

/-- A membrane state of a cylinder. -/
example (G : GaussTab ℝ) (d e : ℕ → ℝ) : let S := Spec.bardellShape ℝ
    let c : ℕ → ℝ := fun k => if k % 3 = 2 then 0 else k
    Coo.bilin (cylKT S G Witness.panel (fun _ _ => Witness.abd) c 12 6 8) d e
      = dirDeriv (fun c => vdot (cylFintF S G Witness.panel (fun _ _ => Witness.abd) c 12 6 8) d)
        c e := by
  intro S c
  refine (kT_jacobian_partial bardellShape_C2 G Witness.panel (by simp [Witness.panel])
    (by simp [Witness.panel]) (fun _ _ => Witness.abd) (fun _ _ => Witness.abd_sym) c d e 12 6 8
    ?_).2 (by simp [Witness.panel])
  intro x y
  have : ∀ i, (12 + 3 * i + 2) % 3 = 2 := fun i => by omega
  rw [u_dx bardellShape_C2, u_dy bardellShape_C2]
  simp [disp, c, this]

end Verif.C16
