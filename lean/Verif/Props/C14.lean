import Verif.Proofs.VonKarman
import Verif.Proofs.Bardell
import Verif.Spec.Witness

/-!
# C14: the non-linear kC is the material part of the tangent
-/

namespace Verif.C14

open Spec Model

/-- Plate and cylinder: with `NLgeom`, `dᵀ kC(c) d` is the quadrature of `δεᵀ ABD δε`, `δε` being
the directional derivative at `c` along `d` of the von Karman strains of the displacement field. -/
theorem material_tangent {S : Shape ℝ} (hS : S.C2) (G : GaussTab ℝ) (P : Panel ℝ)
    (ha : P.a ≠ 0) (hb : P.b ≠ 0) (F : ℕ → ℕ → ℕ → ℕ → ℝ) (hF : ∀ p q, ABDSym (F p q))
    (c d : ℕ → ℝ) (s0 nx ny : ℕ) :
    (∃ L, plateFkCnum S G P (.field nx ny F) c s0 s0 nx ny 1 = .ok L ∧
      Coo.quad (Coo.finalizeSym L) d = gaussP G nx ny P fun p q x y => dens 6 (F p q) fun s =>
        dirDeriv (fun e => vkStrain 0 S P s0 e s x y) c d) ∧
    (P.r ≠ 0 → ∃ L, cylFkCnum S G P (.field nx ny F) c s0 s0 nx ny 1 = .ok L ∧
      Coo.quad (Coo.finalizeSym L) d = gaussP G nx ny P fun p q x y => dens 6 (F p q) fun s =>
        dirDeriv (fun e => vkStrain (1 / P.r) S P s0 e s x y) c d) := by
  constructor
  · refine ⟨plateFkCnumF S G P F c s0 s0 nx ny 1, by simp [plateFkCnum, lamAt, Except.map], ?_⟩
    rw [plateFkCnum_quad S G P ha hb F hF c d s0 nx ny 1]
    simp only [if_true, dirDeriv_vkStrain hS]
  · intro hr
    refine ⟨cylFkCnumF S G P F c s0 s0 nx ny 1, by simp [cylFkCnum, lamAt, Except.map], ?_⟩
    rw [cylFkCnum_quad S G P ha hb hr F hF c d s0 nx ny 1]
    simp only [if_true, dirDeriv_vkStrain hS]

/-- The same with one laminate for all points. -/
theorem material_tangent_one {S : Shape ℝ} (hS : S.C2) (G : GaussTab ℝ) (P : Panel ℝ)
    (ha : P.a ≠ 0) (hb : P.b ≠ 0) (F : ℕ → ℕ → ℝ) (hF : ABDSym F)
    (c d : ℕ → ℝ) (s0 nx ny : ℕ) :
    (∃ L, plateFkCnum S G P (.one F) c s0 s0 nx ny 1 = .ok L ∧
      Coo.quad (Coo.finalizeSym L) d = gaussP G nx ny P fun _ _ x y => dens 6 F fun s =>
        dirDeriv (fun e => vkStrain 0 S P s0 e s x y) c d) ∧
    (P.r ≠ 0 → ∃ L, cylFkCnum S G P (.one F) c s0 s0 nx ny 1 = .ok L ∧
      Coo.quad (Coo.finalizeSym L) d = gaussP G nx ny P fun _ _ x y => dens 6 F fun s =>
        dirDeriv (fun e => vkStrain (1 / P.r) S P s0 e s x y) c d) := by
  obtain ⟨⟨L, h1, h2⟩, h3⟩ :=
    material_tangent hS G P ha hb (fun _ _ => F) (fun _ _ => hF) c d s0 nx ny
  have e1 : plateFkCnum S G P (.one F) c s0 s0 nx ny 1
      = plateFkCnum S G P (.field nx ny fun _ _ => F) c s0 s0 nx ny 1 := by
    simp [plateFkCnum, lamAt]
  have e2 : cylFkCnum S G P (.one F) c s0 s0 nx ny 1
      = cylFkCnum S G P (.field nx ny fun _ _ => F) c s0 s0 nx ny 1 := by
    simp [cylFkCnum, lamAt]
  rw [e1, e2]
  exact ⟨⟨L, h1, h2⟩, h3⟩

/-- The directional derivative in the statement exists (it is not the default value of `deriv`)
and contains `w,x δw,y + w,y δw,x` in the shear strain. -/
theorem strain_differentiable {S : Shape ℝ} (hS : S.C2) (κ : ℝ) (P : Panel ℝ) (s0 : ℕ)
    (c d : ℕ → ℝ) (s : ℕ) (x y : ℝ) :
    DifferentiableAt ℝ (fun t : ℝ => vkStrain κ S P s0 (fun k => c k + t * d k) s x y) 0 ∧
    dirDeriv (fun e => vkStrain κ S P s0 e 2 x y) c d = linStrain κ S P s0 d 2 x y
      + (dx (u S P s0 c 2) x y * dy (u S P s0 d 2) x y
        + dy (u S P s0 c 2) x y * dx (u S P s0 d 2) x y) := by
  refine ⟨(hasDerivAt_vkStrain hS κ P s0 c d s x y).differentiableAt, ?_⟩
  rw [dirDeriv_vkStrain hS, vkVar, linStrain_lin hS]
  simp only [u_dx hS, u_dy hS]

example (G : GaussTab ℝ) (c d : ℕ → ℝ) : let S := Spec.bardellShape ℝ
    ∃ L, cylFkCnum S G Witness.panel (.one Witness.abd) c 12 12 6 8 1 = .ok L ∧
      Coo.quad (Coo.finalizeSym L) d = gaussP G 6 8 Witness.panel fun _ _ x y =>
        dens 6 Witness.abd fun s =>
          dirDeriv (fun e => vkStrain (1 / 2) S Witness.panel 12 e s x y) c d :=
  (material_tangent_one bardellShape_C2 G Witness.panel (by simp [Witness.panel])
    (by simp [Witness.panel]) Witness.abd Witness.abd_sym c d 12 6 8).2 (by simp [Witness.panel])

end Verif.C14
