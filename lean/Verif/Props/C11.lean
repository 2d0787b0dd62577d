import Verif.Props.C08
import Verif.Proofs.VonKarman

/-!
# C11: the cylindrical-shell stiffness is the Donnell strain energy
-/

set_option linter.unusedSectionVars false

namespace Verif.C11

open Spec Model

variable {K : Type*} [Field K]

/-- Analytical cylinder: the plate energy with `eyy = v,y + w/r`, for every exact tables. -/
theorem cyl_fk0_energy [CharZero K] {I : Tab K} {S : Shape K} {M : Mean K} (hI : I.Exact S M)
    (hS : S.In M) (P : Panel K) (ha : P.a ≠ 0) (hb : P.b ≠ 0) (hr : P.r ≠ 0) (F : ℕ → ℕ → K)
    (hF : ABDSym F) (s0 : ℕ) (c : ℕ → K) :
    Coo.quad (Coo.finalizeSym (cylFk0 I P F s0 s0)) c
      = P.a * P.b / 4 * M.L (fun ξ => M.L (fun η =>
          dens 6 F (fun s => cylStrain S P s0 c s ξ η))) := by
  rw [cylFk0, Coo.quad_finalizeSym_pad]
  rw [quad_ana hI hS P s0 c 6 F hF.symm (cylB P.a P.b P.r) (P.a * P.b / 4)
    Gen.CylAna.fk0_pat pat9_ok pat9_full (Gen.CylAna.fk0 I P (Lam.ofABD F))]
  · congr 2; funext ξ; congr 1; funext η
    exact dens_congr 6 F _ _ fun s hs => applyB_cyl S P s0 c s hs ξ η
  · intro i k j l a b hab
    exact cylAna_fk0_zero I P (Lam.ofABD F) i k j l a b hab
  · intro i k j l a b hα hβ
    exact cyl_fk0_entry I P F hF ha hb hr i k j l a b hα hβ

/-- Physical form: `cᵀ kC c = ∫₀ᵃ∫₀ᵇ εᵀ ABD ε` with the Donnell strains of curvature `1/r`. -/
theorem cyl_fk0_strain_energy {I : Tab ℝ} {S : Shape ℝ} (hI : I.Exact S Mean.integral)
    (hS : S.C2) (P : Panel ℝ) (ha : P.a ≠ 0) (hb : P.b ≠ 0) (hr : P.r ≠ 0) (F : ℕ → ℕ → ℝ)
    (hF : ABDSym F) (s0 : ℕ) (c : ℕ → ℝ) :
    Coo.quad (Coo.finalizeSym (cylFk0 I P F s0 s0)) c
      = ∫ x in (0 : ℝ)..P.a, ∫ y in (0 : ℝ)..P.b,
          dens 6 F fun s => linStrain (1 / P.r) S P s0 c s x y := by
  simp only [linStrain, donnell_cyl hS]
  rw [integral_rect P.a P.b ha hb (fun ξ η => dens 6 F fun s => cylStrain S P s0 c s ξ η)]
  exact cyl_fk0_energy hI hS.inMean P ha hb hr F hF s0 c

/-- Numerical cylinder, a laminate per integration point. -/
theorem cyl_fkC_num_strain_energy {S : Shape ℝ} (hS : S.C2) (G : GaussTab ℝ) (P : Panel ℝ)
    (ha : P.a ≠ 0) (hb : P.b ≠ 0) (hr : P.r ≠ 0) (F : ℕ → ℕ → ℕ → ℕ → ℝ)
    (hF : ∀ p q, ABDSym (F p q)) (cs d : ℕ → ℝ) (s0 nx ny NL : ℕ) (hNL : NL ≠ 1) :
    (∃ L, cylFkCnum S G P (.field nx ny F) cs s0 s0 nx ny NL = .ok L ∧
      Coo.quad (Coo.finalizeSym L) d = gaussP G nx ny P fun p q x y =>
        dens 6 (F p q) fun s => linStrain (1 / P.r) S P s0 d s x y) ∧
    ∀ sx sy, (sx ≠ nx ∨ sy ≠ ny) →
      cylFkCnum S G P (.field sx sy F) cs s0 s0 nx ny NL = .error .valueError := by
  constructor
  · refine ⟨cylFkCnumF S G P F cs s0 s0 nx ny NL, by simp [cylFkCnum, lamAt, Except.map], ?_⟩
    rw [cylFkCnum_quad S G P ha hb hr F hF cs d s0 nx ny NL]
    simp only [hNL, if_false, linStrain_lin hS]
  · intro sx sy h
    have : ¬ (sx = nx ∧ sy = ny) := by tauto
    simp [cylFkCnum, lamAt, Except.map, this]

/-- Same with one laminate for the whole panel. -/
theorem cyl_fkC_num_strain_energy_one {S : Shape ℝ} (hS : S.C2) (G : GaussTab ℝ) (P : Panel ℝ)
    (ha : P.a ≠ 0) (hb : P.b ≠ 0) (hr : P.r ≠ 0) (F : ℕ → ℕ → ℝ)
    (hF : ABDSym F) (cs d : ℕ → ℝ) (s0 nx ny NL : ℕ) (hNL : NL ≠ 1) :
    ∃ L, cylFkCnum S G P (.one F) cs s0 s0 nx ny NL = .ok L ∧
      Coo.quad (Coo.finalizeSym L) d = gaussP G nx ny P fun _ _ x y =>
        dens 6 F fun s => linStrain (1 / P.r) S P s0 d s x y := by
  refine ⟨_, rfl, ?_⟩
  rw [cylFkCnum_quad S G P ha hb hr (fun _ _ => F) (fun _ _ => hF) cs d s0 nx ny NL]
  simp only [hNL, if_false, linStrain_lin hS]

example (c : ℕ → ℝ) : let S := Spec.bardellShape ℝ
    Coo.quad (Coo.finalizeSym (cylFk0 (Tab.of S Mean.integral) Witness.panel Witness.abd 12 12)) c
      = ∫ x in (0 : ℝ)..3, ∫ y in (0 : ℝ)..1, Spec.dens 6 Witness.abd fun s =>
          linStrain (1 / 2) S Witness.panel 12 c s x y :=
  cyl_fk0_strain_energy (Tab.of_exact _ _) Spec.bardellShape_C2 Witness.panel
    (by simp [Witness.panel]) (by simp [Witness.panel]) (by simp [Witness.panel]) Witness.abd
    Witness.abd_sym 12 c

example (G : GaussTab ℝ) (cs d : ℕ → ℝ) : let S := Spec.bardellShape ℝ
    ∃ L, cylFkCnum S G Witness.panel (.one Witness.abd) cs 12 12 6 8 0 = .ok L ∧
      Coo.quad (Coo.finalizeSym L) d = gaussP G 6 8 Witness.panel fun _ _ x y =>
        dens 6 Witness.abd fun s => linStrain (1 / 2) S Witness.panel 12 d s x y :=
  cyl_fkC_num_strain_energy_one bardellShape_C2 G Witness.panel (by simp [Witness.panel])
    (by simp [Witness.panel]) (by simp [Witness.panel]) Witness.abd Witness.abd_sym cs d 12 6 8 0
    (by norm_num)

end Verif.C11
