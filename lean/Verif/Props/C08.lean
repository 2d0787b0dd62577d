import Verif.Model.Builders
import Verif.Proofs.AnaEntries
import Verif.Proofs.Bardell
import Verif.Proofs.PatZero
import Verif.Spec.Witness

/-!
# C08: the analytical plate stiffness is the classical-laminate strain energy
-/

namespace Verif.C08

open Finset

variable {K : Type*} [Field K]

/-- For every field, every shape functions `S`, and every linear functional `M` whose values on
products of shape functions are what the tables `I` hold: the quadratic form of the finalised
`fk0` is the functional applied to the classical-laminate energy density. -/
theorem plate_fk0_energy [CharZero K] {I : Tab K} {S : Shape K} {M : Mean K} (hI : I.Exact S M)
    (hS : S.In M) (P : Panel K) (ha : P.a ≠ 0) (hb : P.b ≠ 0) (F : ℕ → ℕ → K)
    (hF : Spec.ABDSym F) (s0 : ℕ) (c : ℕ → K) :
    Coo.quad (Coo.finalizeSym (Model.plateFk0 I P F s0 s0)) c
      = P.a * P.b / 4 * M.L (fun ξ => M.L (fun η =>
          Spec.dens 6 F (fun s => Spec.plateStrain S P s0 c s ξ η))) := by
  rw [Model.plateFk0, Coo.quad_finalizeSym_pad]
  rw [quad_ana hI hS P s0 c 6 F hF.symm (plateB P.a P.b) (P.a * P.b / 4)
    Gen.PlateAna.fk0_pat pat9_ok pat9_full (Gen.PlateAna.fk0 I P (Lam.ofABD F))]
  · congr 2; funext ξ; congr 1; funext η
    exact dens_congr 6 F _ _ fun s hs => applyB_plate S P s0 c s hs ξ η
  · intro i k j l a b hab
    exact plateAna_fk0_zero I P (Lam.ofABD F) i k j l a b hab
  · intro i k j l a b hα hβ
    exact plate_fk0_entry I P F hF ha hb i k j l a b hα hβ

/-- The same with physical coordinates, true derivatives and true integrals: for twice
differentiable shape functions and exact tables, `cᵀ kC c = ∫₀ᵃ∫₀ᵇ εᵀ ABD ε dy dx` with the six
linear Kirchhoff strains of the displacement field of `c`. -/
theorem plate_fk0_strain_energy {I : Tab ℝ} {S : Shape ℝ} (hI : I.Exact S Mean.integral)
    (hS : S.C2) (P : Panel ℝ) (ha : P.a ≠ 0) (hb : P.b ≠ 0) (F : ℕ → ℕ → ℝ)
    (hF : Spec.ABDSym F) (s0 : ℕ) (c : ℕ → ℝ) :
    Coo.quad (Coo.finalizeSym (Model.plateFk0 I P F s0 s0)) c
      = ∫ x in (0 : ℝ)..P.a, ∫ y in (0 : ℝ)..P.b, Spec.dens 6 F fun s =>
          Spec.donnell 0 (Spec.u S P s0 c 0) (Spec.u S P s0 c 1) (Spec.u S P s0 c 2) s x y := by
  simp only [Spec.donnell_plate hS]
  rw [Spec.integral_rect P.a P.b ha hb (fun ξ η => Spec.dens 6 F fun s =>
    Spec.plateStrain S P s0 c s ξ η)]
  exact plate_fk0_energy hI hS.inMean P ha hb F hF s0 c

/-- A panel with different term numbers, mixed edge conditions and a fully coupled laminate meets
all hypotheses, with the exact Bardell functions and their exact integrals. -/
example (c : ℕ → ℝ) : let S := Spec.bardellShape ℝ
    Coo.quad (Coo.finalizeSym (Model.plateFk0 (Tab.of S Mean.integral) Witness.panel Witness.abd
      12 12)) c
      = ∫ x in (0 : ℝ)..3, ∫ y in (0 : ℝ)..1, Spec.dens 6 Witness.abd fun s =>
          Spec.donnell 0 (Spec.u S Witness.panel 12 c 0) (Spec.u S Witness.panel 12 c 1)
            (Spec.u S Witness.panel 12 c 2) s x y :=
  plate_fk0_strain_energy (Tab.of_exact _ _) Spec.bardellShape_C2 Witness.panel
    (by simp [Witness.panel]) (by simp [Witness.panel]) Witness.abd Witness.abd_sym 12 c

end Verif.C08
