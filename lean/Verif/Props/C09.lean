import Verif.Proofs.VonKarman
import Verif.Proofs.Bardell
import Verif.Spec.Witness

/-!
# C09: the numerically integrated plate stiffness is the same energy
-/

set_option linter.unusedSectionVars false

namespace Verif.C09

open Spec Model

variable {K : Type*} [Field K] [CharZero K] [DecidableEq K]

/-- One laminate for all points: `cᵀ kC c` is the quadrature of the linear strain energy. -/
theorem fkC_num_energy (S : Shape K) (G : GaussTab K) (P : Panel K) (ha : P.a ≠ 0) (hb : P.b ≠ 0)
    (F : ℕ → ℕ → K) (hF : ABDSym F) (cs d : ℕ → K) (s0 nx ny NL : ℕ) (hNL : NL ≠ 1) :
    ∃ L, plateFkCnum S G P (.one F) cs s0 s0 nx ny NL = .ok L ∧
      Coo.quad (Coo.finalizeSym L) d = gaussP G nx ny P fun _ _ x y =>
        dens 6 F fun s => lin 0 S P s0 d s x y := by
  refine ⟨_, rfl, ?_⟩
  rw [plateFkCnum_quad S G P ha hb (fun _ _ => F) (fun _ _ => hF) cs d s0 nx ny NL]
  simp only [hNL, if_false]

/-- A laminate per integration point (`ABDnxny`): point `(p, q)` of the rule uses laminate
`(p, q)`; an array whose shape does not fit the rule is rejected. -/
theorem fkC_num_energy_field (S : Shape K) (G : GaussTab K) (P : Panel K) (ha : P.a ≠ 0)
    (hb : P.b ≠ 0) (F : ℕ → ℕ → ℕ → ℕ → K) (hF : ∀ p q, ABDSym (F p q)) (cs d : ℕ → K)
    (s0 nx ny NL : ℕ) (hNL : NL ≠ 1) :
    (∃ L, plateFkCnum S G P (.field nx ny F) cs s0 s0 nx ny NL = .ok L ∧
      Coo.quad (Coo.finalizeSym L) d = gaussP G nx ny P fun p q x y =>
        dens 6 (F p q) fun s => lin 0 S P s0 d s x y) ∧
    ∀ sx sy, (sx ≠ nx ∨ sy ≠ ny) →
      plateFkCnum S G P (.field sx sy F) cs s0 s0 nx ny NL = .error .valueError := by
  constructor
  · refine ⟨plateFkCnumF S G P F cs s0 s0 nx ny NL, by simp [plateFkCnum, lamAt, Except.map], ?_⟩
    rw [plateFkCnum_quad S G P ha hb F hF cs d s0 nx ny NL]
    simp only [hNL, if_false]
  · intro sx sy h
    have : ¬ (sx = nx ∧ sy = ny) := by tauto
    simp [plateFkCnum, lamAt, Except.map, this]

/-- Physical form: the strains are the Kirchhoff strains of the displacement field itself, at the
Gauss points of the sub-domain. -/
theorem fkC_num_strain_energy {S : Shape ℝ} (hS : S.C2) (G : GaussTab ℝ) (P : Panel ℝ)
    (ha : P.a ≠ 0) (hb : P.b ≠ 0) (F : ℕ → ℕ → ℕ → ℕ → ℝ) (hF : ∀ p q, ABDSym (F p q))
    (cs d : ℕ → ℝ) (s0 nx ny NL : ℕ) (hNL : NL ≠ 1) :
    ∃ L, plateFkCnum S G P (.field nx ny F) cs s0 s0 nx ny NL = .ok L ∧
      Coo.quad (Coo.finalizeSym L) d = gaussP G nx ny P fun p q x y =>
        dens 6 (F p q) fun s => linStrain 0 S P s0 d s x y := by
  simp only [linStrain_lin hS]
  exact (fkC_num_energy_field S G P ha hb F hF cs d s0 nx ny NL hNL).1

/-- Without geometric non-linearity the whole triplet list is independent of the state. -/
theorem fkC_num_state_independent (S : Shape K) (G : GaussTab K) (P : Panel K)
    (inp : LamInput K) (cs cs' : ℕ → K) (row0 col0 nx ny NL : ℕ) (hNL : NL ≠ 1) :
    plateFkCnum S G P inp cs row0 col0 nx ny NL = plateFkCnum S G P inp cs' row0 col0 nx ny NL ∧
    cylFkCnum S G P inp cs row0 col0 nx ny NL = cylFkCnum S G P inp cs' row0 col0 nx ny NL := by
  constructor
  · simp only [plateFkCnum, plateFkCnumF, wxiC, wetaC, hNL, if_false]
  · simp only [cylFkCnum, cylFkCnumF, wxiCcyl, wetaCcyl, hNL, if_false]

/-- A laminate that changes from point to point, on a panel with all data different. -/
example (G : GaussTab ℝ) (cs d : ℕ → ℝ) : let S := Spec.bardellShape ℝ
    let F : ℕ → ℕ → ℕ → ℕ → ℝ := fun p q s t => (1 + p + 2 * q) * Witness.abd s t
    ∃ L, plateFkCnum S G Witness.panel (.field 6 8 F) cs 12 12 6 8 0 = .ok L ∧
      Coo.quad (Coo.finalizeSym L) d = gaussP G 6 8 Witness.panel fun p q x y =>
        dens 6 (F p q) fun s => linStrain 0 S Witness.panel 12 d s x y := by
  intro S F
  refine fkC_num_strain_energy bardellShape_C2 G Witness.panel (by simp [Witness.panel])
    (by simp [Witness.panel]) F (fun p q => ?_) cs d 12 6 8 0 (by norm_num)
  have h := Witness.abd_sym (K := ℝ)
  exact ⟨fun s t => by simp only [F]; rw [h.symm], by simp only [F]; rw [h.b12],
    by simp only [F]; rw [h.b16], by simp only [F]; rw [h.b26]⟩

end Verif.C09
