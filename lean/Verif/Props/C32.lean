import Verif.Proofs.FieldOut
import Verif.Spec.Witness
import Verif.Spec.Bardell
import Mathlib.Tactic.NormNum

/-!
# C32: stress output is ABD times strain output, and their product is the energy density
-/

namespace Verif.C32

open Model Spec Finset

variable {K : Type*} [Field K] [DecidableEq K]

theorem stressRow_eq (A : ℕ → ℕ → K) (e : ℕ → K) (s : ℕ) :
    stressRow A e s = ∑ t ∈ range 6, A s t * e t := by
  simp only [stressRow, sum_range_succ, sum_range_zero, zero_add]
  ring

/-- The result has the shape of the strain output and holds `ABD` times the strains at every
point, with the matrix given by the caller if there is one and that of the panel otherwise. -/
theorem stress_eq (S : Shape K) (P : Panel K) (c : ℕ → K) (own given : Option (ℕ → ℕ → K))
    (xs ys : Option (Arr K)) (gridx gridy cores : ℕ) (NL : Bool) (A : ℕ → ℕ → K)
    (hA : given = some A ∨ given = none ∧ own = some A) (sh : List ℕ) (es : List (ℕ → K))
    (he : shellStrain S P c xs ys gridx gridy cores NL = .ok (sh, es)) :
    shellStress S P c own given xs ys gridx gridy cores NL
      = .ok (sh, es.map fun e s => ∑ t ∈ range 6, A s t * e t) := by
  unfold shellStress
  have ho : (given.orElse fun _ => own) = some A := by
    rcases hA with rfl | ⟨rfl, rfl⟩ <;> rfl
  rw [he]
  simp only [bind, Except.bind, ho, pure, Except.pure]
  congr 3
  funext e s
  exact stressRow_eq A e s

/-- Without any matrix nothing is returned; if the points are acceptable the error is
`ValueError`. -/
theorem stress_raises (S : Shape K) (P : Panel K) (c : ℕ → K) (xs ys : Option (Arr K))
    (gridx gridy cores : ℕ) (NL : Bool) :
    shellStress S P c none none xs ys gridx gridy cores NL = .error .valueError := by
  unfold shellStress shellStrain
  cases hd : defaultField P xs ys gridx gridy with
  | error e =>
    have : e = .valueError := by
      unfold defaultField at hd
      simp only at hd
      split at hd <;> split at hd <;> simp_all
    rw [this]; rfl
  | ok d => rfl

/-- Stress times strain is the quadratic form of the matrix: twice the energy density. -/
theorem energy_density (A : ℕ → ℕ → K) (e : ℕ → K) :
    ∑ s ∈ range 6, e s * stressRow A e s = dens 6 A e := by
  simp only [stressRow_eq, dens, mul_sum]
  exact sum_congr rfl fun s _ => sum_congr rfl fun t _ => by ring

/-- For a symmetric matrix the stress is the derivative of half that form: the first-order change
of the energy density under a change `d` of the strains is `stress · d`. -/
theorem energy_derivative (A : ℕ → ℕ → K) (hA : ∀ s t, A s t = A t s) (e d : ℕ → K) (t : K) :
    dens 6 A (fun s => e s + t * d s)
      = dens 6 A e + 2 * t * ∑ s ∈ range 6, d s * stressRow A e s + t ^ 2 * dens 6 A d := by
  have h1 : ∑ s ∈ range 6, d s * stressRow A e s
      = ∑ s ∈ range 6, ∑ r ∈ range 6, A s r * d s * e r := by
    simp only [stressRow_eq, mul_sum]
    exact sum_congr rfl fun s _ => sum_congr rfl fun t _ => by ring
  have h2 : ∑ s ∈ range 6, ∑ r ∈ range 6, A s r * d s * e r
      = ∑ s ∈ range 6, ∑ r ∈ range 6, A s r * e s * d r := by
    rw [sum_comm]
    exact sum_congr rfl fun s _ => sum_congr rfl fun r _ => by rw [hA r s]; ring
  have h3 : 2 * t * ∑ s ∈ range 6, d s * stressRow A e s
      = t * ∑ s ∈ range 6, ∑ r ∈ range 6, A s r * d s * e r
        + t * ∑ s ∈ range 6, ∑ r ∈ range 6, A s r * e s * d r := by
    rw [h1, ← h2]; ring
  rw [h3]
  simp only [dens, mul_sum, ← sum_add_distrib]
  exact sum_congr rfl fun s _ => sum_congr rfl fun r _ => by ring

example : ∃ es, shellStrain (bardellShape ℚ) Witness.panel (fun k => k) (some ⟨[2], [0, 1]⟩)
    (some ⟨[2], [0, 1]⟩) 300 300 4 true = .ok ([2], es) ∧
    shellStress (bardellShape ℚ) Witness.panel (fun k => k) (some Witness.abd) none
      (some ⟨[2], [0, 1]⟩) (some ⟨[2], [0, 1]⟩) 300 300 4 true
      = .ok ([2], es.map fun e s => ∑ t ∈ range 6, Witness.abd s t * e t) := by
  have h : shellStrain (bardellShape ℚ) Witness.panel (fun k => k) (some ⟨[2], [0, 1]⟩)
    (some ⟨[2], [0, 1]⟩) 300 300 4 true = .ok ([2], _) := rfl
  exact ⟨_, h, stress_eq _ _ _ _ _ _ _ _ _ _ _ _ (Or.inr ⟨rfl, rfl⟩) _ _ h⟩

example : ∀ s t, (Witness.abd s t : ℚ) = Witness.abd t s := Witness.abd_sym.symm

end Verif.C32
