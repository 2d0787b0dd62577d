import Verif.Basic.Coo
import Mathlib.Data.Complex.Basic
import Mathlib.Algebra.BigOperators.Group.Finset.Basic
import Mathlib.Data.Real.Basic

/-!
# Modes of vibration, buckling loads

The unknowns are the amplitudes with numbers in `t`; all others are zero.  The products with the matrices
are written out.
-/

namespace Verif.Spec

open Finset

/-- The modes of `K` with respect to `M`: as many as there are unknowns, ordered, of unit mass and
orthogonal, and every set of amplitudes is a combination of them. -/
structure Modes (t : Finset ℕ) (K M : Coo ℝ) (φ : Fin t.card → ℕ → ℝ) (lam : Fin t.card → ℝ) : Prop where
  order : Monotone lam
  off : ∀ a, ∀ k ∉ t, φ a k = 0
  eq : ∀ a, ∀ k ∈ t, ∑ l ∈ t, Coo.entry K k l * φ a l = lam a * ∑ l ∈ t, Coo.entry M k l * φ a l
  orth : ∀ a b, ∑ k ∈ t, φ a k * ∑ l ∈ t, Coo.entry M k l * φ b l = if a = b then 1 else 0
  whole : ∀ v : ℕ → ℝ, (∀ k ∉ t, v k = 0) → ∃ q : Fin t.card → ℝ, v = fun k => ∑ a, q a * φ a k

/-- `μ` is a (complex) eigenvalue of the pair: `K z = μ M z` with `z` not zero. -/
def Eigen (t : Finset ℕ) (K M : Coo ℝ) (μ : ℂ) : Prop :=
  ∃ z : ℕ → ℂ, (∃ k ∈ t, z k ≠ 0) ∧
    ∀ k ∈ t, ∑ l ∈ t, ((Coo.entry K k l : ℝ) : ℂ) * z l = μ * ∑ l ∈ t, ((Coo.entry M k l : ℝ) : ℂ) * z l

/-- `p` is a (complex) multiplier of the loads at which the linearised equilibrium has another solution:
`K z + p G z = 0` with `z` not zero. -/
def Critical (t : Finset ℕ) (K G : Coo ℝ) (p : ℂ) : Prop :=
  ∃ z : ℕ → ℂ, (∃ k ∈ t, z k ≠ 0) ∧
    ∀ k ∈ t, ∑ l ∈ t, ((Coo.entry K k l : ℝ) : ℂ) * z l + p * ∑ l ∈ t, ((Coo.entry G k l : ℝ) : ℂ) * z l = 0

/-- Frequencies: the modes exist, the frequencies are real and positive, and there are no others. -/
def Vibrates (t : Finset ℕ) (K M : Coo ℝ) : Prop :=
  ∃ (φ : Fin t.card → ℕ → ℝ) (ω : Fin t.card → ℝ), (∀ a, 0 < ω a) ∧ Monotone ω ∧
    Modes t K M φ (fun a => ω a ^ 2) ∧ ∀ μ : ℂ, Eigen t K M μ ↔ ∃ a, μ = (ω a : ℂ) ^ 2

/-- Buckling: the critical multipliers are real, and under loads that grow in proportion the energy is
positive definite exactly as long as the multiplier is below all positive critical ones. -/
structure Buckles (t : Finset ℕ) (K G : Coo ℝ) : Prop where
  real : ∀ p : ℂ, Critical t K G p → p ≠ 0 ∧ p.im = 0
  stable : ∀ p : ℝ, 0 ≤ p →
    ((∀ v : ℕ → ℝ, (∃ k ∈ t, v k ≠ 0) → (∀ k ∉ t, v k = 0) → 0 < Coo.quad K v + p * Coo.quad G v) ↔
      ∀ r : ℝ, 0 < r → Critical t K G r → p < r)

end Verif.Spec
