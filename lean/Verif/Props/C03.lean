import Verif.Proofs.IntegralCheckA
import Verif.Proofs.IntegralCheckB
import Verif.Proofs.IntegralCheckC

/-!
# C03: the integral tables are the integrals of the shape functions

The shape functions are the exact Bardell functions given by their closed formula
(`Spec.bardellShape`), not the printed coefficient tables.
-/

namespace Verif.C03

open Model Spec

/-- Every entry of the six tables (defaults included) is within `10^-15` of the integral over
`[-1, 1]` of the product of the two exact functions; the error is multiplied by the same edge
flags, so the flags are exact for arbitrary real flag values. -/
theorem integral_tables (i j : ℕ) (hi : i < 30) (hj : j < 30) (fa fb : Flags ℝ) :
    let S := bardellShape ℝ
    let I := intTab ℝ
    let E := 1 / 10 ^ 15 * (|flag fa i| * |flag fb j|)
    |I.ff i j fa fb - ∫ x in (-1 : ℝ)..1, S.f i x fa * S.f j x fb| ≤ E ∧
    |I.ffp i j fa fb - ∫ x in (-1 : ℝ)..1, S.f i x fa * S.fp j x fb| ≤ E ∧
    |I.ffpp i j fa fb - ∫ x in (-1 : ℝ)..1, S.f i x fa * S.fpp j x fb| ≤ E ∧
    |I.fpfp i j fa fb - ∫ x in (-1 : ℝ)..1, S.fp i x fa * S.fp j x fb| ≤ E ∧
    |I.fpfpp i j fa fb - ∫ x in (-1 : ℝ)..1, S.fp i x fa * S.fpp j x fb| ≤ E ∧
    |I.fppfpp i j fa fb - ∫ x in (-1 : ℝ)..1, S.fpp i x fa * S.fpp j x fb| ≤ E :=
  ⟨IntCheck.chkAll_sound IntCheck.ff_ok i j hi hj fa fb,
    IntCheck.chkAll_sound IntCheck.ffp_ok i j hi hj fa fb,
    IntCheck.chkAll_sound IntCheck.ffpp_ok i j hi hj fa fb,
    IntCheck.chkAll_sound IntCheck.fpfp_ok i j hi hj fa fb,
    IntCheck.chkAll_sound IntCheck.fpfpp_ok i j hi hj fa fb,
    IntCheck.chkAll_sound IntCheck.fppfpp_ok i j hi hj fa fb⟩

/-- With a flag switched off the tabulated integral is exactly zero. -/
theorem flag_off (i j : ℕ) (hi : i < 30) (hj : j < 30) (fa fb : Flags ℝ)
    (h : flag fa i = 0 ∨ flag fb j = 0) :
    (intTab ℝ).ff i j fa fb = 0 ∧ (intTab ℝ).ffp i j fa fb = 0 ∧ (intTab ℝ).ffpp i j fa fb = 0 ∧
    (intTab ℝ).fpfp i j fa fb = 0 ∧ (intTab ℝ).fpfpp i j fa fb = 0 ∧
    (intTab ℝ).fppfpp i j fa fb = 0 := by
  have hE : 1 / 10 ^ 15 * (|flag fa i| * |flag fb j|) = 0 := by
    rcases h with h | h <;> rw [h] <;> simp
  have hz : ∀ p q : ℝ → ℝ, ∫ x in (-1 : ℝ)..1, (flag fa i * p x) * (flag fb j * q x) = 0 := by
    intro p q
    rcases h with h | h <;> rw [h] <;> simp
  obtain ⟨h1, h2, h3, h4, h5, h6⟩ := integral_tables i j hi hj fa fb
  simp only [bardellShape] at h1 h2 h3 h4 h5 h6
  rw [hE, hz, sub_zero, abs_nonpos_iff] at h1 h2 h3 h4 h5 h6
  exact ⟨h1, h2, h3, h4, h5, h6⟩

/-- A non-trivial instance: `∫ f₀ f₇` (not zero). -/
example : |(intTab ℝ).ff 0 7 ⟨1, 0, 0, 1⟩ ⟨0, 0, 1, 1⟩ - ∫ x in (-1 : ℝ)..1,
    (bardellShape ℝ).f 0 x ⟨1, 0, 0, 1⟩ * (bardellShape ℝ).f 7 x ⟨0, 0, 1, 1⟩| ≤ 1 / 10 ^ 15 := by
  have := (integral_tables 0 7 (by norm_num) (by norm_num) ⟨1, 0, 0, 1⟩ ⟨0, 0, 1, 1⟩).1
  simpa [flag] using this

example : (intTab ℚ).ff 0 7 ⟨1, 0, 0, 1⟩ ⟨0, 0, 1, 1⟩ = 288600288600289 / 10 ^ 18 := by
  decide +kernel

end Verif.C03
