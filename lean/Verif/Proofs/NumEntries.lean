import Verif.Proofs.NumEnergy

/-!
# Entries of the numerically integrated builders
-/

set_option linter.unusedSimpArgs false
set_option linter.unnecessarySeqFocus false

namespace Verif

open Finset

variable {K : Type*} [Field K] [CharZero K]

set_option maxHeartbeats 4000000 in
theorem plate_fkCnum_entry (S : Shape K) (P : Panel K) (F : ℕ → ℕ → K) (hF : Spec.ABDSym F)
    (ha : P.a ≠ 0) (hb : P.b ≠ 0) (eta intx inty weight weta wxi xi : K)
    (i k j l α β : ℕ) (hα : α < 3) (hβ : β < 3) :
    Gen.PlateNum.fkC_num S P (Lam.ofABD F) eta intx inty weight weta wxi xi i k j l α β
      = weight * intx * inty / 4 * ∑ s ∈ range 6, ∑ t ∈ range 6, F s t *
          vkE 0 (2 / P.a * wxi) (2 / P.b * weta) S P xi eta s i j α *
          vkE 0 (2 / P.a * wxi) (2 / P.b * weta) S P xi eta t k l β := by
  have h1 := hF.b12
  have h2 := hF.b16
  have h3 := hF.b26
  have s01 := hF.symm 1 0
  have s02 := hF.symm 2 0
  have s12 := hF.symm 2 1
  have s30 := hF.symm 3 0
  have s40 := hF.symm 4 0
  have s50 := hF.symm 5 0
  have s31 := hF.symm 3 1
  have s41 := hF.symm 4 1
  have s51 := hF.symm 5 1
  have s32 := hF.symm 3 2
  have s42 := hF.symm 4 2
  have s52 := hF.symm 5 2
  have s43 := hF.symm 4 3
  have s53 := hF.symm 5 3
  have s54 := hF.symm 5 4
  interval_cases α <;> interval_cases β <;>
    simp only [Gen.PlateNum.fkC_num, Gen.PlateNum.fkC_num_00, Gen.PlateNum.fkC_num_01,
      Gen.PlateNum.fkC_num_02, Gen.PlateNum.fkC_num_10, Gen.PlateNum.fkC_num_11,
      Gen.PlateNum.fkC_num_12, Gen.PlateNum.fkC_num_20, Gen.PlateNum.fkC_num_21,
      Gen.PlateNum.fkC_num_22, Lam.ofABD, vkE, Shape.D, Panel.xf, Panel.yf,
      Finset.sum_range_succ, Finset.sum_range_zero, zero_mul, mul_zero, add_zero, zero_add,
      s01, s02, s12, s30, s40, s50, s31, s41, s51, s32, s42, s52, s43, s53, s54, h1, h2, h3] <;>
    field_simp <;> ring

set_option maxHeartbeats 4000000 in
theorem cyl_fkCnum_entry (S : Shape K) (P : Panel K) (F : ℕ → ℕ → K) (hF : Spec.ABDSym F)
    (ha : P.a ≠ 0) (hb : P.b ≠ 0) (hr : P.r ≠ 0) (eta intx inty weight weta wxi xi : K)
    (i k j l α β : ℕ) (hα : α < 3) (hβ : β < 3) :
    Gen.CylNum.fkC_num S P (Lam.ofABD F) eta intx inty weight weta wxi xi i k j l α β
      = weight * intx * inty / 4 * ∑ s ∈ range 6, ∑ t ∈ range 6, F s t *
          vkE (1 / P.r) (2 / P.a * wxi) (2 / P.b * weta) S P xi eta s i j α *
          vkE (1 / P.r) (2 / P.a * wxi) (2 / P.b * weta) S P xi eta t k l β := by
  have h1 := hF.b12
  have h2 := hF.b16
  have h3 := hF.b26
  have s01 := hF.symm 1 0
  have s02 := hF.symm 2 0
  have s12 := hF.symm 2 1
  have s30 := hF.symm 3 0
  have s40 := hF.symm 4 0
  have s50 := hF.symm 5 0
  have s31 := hF.symm 3 1
  have s41 := hF.symm 4 1
  have s51 := hF.symm 5 1
  have s32 := hF.symm 3 2
  have s42 := hF.symm 4 2
  have s52 := hF.symm 5 2
  have s43 := hF.symm 4 3
  have s53 := hF.symm 5 3
  have s54 := hF.symm 5 4
  interval_cases α <;> interval_cases β <;>
    simp only [Gen.CylNum.fkC_num, Gen.CylNum.fkC_num_00, Gen.CylNum.fkC_num_01,
      Gen.CylNum.fkC_num_02, Gen.CylNum.fkC_num_10, Gen.CylNum.fkC_num_11,
      Gen.CylNum.fkC_num_12, Gen.CylNum.fkC_num_20, Gen.CylNum.fkC_num_21,
      Gen.CylNum.fkC_num_22, Lam.ofABD, vkE, Shape.D, Panel.xf, Panel.yf,
      Finset.sum_range_succ, Finset.sum_range_zero, zero_mul, mul_zero, add_zero, zero_add,
      s01, s02, s12, s30, s40, s50, s31, s41, s51, s32, s42, s52, s43, s53, s54, h1, h2, h3] <;>
    field_simp <;> ring

end Verif
