import Verif.Proofs.UnitsVal

/-!
# The values of the numerically integrated builders, in other units
-/

namespace Verif

open Spec

variable {K : Type*} [Field K] [DecidableEq K] (U : UnitSys K) (S : Shape K) (P : Panel K)
  (F : ℕ → ℕ → K) (i k j l α β : ℕ) (eta intx inty weight xi weta wxi : K)

theorem plateNum_fkC_00_units :
    Gen.PlateNum.fkC_num_00 S (U.panel P) (Lam.ofABD (U.abd F)) eta (U.len * intx) (U.len * inty) weight
      (U.len * weta) (U.len * wxi) xi i k j l
      = U.line * Gen.PlateNum.fkC_num_00 S P (Lam.ofABD F) eta intx inty weight weta wxi xi i k j l := by
  unfold Gen.PlateNum.fkC_num_00; units_val U

theorem plateNum_fkC_01_units :
    Gen.PlateNum.fkC_num_01 S (U.panel P) (Lam.ofABD (U.abd F)) eta (U.len * intx) (U.len * inty) weight
      (U.len * weta) (U.len * wxi) xi i k j l
      = U.line * Gen.PlateNum.fkC_num_01 S P (Lam.ofABD F) eta intx inty weight weta wxi xi i k j l := by
  unfold Gen.PlateNum.fkC_num_01; units_val U

theorem plateNum_fkC_02_units :
    Gen.PlateNum.fkC_num_02 S (U.panel P) (Lam.ofABD (U.abd F)) eta (U.len * intx) (U.len * inty) weight
      (U.len * weta) (U.len * wxi) xi i k j l
      = U.line * Gen.PlateNum.fkC_num_02 S P (Lam.ofABD F) eta intx inty weight weta wxi xi i k j l := by
  unfold Gen.PlateNum.fkC_num_02; units_val U

theorem plateNum_fkC_10_units :
    Gen.PlateNum.fkC_num_10 S (U.panel P) (Lam.ofABD (U.abd F)) eta (U.len * intx) (U.len * inty) weight
      (U.len * weta) (U.len * wxi) xi i k j l
      = U.line * Gen.PlateNum.fkC_num_10 S P (Lam.ofABD F) eta intx inty weight weta wxi xi i k j l := by
  unfold Gen.PlateNum.fkC_num_10; units_val U

theorem plateNum_fkC_11_units :
    Gen.PlateNum.fkC_num_11 S (U.panel P) (Lam.ofABD (U.abd F)) eta (U.len * intx) (U.len * inty) weight
      (U.len * weta) (U.len * wxi) xi i k j l
      = U.line * Gen.PlateNum.fkC_num_11 S P (Lam.ofABD F) eta intx inty weight weta wxi xi i k j l := by
  unfold Gen.PlateNum.fkC_num_11; units_val U

theorem plateNum_fkC_12_units :
    Gen.PlateNum.fkC_num_12 S (U.panel P) (Lam.ofABD (U.abd F)) eta (U.len * intx) (U.len * inty) weight
      (U.len * weta) (U.len * wxi) xi i k j l
      = U.line * Gen.PlateNum.fkC_num_12 S P (Lam.ofABD F) eta intx inty weight weta wxi xi i k j l := by
  unfold Gen.PlateNum.fkC_num_12; units_val U

theorem plateNum_fkC_20_units :
    Gen.PlateNum.fkC_num_20 S (U.panel P) (Lam.ofABD (U.abd F)) eta (U.len * intx) (U.len * inty) weight
      (U.len * weta) (U.len * wxi) xi i k j l
      = U.line * Gen.PlateNum.fkC_num_20 S P (Lam.ofABD F) eta intx inty weight weta wxi xi i k j l := by
  unfold Gen.PlateNum.fkC_num_20; units_val U

theorem plateNum_fkC_21_units :
    Gen.PlateNum.fkC_num_21 S (U.panel P) (Lam.ofABD (U.abd F)) eta (U.len * intx) (U.len * inty) weight
      (U.len * weta) (U.len * wxi) xi i k j l
      = U.line * Gen.PlateNum.fkC_num_21 S P (Lam.ofABD F) eta intx inty weight weta wxi xi i k j l := by
  unfold Gen.PlateNum.fkC_num_21; units_val U

theorem plateNum_fkC_22_units :
    Gen.PlateNum.fkC_num_22 S (U.panel P) (Lam.ofABD (U.abd F)) eta (U.len * intx) (U.len * inty) weight
      (U.len * weta) (U.len * wxi) xi i k j l
      = U.line * Gen.PlateNum.fkC_num_22 S P (Lam.ofABD F) eta intx inty weight weta wxi xi i k j l := by
  unfold Gen.PlateNum.fkC_num_22; units_val U

theorem plateNum_fkC_units :
    Gen.PlateNum.fkC_num S (U.panel P) (Lam.ofABD (U.abd F)) eta (U.len * intx) (U.len * inty) weight
      (U.len * weta) (U.len * wxi) xi i k j l α β
      = U.line * Gen.PlateNum.fkC_num S P (Lam.ofABD F) eta intx inty weight weta wxi xi i k j l α β := by
  unfold Gen.PlateNum.fkC_num
  split
  · exact plateNum_fkC_00_units U S P F i k j l eta intx inty weight xi weta wxi
  · exact plateNum_fkC_01_units U S P F i k j l eta intx inty weight xi weta wxi
  · exact plateNum_fkC_02_units U S P F i k j l eta intx inty weight xi weta wxi
  · exact plateNum_fkC_10_units U S P F i k j l eta intx inty weight xi weta wxi
  · exact plateNum_fkC_11_units U S P F i k j l eta intx inty weight xi weta wxi
  · exact plateNum_fkC_12_units U S P F i k j l eta intx inty weight xi weta wxi
  · exact plateNum_fkC_20_units U S P F i k j l eta intx inty weight xi weta wxi
  · exact plateNum_fkC_21_units U S P F i k j l eta intx inty weight xi weta wxi
  · exact plateNum_fkC_22_units U S P F i k j l eta intx inty weight xi weta wxi
  · rw [mul_zero]

theorem plateNum_fkG_units (Nxx Nxy Nyy : K) :
    Gen.PlateNum.fkG_num S (U.panel P) (U.line * Nxx) (U.line * Nxy) (U.line * Nyy) eta (U.len * intx)
      (U.len * inty) weight xi i k j l α β
      = U.line * Gen.PlateNum.fkG_num S P Nxx Nxy Nyy eta intx inty weight xi i k j l α β := by
  unfold Gen.PlateNum.fkG_num
  split
  · unfold Gen.PlateNum.fkG_num_22; units_val U
  · rw [mul_zero]

theorem plateNum_fkAx_units (beta gamma : K) :
    Gen.PlateNum.fkAx_num S (U.panel P) (U.area * beta) eta (U.vol * gamma) (U.len * intx) (U.len * inty)
      weight xi i k j l α β
      = U.line * Gen.PlateNum.fkAx_num S P beta eta gamma intx inty weight xi i k j l α β := by
  unfold Gen.PlateNum.fkAx_num
  split
  · unfold Gen.PlateNum.fkAx_num_22; units_val U
  · rw [mul_zero]

theorem plateNum_fkC_num_slopes_units (c2 : K) :
    Gen.PlateNum.fkC_num_wxi S (U.panel P) (U.len * c2) eta xi i j = U.len * Gen.PlateNum.fkC_num_wxi S P c2 eta xi i j ∧
    Gen.PlateNum.fkC_num_weta S (U.panel P) (U.len * c2) eta xi i j
      = U.len * Gen.PlateNum.fkC_num_weta S P c2 eta xi i j := by
  constructor
  · unfold Gen.PlateNum.fkC_num_wxi; units_val U
  · unfold Gen.PlateNum.fkC_num_weta; units_val U

theorem plateNum_fkG_num_slopes_units (c2 : K) :
    Gen.PlateNum.fkG_num_wxi S (U.panel P) (U.len * c2) eta xi i j = U.len * Gen.PlateNum.fkG_num_wxi S P c2 eta xi i j ∧
    Gen.PlateNum.fkG_num_weta S (U.panel P) (U.len * c2) eta xi i j
      = U.len * Gen.PlateNum.fkG_num_weta S P c2 eta xi i j := by
  constructor
  · unfold Gen.PlateNum.fkG_num_wxi; units_val U
  · unfold Gen.PlateNum.fkG_num_weta; units_val U

theorem plateNum_fint_slopes_units (c2 : K) :
    Gen.PlateNum.fint_wxi S (U.panel P) (U.len * c2) eta xi i j = U.len * Gen.PlateNum.fint_wxi S P c2 eta xi i j ∧
    Gen.PlateNum.fint_weta S (U.panel P) (U.len * c2) eta xi i j
      = U.len * Gen.PlateNum.fint_weta S P c2 eta xi i j := by
  constructor
  · unfold Gen.PlateNum.fint_wxi; units_val U
  · unfold Gen.PlateNum.fint_weta; units_val U

theorem plateNum_fkG_num_exx_units (c0 c1 c2 : K) :
    Gen.PlateNum.fkG_num_exx S (U.panel P) (U.len * c0) (U.len * c1) (U.len * c2) eta (U.len * weta) (U.len * wxi)
      xi i j = Gen.PlateNum.fkG_num_exx S P c0 c1 c2 eta weta wxi xi i j := by
  unfold Gen.PlateNum.fkG_num_exx; units_val U

theorem plateNum_fkG_num_eyy_units (c0 c1 c2 : K) :
    Gen.PlateNum.fkG_num_eyy S (U.panel P) (U.len * c0) (U.len * c1) (U.len * c2) eta (U.len * weta) (U.len * wxi)
      xi i j = Gen.PlateNum.fkG_num_eyy S P c0 c1 c2 eta weta wxi xi i j := by
  unfold Gen.PlateNum.fkG_num_eyy; units_val U

theorem plateNum_fkG_num_gxy_units (c0 c1 c2 : K) :
    Gen.PlateNum.fkG_num_gxy S (U.panel P) (U.len * c0) (U.len * c1) (U.len * c2) eta (U.len * weta) (U.len * wxi)
      xi i j = Gen.PlateNum.fkG_num_gxy S P c0 c1 c2 eta weta wxi xi i j := by
  unfold Gen.PlateNum.fkG_num_gxy; units_val U

theorem plateNum_fkG_num_kxx_units (c0 c1 c2 : K) :
    Gen.PlateNum.fkG_num_kxx S (U.panel P) (U.len * c0) (U.len * c1) (U.len * c2) eta (U.len * weta) (U.len * wxi)
      xi i j = U.len⁻¹ * Gen.PlateNum.fkG_num_kxx S P c0 c1 c2 eta weta wxi xi i j := by
  unfold Gen.PlateNum.fkG_num_kxx; units_val U

theorem plateNum_fkG_num_kyy_units (c0 c1 c2 : K) :
    Gen.PlateNum.fkG_num_kyy S (U.panel P) (U.len * c0) (U.len * c1) (U.len * c2) eta (U.len * weta) (U.len * wxi)
      xi i j = U.len⁻¹ * Gen.PlateNum.fkG_num_kyy S P c0 c1 c2 eta weta wxi xi i j := by
  unfold Gen.PlateNum.fkG_num_kyy; units_val U

theorem plateNum_fkG_num_kxy_units (c0 c1 c2 : K) :
    Gen.PlateNum.fkG_num_kxy S (U.panel P) (U.len * c0) (U.len * c1) (U.len * c2) eta (U.len * weta) (U.len * wxi)
      xi i j = U.len⁻¹ * Gen.PlateNum.fkG_num_kxy S P c0 c1 c2 eta weta wxi xi i j := by
  unfold Gen.PlateNum.fkG_num_kxy; units_val U

theorem plateNum_fint_exx_units (c0 c1 c2 : K) :
    Gen.PlateNum.fint_exx S (U.panel P) (U.len * c0) (U.len * c1) (U.len * c2) eta (U.len * weta) (U.len * wxi)
      xi i j = Gen.PlateNum.fint_exx S P c0 c1 c2 eta weta wxi xi i j := by
  unfold Gen.PlateNum.fint_exx; units_val U

theorem plateNum_fint_eyy_units (c0 c1 c2 : K) :
    Gen.PlateNum.fint_eyy S (U.panel P) (U.len * c0) (U.len * c1) (U.len * c2) eta (U.len * weta) (U.len * wxi)
      xi i j = Gen.PlateNum.fint_eyy S P c0 c1 c2 eta weta wxi xi i j := by
  unfold Gen.PlateNum.fint_eyy; units_val U

theorem plateNum_fint_gxy_units (c0 c1 c2 : K) :
    Gen.PlateNum.fint_gxy S (U.panel P) (U.len * c0) (U.len * c1) (U.len * c2) eta (U.len * weta) (U.len * wxi)
      xi i j = Gen.PlateNum.fint_gxy S P c0 c1 c2 eta weta wxi xi i j := by
  unfold Gen.PlateNum.fint_gxy; units_val U

theorem plateNum_fint_kxx_units (c0 c1 c2 : K) :
    Gen.PlateNum.fint_kxx S (U.panel P) (U.len * c0) (U.len * c1) (U.len * c2) eta (U.len * weta) (U.len * wxi)
      xi i j = U.len⁻¹ * Gen.PlateNum.fint_kxx S P c0 c1 c2 eta weta wxi xi i j := by
  unfold Gen.PlateNum.fint_kxx; units_val U

theorem plateNum_fint_kyy_units (c0 c1 c2 : K) :
    Gen.PlateNum.fint_kyy S (U.panel P) (U.len * c0) (U.len * c1) (U.len * c2) eta (U.len * weta) (U.len * wxi)
      xi i j = U.len⁻¹ * Gen.PlateNum.fint_kyy S P c0 c1 c2 eta weta wxi xi i j := by
  unfold Gen.PlateNum.fint_kyy; units_val U

theorem plateNum_fint_kxy_units (c0 c1 c2 : K) :
    Gen.PlateNum.fint_kxy S (U.panel P) (U.len * c0) (U.len * c1) (U.len * c2) eta (U.len * weta) (U.len * wxi)
      xi i j = U.len⁻¹ * Gen.PlateNum.fint_kxy S P c0 c1 c2 eta weta wxi xi i j := by
  unfold Gen.PlateNum.fint_kxy; units_val U

theorem plateNum_fkG_num_Nxx_units (Nxx0 Nxy0 Nyy0 exx eyy gxy kxx kxy kyy : K) :
    Gen.PlateNum.fkG_num_Nxx (Lam.ofABD (U.abd F)) (U.line * Nxx0) (U.line * Nxy0) (U.line * Nyy0) exx eyy gxy
      (U.len⁻¹ * kxx) (U.len⁻¹ * kxy) (U.len⁻¹ * kyy)
      = U.line * Gen.PlateNum.fkG_num_Nxx (Lam.ofABD F) Nxx0 Nxy0 Nyy0 exx eyy gxy kxx kxy kyy := by
  unfold Gen.PlateNum.fkG_num_Nxx; units_val U

theorem plateNum_fint_Nxx_units (exx eyy gxy kxx kxy kyy : K) :
    Gen.PlateNum.fint_Nxx (Lam.ofABD (U.abd F)) exx eyy gxy
      (U.len⁻¹ * kxx) (U.len⁻¹ * kxy) (U.len⁻¹ * kyy)
      = U.line * Gen.PlateNum.fint_Nxx (Lam.ofABD F) exx eyy gxy kxx kxy kyy := by
  unfold Gen.PlateNum.fint_Nxx; units_val U

theorem plateNum_fkG_num_Nyy_units (Nxx0 Nxy0 Nyy0 exx eyy gxy kxx kxy kyy : K) :
    Gen.PlateNum.fkG_num_Nyy (Lam.ofABD (U.abd F)) (U.line * Nxx0) (U.line * Nxy0) (U.line * Nyy0) exx eyy gxy
      (U.len⁻¹ * kxx) (U.len⁻¹ * kxy) (U.len⁻¹ * kyy)
      = U.line * Gen.PlateNum.fkG_num_Nyy (Lam.ofABD F) Nxx0 Nxy0 Nyy0 exx eyy gxy kxx kxy kyy := by
  unfold Gen.PlateNum.fkG_num_Nyy; units_val U

theorem plateNum_fint_Nyy_units (exx eyy gxy kxx kxy kyy : K) :
    Gen.PlateNum.fint_Nyy (Lam.ofABD (U.abd F)) exx eyy gxy
      (U.len⁻¹ * kxx) (U.len⁻¹ * kxy) (U.len⁻¹ * kyy)
      = U.line * Gen.PlateNum.fint_Nyy (Lam.ofABD F) exx eyy gxy kxx kxy kyy := by
  unfold Gen.PlateNum.fint_Nyy; units_val U

theorem plateNum_fkG_num_Nxy_units (Nxx0 Nxy0 Nyy0 exx eyy gxy kxx kxy kyy : K) :
    Gen.PlateNum.fkG_num_Nxy (Lam.ofABD (U.abd F)) (U.line * Nxx0) (U.line * Nxy0) (U.line * Nyy0) exx eyy gxy
      (U.len⁻¹ * kxx) (U.len⁻¹ * kxy) (U.len⁻¹ * kyy)
      = U.line * Gen.PlateNum.fkG_num_Nxy (Lam.ofABD F) Nxx0 Nxy0 Nyy0 exx eyy gxy kxx kxy kyy := by
  unfold Gen.PlateNum.fkG_num_Nxy; units_val U

theorem plateNum_fint_Nxy_units (exx eyy gxy kxx kxy kyy : K) :
    Gen.PlateNum.fint_Nxy (Lam.ofABD (U.abd F)) exx eyy gxy
      (U.len⁻¹ * kxx) (U.len⁻¹ * kxy) (U.len⁻¹ * kyy)
      = U.line * Gen.PlateNum.fint_Nxy (Lam.ofABD F) exx eyy gxy kxx kxy kyy := by
  unfold Gen.PlateNum.fint_Nxy; units_val U

theorem plateNum_fint_Mxx_units (exx eyy gxy kxx kxy kyy : K) :
    Gen.PlateNum.fint_Mxx (Lam.ofABD (U.abd F)) exx eyy gxy
      (U.len⁻¹ * kxx) (U.len⁻¹ * kxy) (U.len⁻¹ * kyy)
      = U.force * Gen.PlateNum.fint_Mxx (Lam.ofABD F) exx eyy gxy kxx kxy kyy := by
  unfold Gen.PlateNum.fint_Mxx; units_val U

theorem plateNum_fint_Myy_units (exx eyy gxy kxx kxy kyy : K) :
    Gen.PlateNum.fint_Myy (Lam.ofABD (U.abd F)) exx eyy gxy
      (U.len⁻¹ * kxx) (U.len⁻¹ * kxy) (U.len⁻¹ * kyy)
      = U.force * Gen.PlateNum.fint_Myy (Lam.ofABD F) exx eyy gxy kxx kxy kyy := by
  unfold Gen.PlateNum.fint_Myy; units_val U

theorem plateNum_fint_Mxy_units (exx eyy gxy kxx kxy kyy : K) :
    Gen.PlateNum.fint_Mxy (Lam.ofABD (U.abd F)) exx eyy gxy
      (U.len⁻¹ * kxx) (U.len⁻¹ * kxy) (U.len⁻¹ * kyy)
      = U.force * Gen.PlateNum.fint_Mxy (Lam.ofABD F) exx eyy gxy kxx kxy kyy := by
  unfold Gen.PlateNum.fint_Mxy; units_val U

theorem plateNum_fint_0_units (Mxx Mxy Myy Nxx Nxy Nyy : K) :
    Gen.PlateNum.fint_fint_0 S (U.panel P) (U.force * Mxx) (U.force * Mxy) (U.force * Myy) (U.line * Nxx)
      (U.line * Nxy) (U.line * Nyy) eta (U.len * intx) (U.len * inty) weight (U.len * weta) (U.len * wxi)
      xi i j
      = U.force * Gen.PlateNum.fint_fint_0 S P Mxx Mxy Myy Nxx Nxy Nyy eta intx inty weight weta wxi xi i j := by
  unfold Gen.PlateNum.fint_fint_0; units_val U

theorem plateNum_fint_1_units (Mxx Mxy Myy Nxx Nxy Nyy : K) :
    Gen.PlateNum.fint_fint_1 S (U.panel P) (U.force * Mxx) (U.force * Mxy) (U.force * Myy) (U.line * Nxx)
      (U.line * Nxy) (U.line * Nyy) eta (U.len * intx) (U.len * inty) weight (U.len * weta) (U.len * wxi)
      xi i j
      = U.force * Gen.PlateNum.fint_fint_1 S P Mxx Mxy Myy Nxx Nxy Nyy eta intx inty weight weta wxi xi i j := by
  unfold Gen.PlateNum.fint_fint_1; units_val U

theorem plateNum_fint_2_units (Mxx Mxy Myy Nxx Nxy Nyy : K) :
    Gen.PlateNum.fint_fint_2 S (U.panel P) (U.force * Mxx) (U.force * Mxy) (U.force * Myy) (U.line * Nxx)
      (U.line * Nxy) (U.line * Nyy) eta (U.len * intx) (U.len * inty) weight (U.len * weta) (U.len * wxi)
      xi i j
      = U.force * Gen.PlateNum.fint_fint_2 S P Mxx Mxy Myy Nxx Nxy Nyy eta intx inty weight weta wxi xi i j := by
  unfold Gen.PlateNum.fint_fint_2; units_val U

theorem cylNum_fkC_00_units :
    Gen.CylNum.fkC_num_00 S (U.panel P) (Lam.ofABD (U.abd F)) eta (U.len * intx) (U.len * inty) weight
      (U.len * weta) (U.len * wxi) xi i k j l
      = U.line * Gen.CylNum.fkC_num_00 S P (Lam.ofABD F) eta intx inty weight weta wxi xi i k j l := by
  unfold Gen.CylNum.fkC_num_00; units_val U

theorem cylNum_fkC_01_units :
    Gen.CylNum.fkC_num_01 S (U.panel P) (Lam.ofABD (U.abd F)) eta (U.len * intx) (U.len * inty) weight
      (U.len * weta) (U.len * wxi) xi i k j l
      = U.line * Gen.CylNum.fkC_num_01 S P (Lam.ofABD F) eta intx inty weight weta wxi xi i k j l := by
  unfold Gen.CylNum.fkC_num_01; units_val U

theorem cylNum_fkC_02_units :
    Gen.CylNum.fkC_num_02 S (U.panel P) (Lam.ofABD (U.abd F)) eta (U.len * intx) (U.len * inty) weight
      (U.len * weta) (U.len * wxi) xi i k j l
      = U.line * Gen.CylNum.fkC_num_02 S P (Lam.ofABD F) eta intx inty weight weta wxi xi i k j l := by
  unfold Gen.CylNum.fkC_num_02; units_val U

theorem cylNum_fkC_10_units :
    Gen.CylNum.fkC_num_10 S (U.panel P) (Lam.ofABD (U.abd F)) eta (U.len * intx) (U.len * inty) weight
      (U.len * weta) (U.len * wxi) xi i k j l
      = U.line * Gen.CylNum.fkC_num_10 S P (Lam.ofABD F) eta intx inty weight weta wxi xi i k j l := by
  unfold Gen.CylNum.fkC_num_10; units_val U

theorem cylNum_fkC_11_units :
    Gen.CylNum.fkC_num_11 S (U.panel P) (Lam.ofABD (U.abd F)) eta (U.len * intx) (U.len * inty) weight
      (U.len * weta) (U.len * wxi) xi i k j l
      = U.line * Gen.CylNum.fkC_num_11 S P (Lam.ofABD F) eta intx inty weight weta wxi xi i k j l := by
  unfold Gen.CylNum.fkC_num_11; units_val U

theorem cylNum_fkC_12_units :
    Gen.CylNum.fkC_num_12 S (U.panel P) (Lam.ofABD (U.abd F)) eta (U.len * intx) (U.len * inty) weight
      (U.len * weta) (U.len * wxi) xi i k j l
      = U.line * Gen.CylNum.fkC_num_12 S P (Lam.ofABD F) eta intx inty weight weta wxi xi i k j l := by
  unfold Gen.CylNum.fkC_num_12; units_val U

theorem cylNum_fkC_20_units :
    Gen.CylNum.fkC_num_20 S (U.panel P) (Lam.ofABD (U.abd F)) eta (U.len * intx) (U.len * inty) weight
      (U.len * weta) (U.len * wxi) xi i k j l
      = U.line * Gen.CylNum.fkC_num_20 S P (Lam.ofABD F) eta intx inty weight weta wxi xi i k j l := by
  unfold Gen.CylNum.fkC_num_20; units_val U

theorem cylNum_fkC_21_units :
    Gen.CylNum.fkC_num_21 S (U.panel P) (Lam.ofABD (U.abd F)) eta (U.len * intx) (U.len * inty) weight
      (U.len * weta) (U.len * wxi) xi i k j l
      = U.line * Gen.CylNum.fkC_num_21 S P (Lam.ofABD F) eta intx inty weight weta wxi xi i k j l := by
  unfold Gen.CylNum.fkC_num_21; units_val U

theorem cylNum_fkC_22_units :
    Gen.CylNum.fkC_num_22 S (U.panel P) (Lam.ofABD (U.abd F)) eta (U.len * intx) (U.len * inty) weight
      (U.len * weta) (U.len * wxi) xi i k j l
      = U.line * Gen.CylNum.fkC_num_22 S P (Lam.ofABD F) eta intx inty weight weta wxi xi i k j l := by
  unfold Gen.CylNum.fkC_num_22; units_val U

theorem cylNum_fkC_units :
    Gen.CylNum.fkC_num S (U.panel P) (Lam.ofABD (U.abd F)) eta (U.len * intx) (U.len * inty) weight
      (U.len * weta) (U.len * wxi) xi i k j l α β
      = U.line * Gen.CylNum.fkC_num S P (Lam.ofABD F) eta intx inty weight weta wxi xi i k j l α β := by
  unfold Gen.CylNum.fkC_num
  split
  · exact cylNum_fkC_00_units U S P F i k j l eta intx inty weight xi weta wxi
  · exact cylNum_fkC_01_units U S P F i k j l eta intx inty weight xi weta wxi
  · exact cylNum_fkC_02_units U S P F i k j l eta intx inty weight xi weta wxi
  · exact cylNum_fkC_10_units U S P F i k j l eta intx inty weight xi weta wxi
  · exact cylNum_fkC_11_units U S P F i k j l eta intx inty weight xi weta wxi
  · exact cylNum_fkC_12_units U S P F i k j l eta intx inty weight xi weta wxi
  · exact cylNum_fkC_20_units U S P F i k j l eta intx inty weight xi weta wxi
  · exact cylNum_fkC_21_units U S P F i k j l eta intx inty weight xi weta wxi
  · exact cylNum_fkC_22_units U S P F i k j l eta intx inty weight xi weta wxi
  · rw [mul_zero]

theorem cylNum_fkG_units (Nxx Nxy Nyy : K) :
    Gen.CylNum.fkG_num S (U.panel P) (U.line * Nxx) (U.line * Nxy) (U.line * Nyy) eta (U.len * intx)
      (U.len * inty) weight xi i k j l α β
      = U.line * Gen.CylNum.fkG_num S P Nxx Nxy Nyy eta intx inty weight xi i k j l α β := by
  unfold Gen.CylNum.fkG_num
  split
  · unfold Gen.CylNum.fkG_num_22; units_val U
  · rw [mul_zero]

theorem cylNum_fkAx_units (beta gamma : K) :
    Gen.CylNum.fkAx_num S (U.panel P) (U.area * beta) eta (U.vol * gamma) (U.len * intx) (U.len * inty)
      weight xi i k j l α β
      = U.line * Gen.CylNum.fkAx_num S P beta eta gamma intx inty weight xi i k j l α β := by
  unfold Gen.CylNum.fkAx_num
  split
  · unfold Gen.CylNum.fkAx_num_22; units_val U
  · rw [mul_zero]

theorem cylNum_fkC_num_slopes_units (c2 : K) :
    Gen.CylNum.fkC_num_wxi S (U.panel P) (U.len * c2) eta xi i j = U.len * Gen.CylNum.fkC_num_wxi S P c2 eta xi i j ∧
    Gen.CylNum.fkC_num_weta S (U.panel P) (U.len * c2) eta xi i j
      = U.len * Gen.CylNum.fkC_num_weta S P c2 eta xi i j := by
  constructor
  · unfold Gen.CylNum.fkC_num_wxi; units_val U
  · unfold Gen.CylNum.fkC_num_weta; units_val U

theorem cylNum_fkG_num_slopes_units (c2 : K) :
    Gen.CylNum.fkG_num_wxi S (U.panel P) (U.len * c2) eta xi i j = U.len * Gen.CylNum.fkG_num_wxi S P c2 eta xi i j ∧
    Gen.CylNum.fkG_num_weta S (U.panel P) (U.len * c2) eta xi i j
      = U.len * Gen.CylNum.fkG_num_weta S P c2 eta xi i j := by
  constructor
  · unfold Gen.CylNum.fkG_num_wxi; units_val U
  · unfold Gen.CylNum.fkG_num_weta; units_val U

theorem cylNum_fint_slopes_units (c2 : K) :
    Gen.CylNum.fint_wxi S (U.panel P) (U.len * c2) eta xi i j = U.len * Gen.CylNum.fint_wxi S P c2 eta xi i j ∧
    Gen.CylNum.fint_weta S (U.panel P) (U.len * c2) eta xi i j
      = U.len * Gen.CylNum.fint_weta S P c2 eta xi i j := by
  constructor
  · unfold Gen.CylNum.fint_wxi; units_val U
  · unfold Gen.CylNum.fint_weta; units_val U

theorem cylNum_fkG_num_exx_units (c0 c1 c2 : K) :
    Gen.CylNum.fkG_num_exx S (U.panel P) (U.len * c0) (U.len * c1) (U.len * c2) eta (U.len * weta) (U.len * wxi)
      xi i j = Gen.CylNum.fkG_num_exx S P c0 c1 c2 eta weta wxi xi i j := by
  unfold Gen.CylNum.fkG_num_exx; units_val U

theorem cylNum_fkG_num_eyy_units (c0 c1 c2 : K) :
    Gen.CylNum.fkG_num_eyy S (U.panel P) (U.len * c0) (U.len * c1) (U.len * c2) eta (U.len * weta) (U.len * wxi)
      xi i j = Gen.CylNum.fkG_num_eyy S P c0 c1 c2 eta weta wxi xi i j := by
  unfold Gen.CylNum.fkG_num_eyy; units_val U

theorem cylNum_fkG_num_gxy_units (c0 c1 c2 : K) :
    Gen.CylNum.fkG_num_gxy S (U.panel P) (U.len * c0) (U.len * c1) (U.len * c2) eta (U.len * weta) (U.len * wxi)
      xi i j = Gen.CylNum.fkG_num_gxy S P c0 c1 c2 eta weta wxi xi i j := by
  unfold Gen.CylNum.fkG_num_gxy; units_val U

theorem cylNum_fkG_num_kxx_units (c0 c1 c2 : K) :
    Gen.CylNum.fkG_num_kxx S (U.panel P) (U.len * c0) (U.len * c1) (U.len * c2) eta (U.len * weta) (U.len * wxi)
      xi i j = U.len⁻¹ * Gen.CylNum.fkG_num_kxx S P c0 c1 c2 eta weta wxi xi i j := by
  unfold Gen.CylNum.fkG_num_kxx; units_val U

theorem cylNum_fkG_num_kyy_units (c0 c1 c2 : K) :
    Gen.CylNum.fkG_num_kyy S (U.panel P) (U.len * c0) (U.len * c1) (U.len * c2) eta (U.len * weta) (U.len * wxi)
      xi i j = U.len⁻¹ * Gen.CylNum.fkG_num_kyy S P c0 c1 c2 eta weta wxi xi i j := by
  unfold Gen.CylNum.fkG_num_kyy; units_val U

theorem cylNum_fkG_num_kxy_units (c0 c1 c2 : K) :
    Gen.CylNum.fkG_num_kxy S (U.panel P) (U.len * c0) (U.len * c1) (U.len * c2) eta (U.len * weta) (U.len * wxi)
      xi i j = U.len⁻¹ * Gen.CylNum.fkG_num_kxy S P c0 c1 c2 eta weta wxi xi i j := by
  unfold Gen.CylNum.fkG_num_kxy; units_val U

theorem cylNum_fint_exx_units (c0 c1 c2 : K) :
    Gen.CylNum.fint_exx S (U.panel P) (U.len * c0) (U.len * c1) (U.len * c2) eta (U.len * weta) (U.len * wxi)
      xi i j = Gen.CylNum.fint_exx S P c0 c1 c2 eta weta wxi xi i j := by
  unfold Gen.CylNum.fint_exx; units_val U

theorem cylNum_fint_eyy_units (c0 c1 c2 : K) :
    Gen.CylNum.fint_eyy S (U.panel P) (U.len * c0) (U.len * c1) (U.len * c2) eta (U.len * weta) (U.len * wxi)
      xi i j = Gen.CylNum.fint_eyy S P c0 c1 c2 eta weta wxi xi i j := by
  unfold Gen.CylNum.fint_eyy; units_val U

theorem cylNum_fint_gxy_units (c0 c1 c2 : K) :
    Gen.CylNum.fint_gxy S (U.panel P) (U.len * c0) (U.len * c1) (U.len * c2) eta (U.len * weta) (U.len * wxi)
      xi i j = Gen.CylNum.fint_gxy S P c0 c1 c2 eta weta wxi xi i j := by
  unfold Gen.CylNum.fint_gxy; units_val U

theorem cylNum_fint_kxx_units (c0 c1 c2 : K) :
    Gen.CylNum.fint_kxx S (U.panel P) (U.len * c0) (U.len * c1) (U.len * c2) eta (U.len * weta) (U.len * wxi)
      xi i j = U.len⁻¹ * Gen.CylNum.fint_kxx S P c0 c1 c2 eta weta wxi xi i j := by
  unfold Gen.CylNum.fint_kxx; units_val U

theorem cylNum_fint_kyy_units (c0 c1 c2 : K) :
    Gen.CylNum.fint_kyy S (U.panel P) (U.len * c0) (U.len * c1) (U.len * c2) eta (U.len * weta) (U.len * wxi)
      xi i j = U.len⁻¹ * Gen.CylNum.fint_kyy S P c0 c1 c2 eta weta wxi xi i j := by
  unfold Gen.CylNum.fint_kyy; units_val U

theorem cylNum_fint_kxy_units (c0 c1 c2 : K) :
    Gen.CylNum.fint_kxy S (U.panel P) (U.len * c0) (U.len * c1) (U.len * c2) eta (U.len * weta) (U.len * wxi)
      xi i j = U.len⁻¹ * Gen.CylNum.fint_kxy S P c0 c1 c2 eta weta wxi xi i j := by
  unfold Gen.CylNum.fint_kxy; units_val U

theorem cylNum_fkG_num_Nxx_units (Nxx0 Nxy0 Nyy0 exx eyy gxy kxx kxy kyy : K) :
    Gen.CylNum.fkG_num_Nxx (Lam.ofABD (U.abd F)) (U.line * Nxx0) (U.line * Nxy0) (U.line * Nyy0) exx eyy gxy
      (U.len⁻¹ * kxx) (U.len⁻¹ * kxy) (U.len⁻¹ * kyy)
      = U.line * Gen.CylNum.fkG_num_Nxx (Lam.ofABD F) Nxx0 Nxy0 Nyy0 exx eyy gxy kxx kxy kyy := by
  unfold Gen.CylNum.fkG_num_Nxx; units_val U

theorem cylNum_fint_Nxx_units (exx eyy gxy kxx kxy kyy : K) :
    Gen.CylNum.fint_Nxx (Lam.ofABD (U.abd F)) exx eyy gxy
      (U.len⁻¹ * kxx) (U.len⁻¹ * kxy) (U.len⁻¹ * kyy)
      = U.line * Gen.CylNum.fint_Nxx (Lam.ofABD F) exx eyy gxy kxx kxy kyy := by
  unfold Gen.CylNum.fint_Nxx; units_val U

theorem cylNum_fkG_num_Nyy_units (Nxx0 Nxy0 Nyy0 exx eyy gxy kxx kxy kyy : K) :
    Gen.CylNum.fkG_num_Nyy (Lam.ofABD (U.abd F)) (U.line * Nxx0) (U.line * Nxy0) (U.line * Nyy0) exx eyy gxy
      (U.len⁻¹ * kxx) (U.len⁻¹ * kxy) (U.len⁻¹ * kyy)
      = U.line * Gen.CylNum.fkG_num_Nyy (Lam.ofABD F) Nxx0 Nxy0 Nyy0 exx eyy gxy kxx kxy kyy := by
  unfold Gen.CylNum.fkG_num_Nyy; units_val U

theorem cylNum_fint_Nyy_units (exx eyy gxy kxx kxy kyy : K) :
    Gen.CylNum.fint_Nyy (Lam.ofABD (U.abd F)) exx eyy gxy
      (U.len⁻¹ * kxx) (U.len⁻¹ * kxy) (U.len⁻¹ * kyy)
      = U.line * Gen.CylNum.fint_Nyy (Lam.ofABD F) exx eyy gxy kxx kxy kyy := by
  unfold Gen.CylNum.fint_Nyy; units_val U

theorem cylNum_fkG_num_Nxy_units (Nxx0 Nxy0 Nyy0 exx eyy gxy kxx kxy kyy : K) :
    Gen.CylNum.fkG_num_Nxy (Lam.ofABD (U.abd F)) (U.line * Nxx0) (U.line * Nxy0) (U.line * Nyy0) exx eyy gxy
      (U.len⁻¹ * kxx) (U.len⁻¹ * kxy) (U.len⁻¹ * kyy)
      = U.line * Gen.CylNum.fkG_num_Nxy (Lam.ofABD F) Nxx0 Nxy0 Nyy0 exx eyy gxy kxx kxy kyy := by
  unfold Gen.CylNum.fkG_num_Nxy; units_val U

theorem cylNum_fint_Nxy_units (exx eyy gxy kxx kxy kyy : K) :
    Gen.CylNum.fint_Nxy (Lam.ofABD (U.abd F)) exx eyy gxy
      (U.len⁻¹ * kxx) (U.len⁻¹ * kxy) (U.len⁻¹ * kyy)
      = U.line * Gen.CylNum.fint_Nxy (Lam.ofABD F) exx eyy gxy kxx kxy kyy := by
  unfold Gen.CylNum.fint_Nxy; units_val U

theorem cylNum_fint_Mxx_units (exx eyy gxy kxx kxy kyy : K) :
    Gen.CylNum.fint_Mxx (Lam.ofABD (U.abd F)) exx eyy gxy
      (U.len⁻¹ * kxx) (U.len⁻¹ * kxy) (U.len⁻¹ * kyy)
      = U.force * Gen.CylNum.fint_Mxx (Lam.ofABD F) exx eyy gxy kxx kxy kyy := by
  unfold Gen.CylNum.fint_Mxx; units_val U

theorem cylNum_fint_Myy_units (exx eyy gxy kxx kxy kyy : K) :
    Gen.CylNum.fint_Myy (Lam.ofABD (U.abd F)) exx eyy gxy
      (U.len⁻¹ * kxx) (U.len⁻¹ * kxy) (U.len⁻¹ * kyy)
      = U.force * Gen.CylNum.fint_Myy (Lam.ofABD F) exx eyy gxy kxx kxy kyy := by
  unfold Gen.CylNum.fint_Myy; units_val U

theorem cylNum_fint_Mxy_units (exx eyy gxy kxx kxy kyy : K) :
    Gen.CylNum.fint_Mxy (Lam.ofABD (U.abd F)) exx eyy gxy
      (U.len⁻¹ * kxx) (U.len⁻¹ * kxy) (U.len⁻¹ * kyy)
      = U.force * Gen.CylNum.fint_Mxy (Lam.ofABD F) exx eyy gxy kxx kxy kyy := by
  unfold Gen.CylNum.fint_Mxy; units_val U

theorem cylNum_fint_0_units (Mxx Mxy Myy Nxx Nxy Nyy : K) :
    Gen.CylNum.fint_fint_0 S (U.panel P) (U.force * Mxx) (U.force * Mxy) (U.force * Myy) (U.line * Nxx)
      (U.line * Nxy) (U.line * Nyy) eta (U.len * intx) (U.len * inty) weight (U.len * weta) (U.len * wxi)
      xi i j
      = U.force * Gen.CylNum.fint_fint_0 S P Mxx Mxy Myy Nxx Nxy Nyy eta intx inty weight weta wxi xi i j := by
  unfold Gen.CylNum.fint_fint_0; units_val U

theorem cylNum_fint_1_units (Mxx Mxy Myy Nxx Nxy Nyy : K) :
    Gen.CylNum.fint_fint_1 S (U.panel P) (U.force * Mxx) (U.force * Mxy) (U.force * Myy) (U.line * Nxx)
      (U.line * Nxy) (U.line * Nyy) eta (U.len * intx) (U.len * inty) weight (U.len * weta) (U.len * wxi)
      xi i j
      = U.force * Gen.CylNum.fint_fint_1 S P Mxx Mxy Myy Nxx Nxy Nyy eta intx inty weight weta wxi xi i j := by
  unfold Gen.CylNum.fint_fint_1; units_val U

theorem cylNum_fint_2_units (Mxx Mxy Myy Nxx Nxy Nyy : K) :
    Gen.CylNum.fint_fint_2 S (U.panel P) (U.force * Mxx) (U.force * Mxy) (U.force * Myy) (U.line * Nxx)
      (U.line * Nxy) (U.line * Nyy) eta (U.len * intx) (U.len * inty) weight (U.len * weta) (U.len * wxi)
      xi i j
      = U.force * Gen.CylNum.fint_fint_2 S P Mxx Mxy Myy Nxx Nxy Nyy eta intx inty weight weta wxi xi i j := by
  unfold Gen.CylNum.fint_fint_2; units_val U

theorem mass_rho : U.mass = U.rho * U.len ^ 3 := by
  have := U.len_ne
  rw [UnitSys.rho, div_mul_cancel₀ _ (pow_ne_zero 3 this)]

theorem num_fkM_00_units (d h rho : K) :
    Gen.PlateNum.fkM_num_00 S (U.panel P) (U.len * d) eta (U.len * h) (U.len * intx) (U.len * inty)
      (U.rho * rho) weight xi i k j l
      = U.mass * Gen.PlateNum.fkM_num_00 S P d eta h intx inty rho weight xi i k j l := by
  unfold Gen.PlateNum.fkM_num_00; units_val U

theorem num_fkM_02_units (d h rho : K) :
    Gen.PlateNum.fkM_num_02 S (U.panel P) (U.len * d) eta (U.len * h) (U.len * intx) (U.len * inty)
      (U.rho * rho) weight xi i k j l
      = U.mass * Gen.PlateNum.fkM_num_02 S P d eta h intx inty rho weight xi i k j l := by
  have hl := mul_inv_cancel₀ U.len_ne
  rw [mass_rho]
  rw [← mul_one (U.rho * U.len ^ 3 * _), ← hl]
  simp only [Gen.PlateNum.fkM_num_02, UnitSys.panel]
  ring

theorem num_fkM_11_units (d h rho : K) :
    Gen.PlateNum.fkM_num_11 S (U.panel P) (U.len * d) eta (U.len * h) (U.len * intx) (U.len * inty)
      (U.rho * rho) weight xi i k j l
      = U.mass * Gen.PlateNum.fkM_num_11 S P d eta h intx inty rho weight xi i k j l := by
  unfold Gen.PlateNum.fkM_num_11; units_val U

theorem num_fkM_12_units (d h rho : K) :
    Gen.PlateNum.fkM_num_12 S (U.panel P) (U.len * d) eta (U.len * h) (U.len * intx) (U.len * inty)
      (U.rho * rho) weight xi i k j l
      = U.mass * Gen.PlateNum.fkM_num_12 S P d eta h intx inty rho weight xi i k j l := by
  have hl := mul_inv_cancel₀ U.len_ne
  rw [mass_rho]
  rw [← mul_one (U.rho * U.len ^ 3 * _), ← hl]
  simp only [Gen.PlateNum.fkM_num_12, UnitSys.panel]
  ring

theorem num_fkM_20_units (d h rho : K) :
    Gen.PlateNum.fkM_num_20 S (U.panel P) (U.len * d) eta (U.len * h) (U.len * intx) (U.len * inty)
      (U.rho * rho) weight xi i k j l
      = U.mass * Gen.PlateNum.fkM_num_20 S P d eta h intx inty rho weight xi i k j l := by
  have hl := mul_inv_cancel₀ U.len_ne
  rw [mass_rho]
  rw [← mul_one (U.rho * U.len ^ 3 * _), ← hl]
  simp only [Gen.PlateNum.fkM_num_20, UnitSys.panel]
  ring

theorem num_fkM_21_units (d h rho : K) :
    Gen.PlateNum.fkM_num_21 S (U.panel P) (U.len * d) eta (U.len * h) (U.len * intx) (U.len * inty)
      (U.rho * rho) weight xi i k j l
      = U.mass * Gen.PlateNum.fkM_num_21 S P d eta h intx inty rho weight xi i k j l := by
  have hl := mul_inv_cancel₀ U.len_ne
  rw [mass_rho]
  rw [← mul_one (U.rho * U.len ^ 3 * _), ← hl]
  simp only [Gen.PlateNum.fkM_num_21, UnitSys.panel]
  ring

theorem num_fkM_22_units (d h rho : K) :
    Gen.PlateNum.fkM_num_22 S (U.panel P) (U.len * d) eta (U.len * h) (U.len * intx) (U.len * inty)
      (U.rho * rho) weight xi i k j l
      = U.mass * Gen.PlateNum.fkM_num_22 S P d eta h intx inty rho weight xi i k j l := by
  unfold Gen.PlateNum.fkM_num_22; generalize (1 / 4 : K) = r; generalize (833333333333333 / 10000000000000000 : K) = q; units_val U

theorem num_fkM_units (d h rho : K) :
    Gen.PlateNum.fkM_num S (U.panel P) (U.len * d) eta (U.len * h) (U.len * intx) (U.len * inty)
      (U.rho * rho) weight xi i k j l α β
      = U.mass * Gen.PlateNum.fkM_num S P d eta h intx inty rho weight xi i k j l α β := by
  unfold Gen.PlateNum.fkM_num
  split
  · exact num_fkM_00_units U S P i k j l eta intx inty weight xi d h rho
  · exact num_fkM_02_units U S P i k j l eta intx inty weight xi d h rho
  · exact num_fkM_11_units U S P i k j l eta intx inty weight xi d h rho
  · exact num_fkM_12_units U S P i k j l eta intx inty weight xi d h rho
  · exact num_fkM_20_units U S P i k j l eta intx inty weight xi d h rho
  · exact num_fkM_21_units U S P i k j l eta intx inty weight xi d h rho
  · exact num_fkM_22_units U S P i k j l eta intx inty weight xi d h rho
  · rw [mul_zero]

theorem num_fkAy_units (beta : K) :
    Gen.PlateNum.fkAy_num S (U.panel P) (U.area * beta) eta (U.len * intx) (U.len * inty) weight xi
      i k j l α β
      = U.line * Gen.PlateNum.fkAy_num S P beta eta intx inty weight xi i k j l α β := by
  unfold Gen.PlateNum.fkAy_num
  split
  · unfold Gen.PlateNum.fkAy_num_22; units_val U
  · rw [mul_zero]

end Verif
