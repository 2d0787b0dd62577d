import Verif.Spec.Units
import Verif.Model.Builders
import Verif.Model.Num

/-!
# The values written by the builders, in other units
-/

namespace Verif

open Spec

variable {K : Type*} [Field K] [DecidableEq K] (U : UnitSys K) (I : Tab K) (S : Shape K) (P : Panel K)
  (F : ℕ → ℕ → K) (i k j l α β : ℕ)

/-- The laminate constants in other units. -/
theorem lam_units : Lam.ofABD (U.abd F) =
    { A11 := U.line * F 0 0, A12 := U.line * F 0 1, A16 := U.line * F 0 2, A22 := U.line * F 1 1
      A26 := U.line * F 1 2, A66 := U.line * F 2 2
      B11 := U.force * (Lam.ofABD F).B11, B12 := U.force * (Lam.ofABD F).B12
      B16 := U.force * (Lam.ofABD F).B16, B22 := U.force * (Lam.ofABD F).B22
      B26 := U.force * (Lam.ofABD F).B26, B66 := U.force * (Lam.ofABD F).B66
      D11 := U.force * U.len * (Lam.ofABD F).D11, D12 := U.force * U.len * (Lam.ofABD F).D12
      D16 := U.force * U.len * (Lam.ofABD F).D16, D22 := U.force * U.len * (Lam.ofABD F).D22
      D26 := U.force * U.len * (Lam.ofABD F).D26, D66 := U.force * U.len * (Lam.ofABD F).D66 } := by
  simp [Lam.ofABD, UnitSys.abd]

/-- Cancel the factors. -/
macro "units_val" U:term : tactic => `(tactic| (
  have := UnitSys.len_ne $U
  try simp only [lam_units]
  simp only [UnitSys.panel, UnitSys.line, UnitSys.area, UnitSys.vol, UnitSys.rho, mul_zero,
    Lam.ofABD]
  try field_simp
  try ring))

theorem plateAna_fk0_units : Gen.PlateAna.fk0 I (U.panel P) (Lam.ofABD (U.abd F)) i k j l α β
    = U.line * Gen.PlateAna.fk0 I P (Lam.ofABD F) i k j l α β := by
  unfold Gen.PlateAna.fk0
  split
  · unfold Gen.PlateAna.fk0_00; units_val U
  · unfold Gen.PlateAna.fk0_01; units_val U
  · unfold Gen.PlateAna.fk0_02; units_val U
  · unfold Gen.PlateAna.fk0_10; units_val U
  · unfold Gen.PlateAna.fk0_11; units_val U
  · unfold Gen.PlateAna.fk0_12; units_val U
  · unfold Gen.PlateAna.fk0_20; units_val U
  · unfold Gen.PlateAna.fk0_21; units_val U
  · unfold Gen.PlateAna.fk0_22; units_val U
  · units_val U

theorem cylAna_fk0_units : Gen.CylAna.fk0 I (U.panel P) (Lam.ofABD (U.abd F)) i k j l α β
    = U.line * Gen.CylAna.fk0 I P (Lam.ofABD F) i k j l α β := by
  unfold Gen.CylAna.fk0
  split
  · unfold Gen.CylAna.fk0_00; units_val U
  · unfold Gen.CylAna.fk0_01; units_val U
  · unfold Gen.CylAna.fk0_02; units_val U
  · unfold Gen.CylAna.fk0_10; units_val U
  · unfold Gen.CylAna.fk0_11; units_val U
  · unfold Gen.CylAna.fk0_12; units_val U
  · unfold Gen.CylAna.fk0_20; units_val U
  · unfold Gen.CylAna.fk0_21; units_val U
  · unfold Gen.CylAna.fk0_22; units_val U
  · units_val U

theorem ana_fkG0_units (Nxx Nxy Nyy : K) :
    Gen.PlateAna.fkG0 I (U.panel P) (U.line * Nxx) (U.line * Nxy) (U.line * Nyy) i k j l α β
      = U.line * Gen.PlateAna.fkG0 I P Nxx Nxy Nyy i k j l α β ∧
    Gen.CylAna.fkG0 I (U.panel P) (U.line * Nxx) (U.line * Nxy) (U.line * Nyy) i k j l α β
      = U.line * Gen.CylAna.fkG0 I P Nxx Nxy Nyy i k j l α β := by
  constructor
  · unfold Gen.PlateAna.fkG0
    split
    · unfold Gen.PlateAna.fkG0_22; units_val U
    · units_val U
  · unfold Gen.CylAna.fkG0
    split
    · unfold Gen.CylAna.fkG0_22; units_val U
    · units_val U

theorem plateAna_fkM_units (d h rho : K) :
    Gen.PlateAna.fkM I (U.panel P) (U.len * d) (U.len * h) (U.rho * rho) i k j l α β
      = U.mass * Gen.PlateAna.fkM I P d h rho i k j l α β := by
  unfold Gen.PlateAna.fkM
  split
  · unfold Gen.PlateAna.fkM_00; units_val U
  · unfold Gen.PlateAna.fkM_02; units_val U
  · unfold Gen.PlateAna.fkM_11; units_val U
  · unfold Gen.PlateAna.fkM_12; units_val U
  · unfold Gen.PlateAna.fkM_20; units_val U
  · unfold Gen.PlateAna.fkM_21; units_val U
  · unfold Gen.PlateAna.fkM_22; generalize (833333333333333 / 10000000000000000 : K) = q; units_val U
  · units_val U

theorem cylAna_fkM_units (d h rho : K) :
    Gen.CylAna.fkM I (U.panel P) (U.len * d) (U.len * h) (U.rho * rho) i k j l α β
      = U.mass * Gen.CylAna.fkM I P d h rho i k j l α β := by
  unfold Gen.CylAna.fkM
  split
  · unfold Gen.CylAna.fkM_00; units_val U
  · unfold Gen.CylAna.fkM_02; units_val U
  · unfold Gen.CylAna.fkM_11; units_val U
  · unfold Gen.CylAna.fkM_12; units_val U
  · unfold Gen.CylAna.fkM_20; units_val U
  · unfold Gen.CylAna.fkM_21; units_val U
  · unfold Gen.CylAna.fkM_22; generalize (833333333333333 / 10000000000000000 : K) = q; units_val U
  · units_val U

theorem ana_aero_units (beta gamma mu : K) :
    (Gen.PlateAna.fkAx I (U.panel P) (U.area * beta) i k j l α β
        = U.line * Gen.PlateAna.fkAx I P beta i k j l α β ∧
      Gen.PlateAna.fkAy I (U.panel P) (U.area * beta) i k j l α β
        = U.line * Gen.PlateAna.fkAy I P beta i k j l α β ∧
      Gen.PlateAna.fcA I (U.panel P) (U.vol * U.time * mu) i k j l α β
        = U.line * U.time * Gen.PlateAna.fcA I P mu i k j l α β) ∧
    Gen.CylAna.fkAx I (U.panel P) (U.area * beta) (U.vol * gamma) i k j l α β
        = U.line * Gen.CylAna.fkAx I P beta gamma i k j l α β ∧
      Gen.CylAna.fkAy I (U.panel P) (U.area * beta) i k j l α β
        = U.line * Gen.CylAna.fkAy I P beta i k j l α β ∧
      Gen.CylAna.fcA I (U.panel P) (U.vol * U.time * mu) i k j l α β
        = U.line * U.time * Gen.CylAna.fcA I P mu i k j l α β := by
  refine ⟨⟨?_, ?_, ?_⟩, ?_, ?_, ?_⟩
  · unfold Gen.PlateAna.fkAx
    split
    · unfold Gen.PlateAna.fkAx_22; units_val U
    · units_val U
  · unfold Gen.PlateAna.fkAy
    split
    · unfold Gen.PlateAna.fkAy_22; units_val U
    · units_val U
  · unfold Gen.PlateAna.fcA
    split
    · unfold Gen.PlateAna.fcA_22; units_val U
    · units_val U
  · unfold Gen.CylAna.fkAx
    split
    · unfold Gen.CylAna.fkAx_22; units_val U
    · units_val U
  · unfold Gen.CylAna.fkAy
    split
    · unfold Gen.CylAna.fkAy_22; units_val U
    · units_val U
  · unfold Gen.CylAna.fcA
    split
    · unfold Gen.CylAna.fcA_22; units_val U
    · units_val U

end Verif
