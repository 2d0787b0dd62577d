import Verif.Proofs.NumEnergy
import Verif.Proofs.GeoMass

/-!
# Entries of the numerically integrated geometric stiffness, mass and internal force
-/

set_option linter.unusedSimpArgs false
set_option linter.unnecessarySeqFocus false

namespace Verif

open Finset

variable {K : Type*} [Field K]

/-- Basis values of a strain-displacement operator. -/
def termE (B : ℕ → ℕ → Term K) (S : Shape K) (P : Panel K) (ξ η : K) (s i j α : ℕ) : K :=
  (B s α).k * (S.D (B s α).p i ξ (P.xf α) * S.D (B s α).q j η (P.yf α))

theorem field_termE (B : ℕ → ℕ → Term K) (S : Shape K) (P : Panel K) (s0 : ℕ) (c : ℕ → K)
    (ξ η : K) (s : ℕ) : field P.m P.n s0 c (termE B S P ξ η) s = applyB S P s0 c B s ξ η := by
  unfold field applyB termE
  exact Finset.sum_congr rfl fun τ _ => by ring

section
variable [CharZero K]

theorem plate_fkGnum_entry (S : Shape K) (P : Panel K) (ha : P.a ≠ 0) (hb : P.b ≠ 0)
    (Nxx Nxy Nyy eta intx inty weight xi : K) (i k j l α β : ℕ) (hα : α < 3) (hβ : β < 3) :
    Gen.PlateNum.fkG_num S P Nxx Nxy Nyy eta intx inty weight xi i k j l α β
      = weight * intx * inty / 4 * ∑ s ∈ range 2, ∑ t ∈ range 2, memN Nxx Nyy Nxy s t *
          termE (slopeB P.a P.b) S P xi eta s i j α *
          termE (slopeB P.a P.b) S P xi eta t k l β := by
  interval_cases α <;> interval_cases β <;>
    simp only [Gen.PlateNum.fkG_num, Gen.PlateNum.fkG_num_22, termE, slopeB, memN, Shape.D,
      Panel.xf, Panel.yf, Finset.sum_range_succ, Finset.sum_range_zero, zero_mul, mul_zero,
      add_zero, zero_add] <;>
    field_simp <;> ring

theorem cyl_fkGnum_entry (S : Shape K) (P : Panel K) (ha : P.a ≠ 0) (hb : P.b ≠ 0)
    (Nxx Nxy Nyy eta intx inty weight xi : K) (i k j l α β : ℕ) (hα : α < 3) (hβ : β < 3) :
    Gen.CylNum.fkG_num S P Nxx Nxy Nyy eta intx inty weight xi i k j l α β
      = weight * intx * inty / 4 * ∑ s ∈ range 2, ∑ t ∈ range 2, memN Nxx Nyy Nxy s t *
          termE (slopeB P.a P.b) S P xi eta s i j α *
          termE (slopeB P.a P.b) S P xi eta t k l β := by
  interval_cases α <;> interval_cases β <;>
    simp only [Gen.CylNum.fkG_num, Gen.CylNum.fkG_num_22, termE, slopeB, memN, Shape.D,
      Panel.xf, Panel.yf, Finset.sum_range_succ, Finset.sum_range_zero, zero_mul, mul_zero,
      add_zero, zero_add] <;>
    field_simp <;> ring

set_option maxHeartbeats 1000000 in
theorem plate_fkMnum_entry (S : Shape K) (P : Panel K) (ha : P.a ≠ 0) (hb : P.b ≠ 0)
    (d eta h intx inty rho weight xi : K) (i k j l α β : ℕ) (hα : α < 3) (hβ : β < 3) :
    Gen.PlateNum.fkM_num S P d eta h intx inty rho weight xi i k j l α β
      = weight * intx * inty / 4 * ∑ s ∈ range 5, ∑ t ∈ range 5,
          inertia (rho * h) (rho * h * (c12 * h ^ 2)) s t *
          termE (massB P.a P.b d) S P xi eta s i j α *
          termE (massB P.a P.b d) S P xi eta t k l β := by
  interval_cases α <;> interval_cases β <;>
    simp only [Gen.PlateNum.fkM_num, Gen.PlateNum.fkM_num_00, Gen.PlateNum.fkM_num_02,
      Gen.PlateNum.fkM_num_11, Gen.PlateNum.fkM_num_12, Gen.PlateNum.fkM_num_20,
      Gen.PlateNum.fkM_num_21, Gen.PlateNum.fkM_num_22, termE, massB, inertia, Shape.D,
      show (833333333333333/10000000000000000 : K) = c12 from rfl,
      Panel.xf, Panel.yf, Finset.sum_range_succ, Finset.sum_range_zero, zero_mul, mul_zero,
      add_zero, zero_add] <;>
    field_simp <;> ring

end

/-! ### Strains computed inside the loops -/

theorem sum_nm (m n : ℕ) (f : ℕ → ℕ → K) :
    ∑ j ∈ range n, ∑ i ∈ range m, f i j = ∑ A ∈ range m ×ˢ range n, f A.1 A.2 := by
  rw [Finset.sum_product, Finset.sum_comm]

/-- Slopes in natural coordinates. -/
def wxi0 (S : Shape K) (P : Panel K) (cs : ℕ → K) (s0 : ℕ) (ξ η : K) : K :=
  ∑ A ∈ range P.m ×ˢ range P.n, cs (s0 + dof P.m A.1 A.2 + 2) *
    (S.D 1 A.1 ξ (P.xf 2) * S.D 0 A.2 η (P.yf 2))

/-- Slopes in natural coordinates. -/
def weta0 (S : Shape K) (P : Panel K) (cs : ℕ → K) (s0 : ℕ) (ξ η : K) : K :=
  ∑ A ∈ range P.m ×ˢ range P.n, cs (s0 + dof P.m A.1 A.2 + 2) *
    (S.D 0 A.1 ξ (P.xf 2) * S.D 1 A.2 η (P.yf 2))

theorem wx_eq (S : Shape K) (P : Panel K) (cs : ℕ → K) (s0 : ℕ) (ξ η : K) :
    2 / P.a * wxi0 S P cs s0 ξ η = Spec.disp S P s0 cs 2 1 0 ξ η := by
  rw [disp_eq, wxi0, Finset.mul_sum]
  exact Finset.sum_congr rfl fun A _ => by ring

theorem wy_eq (S : Shape K) (P : Panel K) (cs : ℕ → K) (s0 : ℕ) (ξ η : K) :
    2 / P.b * weta0 S P cs s0 ξ η = Spec.disp S P s0 cs 2 0 1 ξ η := by
  rw [disp_eq, weta0, Finset.mul_sum]
  exact Finset.sum_congr rfl fun A _ => by ring

theorem wxiC_eq [DecidableEq K] (S : Shape K) (P : Panel K) (cs : ℕ → K) (s0 NL : ℕ) (ξ η : K) :
    Model.wxiC S P cs s0 NL ξ η = if NL = 1 then wxi0 S P cs s0 ξ η else 0 := by
  unfold Model.wxiC
  rw [sum_nm P.m P.n (fun i j => Gen.PlateNum.fkC_num_wxi S P (cs (s0 + dof P.m i j + 2)) η ξ i j)]
  congr 1
  exact Finset.sum_congr rfl fun A _ => by
    simp only [Gen.PlateNum.fkC_num_wxi, Shape.D, Panel.xf, Panel.yf]; ring

theorem wetaC_eq [DecidableEq K] (S : Shape K) (P : Panel K) (cs : ℕ → K) (s0 NL : ℕ) (ξ η : K) :
    Model.wetaC S P cs s0 NL ξ η = if NL = 1 then weta0 S P cs s0 ξ η else 0 := by
  unfold Model.wetaC
  rw [sum_nm P.m P.n (fun i j => Gen.PlateNum.fkC_num_weta S P (cs (s0 + dof P.m i j + 2)) η ξ i j)]
  congr 1
  exact Finset.sum_congr rfl fun A _ => by
    simp only [Gen.PlateNum.fkC_num_weta, Shape.D, Panel.xf, Panel.yf]; ring

theorem wxiCcyl_eq [DecidableEq K] (S : Shape K) (P : Panel K) (cs : ℕ → K) (s0 NL : ℕ)
    (ξ η : K) :
    Model.wxiCcyl S P cs s0 NL ξ η = if NL = 1 then wxi0 S P cs s0 ξ η else 0 := by
  unfold Model.wxiCcyl
  rw [sum_nm P.m P.n (fun i j => Gen.CylNum.fkC_num_wxi S P (cs (s0 + dof P.m i j + 2)) η ξ i j)]
  congr 1
  exact Finset.sum_congr rfl fun A _ => by
    simp only [Gen.CylNum.fkC_num_wxi, Shape.D, Panel.xf, Panel.yf]; ring

theorem wetaCcyl_eq [DecidableEq K] (S : Shape K) (P : Panel K) (cs : ℕ → K) (s0 NL : ℕ)
    (ξ η : K) :
    Model.wetaCcyl S P cs s0 NL ξ η = if NL = 1 then weta0 S P cs s0 ξ η else 0 := by
  unfold Model.wetaCcyl
  rw [sum_nm P.m P.n (fun i j => Gen.CylNum.fkC_num_weta S P (cs (s0 + dof P.m i j + 2)) η ξ i j)]
  congr 1
  exact Finset.sum_congr rfl fun A _ => by
    simp only [Gen.CylNum.fkC_num_weta, Shape.D, Panel.xf, Panel.yf]; ring

/-- The six strains as a vector. -/
def Model.Strain.vec (e : Model.Strain K) (s : ℕ) : K :=
  match s with
  | 0 => e.exx
  | 1 => e.eyy
  | 2 => e.gxy
  | 3 => e.kxx
  | 4 => e.kyy
  | _ => e.kxy

/-- Natural-coordinate version of the strains computed by the code. -/
def natStrain (g κ wx wy : K) (S : Shape K) (P : Panel K) (s0 : ℕ) (c : ℕ → K) (ξ η : K)
    (s : ℕ) : K :=
  match s with
  | 0 => Spec.disp S P s0 c 0 1 0 ξ η + wx * Spec.disp S P s0 c 2 1 0 ξ η / 2
  | 1 => Spec.disp S P s0 c 1 0 1 ξ η + κ * Spec.disp S P s0 c 2 0 0 ξ η +
          wy * Spec.disp S P s0 c 2 0 1 ξ η / 2
  | 2 => Spec.disp S P s0 c 0 0 1 ξ η + Spec.disp S P s0 c 1 1 0 ξ η +
          g * (wx * Spec.disp S P s0 c 2 0 1 ξ η + wy * Spec.disp S P s0 c 2 1 0 ξ η) / 2
  | 3 => - Spec.disp S P s0 c 2 2 0 ξ η
  | 4 => - Spec.disp S P s0 c 2 0 2 ξ η
  | _ => - 2 * Spec.disp S P s0 c 2 1 1 ξ η

set_option maxHeartbeats 1000000 in
theorem strainG_vec [DecidableEq K] [CharZero K] (S : Shape K) (P : Panel K) (cs : ℕ → K)
    (s0 NL : ℕ) (ξ η : K) (s : ℕ) (hs : s < 6) :
    (Model.strainG S P cs s0 NL ξ η).vec s
      = natStrain 2 0 (2 / P.a * if NL = 1 then wxi0 S P cs s0 ξ η else 0)
          (2 / P.b * if NL = 1 then weta0 S P cs s0 ξ η else 0) S P s0 cs ξ η s := by
  have e1 : (if NL = 1 then ∑ j ∈ range P.n, ∑ i ∈ range P.m,
      Gen.PlateNum.fkG_num_wxi S P (cs (s0 + dof P.m i j + 2)) η ξ i j else 0)
      = if NL = 1 then wxi0 S P cs s0 ξ η else 0 := by
    rw [sum_nm P.m P.n (fun i j =>
      Gen.PlateNum.fkG_num_wxi S P (cs (s0 + dof P.m i j + 2)) η ξ i j)]
    congr 1
    exact Finset.sum_congr rfl fun A _ => by
      simp only [Gen.PlateNum.fkG_num_wxi, Shape.D, Panel.xf, Panel.yf]; ring
  have e2 : (if NL = 1 then ∑ j ∈ range P.n, ∑ i ∈ range P.m,
      Gen.PlateNum.fkG_num_weta S P (cs (s0 + dof P.m i j + 2)) η ξ i j else 0)
      = if NL = 1 then weta0 S P cs s0 ξ η else 0 := by
    rw [sum_nm P.m P.n (fun i j =>
      Gen.PlateNum.fkG_num_weta S P (cs (s0 + dof P.m i j + 2)) η ξ i j)]
    congr 1
    exact Finset.sum_congr rfl fun A _ => by
      simp only [Gen.PlateNum.fkG_num_weta, Shape.D, Panel.xf, Panel.yf]; ring
  unfold Model.strainG
  simp only [e1, e2]
  generalize (if NL = 1 then wxi0 S P cs s0 ξ η else 0) = wx
  generalize (if NL = 1 then weta0 S P cs s0 ξ η else 0) = wy
  interval_cases s <;>
    simp only [Model.Strain.vec, natStrain, disp_eq, Finset.mul_sum, Finset.sum_div,
      ← Finset.sum_add_distrib, ← Finset.sum_neg_distrib] <;>
    rw [sum_nm P.m P.n] <;>
    refine Finset.sum_congr rfl fun A _ => ?_ <;>
    simp only [Gen.PlateNum.fkG_num_exx, Gen.PlateNum.fkG_num_eyy, Gen.PlateNum.fkG_num_gxy,
      Gen.PlateNum.fkG_num_kxx, Gen.PlateNum.fkG_num_kyy, Gen.PlateNum.fkG_num_kxy,
      Shape.D, Panel.xf, Panel.yf, add_zero] <;>
    ring

set_option maxHeartbeats 1000000 in
theorem strainGcyl_vec [DecidableEq K] [CharZero K] (S : Shape K) (P : Panel K) (cs : ℕ → K)
    (s0 NL : ℕ) (ξ η : K) (s : ℕ) (hs : s < 6) :
    (Model.strainGcyl S P cs s0 NL ξ η).vec s
      = natStrain 2 (1 / P.r) (2 / P.a * if NL = 1 then wxi0 S P cs s0 ξ η else 0)
          (2 / P.b * if NL = 1 then weta0 S P cs s0 ξ η else 0) S P s0 cs ξ η s := by
  have e1 : (if NL = 1 then ∑ j ∈ range P.n, ∑ i ∈ range P.m,
      Gen.CylNum.fkG_num_wxi S P (cs (s0 + dof P.m i j + 2)) η ξ i j else 0)
      = if NL = 1 then wxi0 S P cs s0 ξ η else 0 := by
    rw [sum_nm P.m P.n (fun i j =>
      Gen.CylNum.fkG_num_wxi S P (cs (s0 + dof P.m i j + 2)) η ξ i j)]
    congr 1
    exact Finset.sum_congr rfl fun A _ => by
      simp only [Gen.CylNum.fkG_num_wxi, Shape.D, Panel.xf, Panel.yf]; ring
  have e2 : (if NL = 1 then ∑ j ∈ range P.n, ∑ i ∈ range P.m,
      Gen.CylNum.fkG_num_weta S P (cs (s0 + dof P.m i j + 2)) η ξ i j else 0)
      = if NL = 1 then weta0 S P cs s0 ξ η else 0 := by
    rw [sum_nm P.m P.n (fun i j =>
      Gen.CylNum.fkG_num_weta S P (cs (s0 + dof P.m i j + 2)) η ξ i j)]
    congr 1
    exact Finset.sum_congr rfl fun A _ => by
      simp only [Gen.CylNum.fkG_num_weta, Shape.D, Panel.xf, Panel.yf]; ring
  unfold Model.strainGcyl
  simp only [e1, e2]
  generalize (if NL = 1 then wxi0 S P cs s0 ξ η else 0) = wx
  generalize (if NL = 1 then weta0 S P cs s0 ξ η else 0) = wy
  interval_cases s <;>
    simp only [Model.Strain.vec, natStrain, disp_eq, Finset.mul_sum, Finset.sum_div,
      ← Finset.sum_add_distrib, ← Finset.sum_neg_distrib] <;>
    rw [sum_nm P.m P.n] <;>
    refine Finset.sum_congr rfl fun A _ => ?_ <;>
    simp only [Gen.CylNum.fkG_num_exx, Gen.CylNum.fkG_num_eyy, Gen.CylNum.fkG_num_gxy,
      Gen.CylNum.fkG_num_kxx, Gen.CylNum.fkG_num_kyy, Gen.CylNum.fkG_num_kxy,
      Shape.D, Panel.xf, Panel.yf, add_zero] <;>
    ring

end Verif
