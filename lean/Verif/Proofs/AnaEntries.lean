import Verif.Proofs.Energy
import Verif.Model.Builders
import Mathlib.Tactic.IntervalCases
import Mathlib.Algebra.BigOperators.Field

/-!
# Entries of the analytical builders as strain-displacement products
-/

set_option linter.unnecessarySeqFocus false
set_option linter.unusedSimpArgs false

namespace Verif

open Finset

variable {K : Type*} [Field K]

/-- Strain-displacement terms, flat plate. -/
def plateB (a b : K) (s α : ℕ) : Term K :=
  match s, α with
  | 0, 0 => ⟨2 / a, 1, 0⟩
  | 1, 1 => ⟨2 / b, 0, 1⟩
  | 2, 0 => ⟨2 / b, 0, 1⟩
  | 2, 1 => ⟨2 / a, 1, 0⟩
  | 3, 2 => ⟨-(2 / a) ^ 2, 2, 0⟩
  | 4, 2 => ⟨-(2 / b) ^ 2, 0, 2⟩
  | 5, 2 => ⟨-2 * ((2 / a) * (2 / b)), 1, 1⟩
  | _, _ => ⟨0, 0, 0⟩

/-- Strain-displacement terms, cylinder. -/
def cylB (a b r : K) (s α : ℕ) : Term K :=
  match s, α with
  | 1, 2 => ⟨1 / r, 0, 0⟩
  | s, α => plateB a b s α

theorem disp_eq (S : Shape K) (P : Panel K) (s0 : ℕ) (c : ℕ → K) (α p q : ℕ) (ξ η : K) :
    Spec.disp S P s0 c α p q ξ η = ∑ A ∈ range P.m ×ˢ range P.n,
      c (s0 + dof P.m A.1 A.2 + α) * ((2 / P.a) ^ p * (2 / P.b) ^ q) *
        (S.D p A.1 ξ (P.xf α) * S.D q A.2 η (P.yf α)) := by
  rw [Finset.sum_product]
  unfold Spec.disp dof
  rw [Finset.mul_sum]
  refine Finset.sum_congr rfl fun i _ => ?_
  rw [Finset.mul_sum]
  exact Finset.sum_congr rfl fun j _ => by ring

theorem applyB_eq (S : Shape K) (P : Panel K) (s0 : ℕ) (c : ℕ → K) (B : ℕ → ℕ → Term K)
    (s : ℕ) (ξ η : K) : applyB S P s0 c B s ξ η = ∑ A ∈ range P.m ×ˢ range P.n,
      ∑ α ∈ range 3, c (s0 + dof P.m A.1 A.2 + α) * (B s α).k *
        (S.D (B s α).p A.1 ξ (P.xf α) * S.D (B s α).q A.2 η (P.yf α)) := by
  unfold applyB dofs
  rw [Finset.sum_product (range P.m ×ˢ range P.n) (range 3)]

theorem applyB_plate (S : Shape K) (P : Panel K) (s0 : ℕ) (c : ℕ → K)
    (s : ℕ) (hs : s < 6) (ξ η : K) :
    applyB S P s0 c (plateB P.a P.b) s ξ η = Spec.plateStrain S P s0 c s ξ η := by
  rw [applyB_eq]
  interval_cases s <;>
    simp only [Spec.plateStrain, disp_eq, plateB, Finset.sum_range_succ, Finset.sum_range_zero,
      ← Finset.sum_add_distrib, ← Finset.sum_neg_distrib, Finset.mul_sum] <;>
    exact Finset.sum_congr rfl fun A _ => by ring

theorem applyB_cyl (S : Shape K) (P : Panel K) (s0 : ℕ) (c : ℕ → K)
    (s : ℕ) (hs : s < 6) (ξ η : K) :
    applyB S P s0 c (cylB P.a P.b P.r) s ξ η = Spec.cylStrain S P s0 c s ξ η := by
  rw [applyB_eq]
  interval_cases s <;>
    simp only [Spec.cylStrain, Spec.plateStrain, disp_eq, cylB, plateB, Finset.sum_range_succ,
      Finset.sum_range_zero,
      ← Finset.sum_add_distrib, ← Finset.sum_neg_distrib, Finset.mul_sum, Finset.sum_div] <;>
    exact Finset.sum_congr rfl fun A _ => by ring

theorem dens_congr (N : ℕ) (F : ℕ → ℕ → K) (e e' : ℕ → K) (h : ∀ s < N, e s = e' s) :
    Spec.dens N F e = Spec.dens N F e' := by
  unfold Spec.dens
  refine Finset.sum_congr rfl fun s hs => Finset.sum_congr rfl fun t ht => ?_
  rw [h s (mem_range.1 hs), h t (mem_range.1 ht)]

section
variable [CharZero K]

set_option maxHeartbeats 2000000 in
theorem plate_fk0_entry (I : Tab K) (P : Panel K) (F : ℕ → ℕ → K) (hF : Spec.ABDSym F)
    (ha : P.a ≠ 0) (hb : P.b ≠ 0) (i k j l α β : ℕ) (hα : α < 3) (hβ : β < 3) :
    Gen.PlateAna.fk0 I P (Lam.ofABD F) i k j l α β = P.a * P.b / 4 *
      ∑ s ∈ range 6, ∑ t ∈ range 6, F s t *
        ((plateB P.a P.b s α).k * (plateB P.a P.b t β).k) *
        (I.get (plateB P.a P.b s α).p (plateB P.a P.b t β).p i k (P.xf α) (P.xf β) *
          I.get (plateB P.a P.b s α).q (plateB P.a P.b t β).q j l (P.yf α) (P.yf β)) := by
  have h1 := hF.b12
  have h2 := hF.b16
  have h3 := hF.b26
  have s01 := hF.symm 1 0
  have s02 := hF.symm 2 0
  have s12 := hF.symm 2 1
  have s30 := hF.symm 3 0
  have s40 := hF.symm 4 0
  have s50 := hF.symm 5 0
  have s31 := hF.symm 3 1
  have s41 := hF.symm 4 1
  have s51 := hF.symm 5 1
  have s32 := hF.symm 3 2
  have s42 := hF.symm 4 2
  have s52 := hF.symm 5 2
  have s43 := hF.symm 4 3
  have s53 := hF.symm 5 3
  have s54 := hF.symm 5 4
  interval_cases α <;> interval_cases β <;>
    simp only [Gen.PlateAna.fk0, Gen.PlateAna.fk0_00, Gen.PlateAna.fk0_01, Gen.PlateAna.fk0_02,
      Gen.PlateAna.fk0_10, Gen.PlateAna.fk0_11, Gen.PlateAna.fk0_12, Gen.PlateAna.fk0_20,
      Gen.PlateAna.fk0_21, Gen.PlateAna.fk0_22, Lam.ofABD, plateB, Tab.get, Panel.xf, Panel.yf,
      Finset.sum_range_succ, Finset.sum_range_zero, zero_mul, mul_zero, add_zero, zero_add,
      s01, s02, s12, s30, s40, s50, s31, s41, s51, s32, s42, s52, s43, s53, s54, h1, h2, h3] <;>
    field_simp <;> ring

set_option maxHeartbeats 2000000 in
theorem cyl_fk0_entry (I : Tab K) (P : Panel K) (F : ℕ → ℕ → K) (hF : Spec.ABDSym F)
    (ha : P.a ≠ 0) (hb : P.b ≠ 0) (hr : P.r ≠ 0) (i k j l α β : ℕ) (hα : α < 3) (hβ : β < 3) :
    Gen.CylAna.fk0 I P (Lam.ofABD F) i k j l α β = P.a * P.b / 4 *
      ∑ s ∈ range 6, ∑ t ∈ range 6, F s t *
        ((cylB P.a P.b P.r s α).k * (cylB P.a P.b P.r t β).k) *
        (I.get (cylB P.a P.b P.r s α).p (cylB P.a P.b P.r t β).p i k (P.xf α) (P.xf β) *
          I.get (cylB P.a P.b P.r s α).q (cylB P.a P.b P.r t β).q j l (P.yf α) (P.yf β)) := by
  have h1 := hF.b12
  have h2 := hF.b16
  have h3 := hF.b26
  have s01 := hF.symm 1 0
  have s02 := hF.symm 2 0
  have s12 := hF.symm 2 1
  have s30 := hF.symm 3 0
  have s40 := hF.symm 4 0
  have s50 := hF.symm 5 0
  have s31 := hF.symm 3 1
  have s41 := hF.symm 4 1
  have s51 := hF.symm 5 1
  have s32 := hF.symm 3 2
  have s42 := hF.symm 4 2
  have s52 := hF.symm 5 2
  have s43 := hF.symm 4 3
  have s53 := hF.symm 5 3
  have s54 := hF.symm 5 4
  interval_cases α <;> interval_cases β <;>
    simp only [Gen.CylAna.fk0, Gen.CylAna.fk0_00, Gen.CylAna.fk0_01, Gen.CylAna.fk0_02,
      Gen.CylAna.fk0_10, Gen.CylAna.fk0_11, Gen.CylAna.fk0_12, Gen.CylAna.fk0_20,
      Gen.CylAna.fk0_21, Gen.CylAna.fk0_22, Lam.ofABD, cylB, plateB, Tab.get, Panel.xf, Panel.yf,
      Finset.sum_range_succ, Finset.sum_range_zero, zero_mul, mul_zero, add_zero, zero_add,
      s01, s02, s12, s30, s40, s50, s31, s41, s51, s32, s42, s52, s43, s53, s54, h1, h2, h3] <;>
    field_simp <;> ring

/-- Slopes `w,x` and `w,y`. -/
def slopeB (a b : K) (s α : ℕ) : Term K :=
  match s, α with
  | 0, 2 => ⟨2 / a, 1, 0⟩
  | 1, 2 => ⟨2 / b, 0, 1⟩
  | _, _ => ⟨0, 0, 0⟩

/-- Velocity fields of the kinetic energy. -/
def massB (a b d : K) (s α : ℕ) : Term K :=
  match s, α with
  | 0, 0 => ⟨1, 0, 0⟩
  | 0, 2 => ⟨d * (2 / a), 1, 0⟩
  | 1, 1 => ⟨1, 0, 0⟩
  | 1, 2 => ⟨d * (2 / b), 0, 1⟩
  | 2, 2 => ⟨1, 0, 0⟩
  | 3, 2 => ⟨2 / a, 1, 0⟩
  | 4, 2 => ⟨2 / b, 0, 1⟩
  | _, _ => ⟨0, 0, 0⟩

/-- Membrane force matrix. -/
def memN (Nxx Nyy Nxy : K) (s t : ℕ) : K :=
  match s, t with
  | 0, 0 => Nxx
  | 0, 1 => Nxy
  | 1, 0 => Nxy
  | 1, 1 => Nyy
  | _, _ => 0

/-- Inertia matrix (diagonal). -/
def inertia (m0 m2 : K) (s t : ℕ) : K :=
  match s, t with
  | 0, 0 => m0
  | 1, 1 => m0
  | 2, 2 => m0
  | 3, 3 => m2
  | 4, 4 => m2
  | _, _ => 0

/-- The decimal `0.0833333333333333`. -/
def c12 : K := 833333333333333/10000000000000000

theorem plate_fkG0_entry (I : Tab K) (P : Panel K) (Nxx Nyy Nxy : K)
    (ha : P.a ≠ 0) (hb : P.b ≠ 0) (i k j l α β : ℕ) (hα : α < 3) (hβ : β < 3) :
    Gen.PlateAna.fkG0 I P Nxx Nxy Nyy i k j l α β = P.a * P.b / 4 *
      ∑ s ∈ range 2, ∑ t ∈ range 2, memN Nxx Nyy Nxy s t *
        ((slopeB P.a P.b s α).k * (slopeB P.a P.b t β).k) *
        (I.get (slopeB P.a P.b s α).p (slopeB P.a P.b t β).p i k (P.xf α) (P.xf β) *
          I.get (slopeB P.a P.b s α).q (slopeB P.a P.b t β).q j l (P.yf α) (P.yf β)) := by
  interval_cases α <;> interval_cases β <;>
    simp only [Gen.PlateAna.fkG0, Gen.PlateAna.fkG0_22, slopeB, memN, Tab.get, Panel.xf, Panel.yf,
      Finset.sum_range_succ, Finset.sum_range_zero, zero_mul, mul_zero, add_zero, zero_add] <;>
    field_simp <;> ring

theorem cyl_fkG0_entry (I : Tab K) (P : Panel K) (Nxx Nyy Nxy : K)
    (ha : P.a ≠ 0) (hb : P.b ≠ 0) (i k j l α β : ℕ) (hα : α < 3) (hβ : β < 3) :
    Gen.CylAna.fkG0 I P Nxx Nxy Nyy i k j l α β = P.a * P.b / 4 *
      ∑ s ∈ range 2, ∑ t ∈ range 2, memN Nxx Nyy Nxy s t *
        ((slopeB P.a P.b s α).k * (slopeB P.a P.b t β).k) *
        (I.get (slopeB P.a P.b s α).p (slopeB P.a P.b t β).p i k (P.xf α) (P.xf β) *
          I.get (slopeB P.a P.b s α).q (slopeB P.a P.b t β).q j l (P.yf α) (P.yf β)) := by
  interval_cases α <;> interval_cases β <;>
    simp only [Gen.CylAna.fkG0, Gen.CylAna.fkG0_22, slopeB, memN, Tab.get, Panel.xf, Panel.yf,
      Finset.sum_range_succ, Finset.sum_range_zero, zero_mul, mul_zero, add_zero, zero_add] <;>
    field_simp <;> ring

set_option maxHeartbeats 1000000 in
theorem plate_fkM_entry (I : Tab K) (P : Panel K) (d h rho : K)
    (ha : P.a ≠ 0) (hb : P.b ≠ 0) (i k j l α β : ℕ) (hα : α < 3) (hβ : β < 3) :
    Gen.PlateAna.fkM I P d h rho i k j l α β = P.a * P.b / 4 *
      ∑ s ∈ range 5, ∑ t ∈ range 5, inertia (rho * h) (rho * h * (c12 * h ^ 2)) s t *
        ((massB P.a P.b d s α).k * (massB P.a P.b d t β).k) *
        (I.get (massB P.a P.b d s α).p (massB P.a P.b d t β).p i k (P.xf α) (P.xf β) *
          I.get (massB P.a P.b d s α).q (massB P.a P.b d t β).q j l (P.yf α) (P.yf β)) := by
  interval_cases α <;> interval_cases β <;>
    simp only [Gen.PlateAna.fkM, Gen.PlateAna.fkM_00, Gen.PlateAna.fkM_02, Gen.PlateAna.fkM_11,
      Gen.PlateAna.fkM_12, Gen.PlateAna.fkM_20, Gen.PlateAna.fkM_21, Gen.PlateAna.fkM_22,
      massB, inertia, Tab.get, Panel.xf, Panel.yf,
      show (833333333333333/10000000000000000 : K) = c12 from rfl,
      Finset.sum_range_succ, Finset.sum_range_zero, zero_mul, mul_zero, add_zero, zero_add] <;>
    field_simp <;> ring

set_option maxHeartbeats 1000000 in
theorem cyl_fkM_entry (I : Tab K) (P : Panel K) (d h rho : K)
    (ha : P.a ≠ 0) (hb : P.b ≠ 0) (i k j l α β : ℕ) (hα : α < 3) (hβ : β < 3) :
    Gen.CylAna.fkM I P d h rho i k j l α β = P.a * P.b / 4 *
      ∑ s ∈ range 5, ∑ t ∈ range 5, inertia (rho * h) (rho * h * (c12 * h ^ 2)) s t *
        ((massB P.a P.b d s α).k * (massB P.a P.b d t β).k) *
        (I.get (massB P.a P.b d s α).p (massB P.a P.b d t β).p i k (P.xf α) (P.xf β) *
          I.get (massB P.a P.b d s α).q (massB P.a P.b d t β).q j l (P.yf α) (P.yf β)) := by
  interval_cases α <;> interval_cases β <;>
    simp only [Gen.CylAna.fkM, Gen.CylAna.fkM_00, Gen.CylAna.fkM_02, Gen.CylAna.fkM_11,
      Gen.CylAna.fkM_12, Gen.CylAna.fkM_20, Gen.CylAna.fkM_21, Gen.CylAna.fkM_22,
      massB, inertia, Tab.get, Panel.xf, Panel.yf,
      show (833333333333333/10000000000000000 : K) = c12 from rfl,
      Finset.sum_range_succ, Finset.sum_range_zero, zero_mul, mul_zero, add_zero, zero_add] <;>
    field_simp <;> ring

end
end Verif
