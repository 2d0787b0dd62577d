import Verif.Basic.Entries
import Verif.Model.Builders
import Verif.Model.Tables
import Verif.Spec.Witness

/-!
# C07: terms beyond the implemented 30 are inert in the matrices
-/

set_option linter.unusedSimpArgs false

namespace Verif.C07

open Model Finset

variable {K : Type*} [Field K]

theorem intVal_high {T : List (List Gen.IEntry)} (hl : T.length = 30)
    (hj : ∀ row ∈ T, ∀ e ∈ row, e.j < 30) (i j : ℕ) (h : 30 ≤ i ∨ 30 ≤ j) (fa fb : Flags K) :
    intVal T i j fa fb = 0 := by
  have : findEntry T i j = none := by
    unfold findEntry
    rcases hr : T[i]? with _ | row
    · rfl
    · rcases h with h | h
      · rw [List.getElem?_eq_none (by omega)] at hr; exact absurd hr (by simp)
      · simp only
        rw [List.find?_eq_none]
        intro e he
        have := hj row (List.mem_of_getElem? hr) e he
        simp only [beq_iff_eq]
        omega
  rw [intVal, this]

/-- Scalar evaluators return 0 for every index from 30 on. -/
theorem evaluators_high (i : ℕ) (hi : 30 ≤ i) (x : K) (fl : Flags K) :
    (scShape K).f i x fl = 0 ∧ (scShape K).fp i x fl = 0 ∧ (scShape K).fpp i x fl = 0 := by
  have h1 : Gen.sc_f.length = 30 := rfl
  have h2 : Gen.sc_fp.length = 30 := rfl
  have h3 : Gen.sc_fpp.length = 30 := rfl
  refine ⟨?_, ?_, ?_⟩ <;> simp only [scShape, tabVal] <;>
    rw [List.getElem?_eq_none (by omega)]

/-- All six integral tables return 0 as soon as one index is at least 30. -/
theorem tables_high (i j : ℕ) (h : 30 ≤ i ∨ 30 ≤ j) (fa fb : Flags K) :
    (intTab K).ff i j fa fb = 0 ∧ (intTab K).ffp i j fa fb = 0 ∧
    (intTab K).ffpp i j fa fb = 0 ∧ (intTab K).fpfp i j fa fb = 0 ∧
    (intTab K).fpfpp i j fa fb = 0 ∧ (intTab K).fppfpp i j fa fb = 0 :=
  ⟨intVal_high rfl (by decide +kernel) i j h fa fb, intVal_high rfl (by decide +kernel) i j h fa fb,
    intVal_high rfl (by decide +kernel) i j h fa fb, intVal_high rfl (by decide +kernel) i j h fa fb,
    intVal_high rfl (by decide +kernel) i j h fa fb,
    intVal_high rfl (by decide +kernel) i j h fa fb⟩

/-- A loop nest whose values vanish for the terms `bad` has zero rows and columns there. -/
theorem symBuild_inert (bad : ℕ → ℕ → Prop) (s m n : ℕ) (pat : List (ℕ × ℕ))
    (hp : ∀ ab ∈ pat, ab.1 < 3 ∧ ab.2 < 3) (val : ℕ → ℕ → ℕ → ℕ → ℕ → ℕ → K)
    (hv : ∀ i k j l a b, bad i j ∨ bad k l → val i k j l a b = 0) {i j α : ℕ} (hi : i < m)
    (hα : α < 3) (hb : bad i j) (q : ℕ) :
    Coo.entry (symBuild s s m n pat val) (s + dof m i j + α) q = 0 ∧
    Coo.entry (symBuild s s m n pat val) q (s + dof m i j + α) = 0 := by
  have key : ∀ i' k' j' l' r c, i' < m → k' < m → (r = s + dof m i j + α ∨ c = s + dof m i j + α) →
      Coo.entry (symBlock s s m pat val i' k' j' l') r c = 0 := by
    intro i' k' j' l' r c hi' hk' h
    rw [entry_symBlock]
    split
    · rfl
    · apply List.sum_eq_zero
      intro x hx
      obtain ⟨ab, hab, rfl⟩ := List.mem_map.1 hx
      obtain ⟨h1, h2⟩ := hp ab hab
      split
      · rename_i hh
        apply hv
        obtain ⟨x1, hx1⟩ := dof_dvd m i j
        obtain ⟨x2, hx2⟩ := dof_dvd m i' j'
        obtain ⟨x3, hx3⟩ := dof_dvd m k' l'
        rcases h with h | h
        · obtain ⟨rfl, rfl⟩ := dof_inj hi' hi (by omega : dof m i' j' = dof m i j)
          exact Or.inl hb
        · obtain ⟨rfl, rfl⟩ := dof_inj hk' hi (by omega : dof m k' l' = dof m i j)
          exact Or.inr hb
      · rfl
  constructor <;> rw [entry_symBuild_sum] <;>
    exact Finset.sum_eq_zero fun i' hi' => Finset.sum_eq_zero fun k' hk' =>
      Finset.sum_eq_zero fun j' _ => Finset.sum_eq_zero fun l' _ =>
        key i' k' j' l' _ _ (mem_range.1 hi') (mem_range.1 hk') (by simp)

theorem finalize_inert (bad : ℕ → ℕ → Prop) (fdim s m n : ℕ) (pat : List (ℕ × ℕ))
    (hp : ∀ ab ∈ pat, ab.1 < 3 ∧ ab.2 < 3) (val : ℕ → ℕ → ℕ → ℕ → ℕ → ℕ → K)
    (hv : ∀ i k j l a b, bad i j ∨ bad k l → val i k j l a b = 0) {i j α : ℕ} (hi : i < m)
    (hα : α < 3) (hb : bad i j) (q : ℕ) :
    Coo.entry (Coo.finalizeSym (Coo.pad fdim (symBuild s s m n pat val))) (s + dof m i j + α) q = 0 := by
  have h := symBuild_inert bad s m n pat hp val hv hi hα hb q
  rw [Coo.entry_finalizeSym]
  split <;> rw [Coo.entry_pad]
  · exact h.1
  · exact h.2

/-- A term is inert when one of its two function numbers is not implemented. -/
def High (i j : ℕ) : Prop := 30 ≤ i ∨ 30 ≤ j

theorem val_high (P : Panel K) {i k j l : ℕ} (h : High i j ∨ High k l) :
    (∀ fa fb, (intTab K).ff i k fa fb = 0 ∧ (intTab K).ffp i k fa fb = 0 ∧
      (intTab K).ffp k i fa fb = 0 ∧ (intTab K).ffpp i k fa fb = 0 ∧ (intTab K).ffpp k i fa fb = 0 ∧
      (intTab K).fpfp i k fa fb = 0 ∧ (intTab K).fpfpp i k fa fb = 0 ∧
      (intTab K).fpfpp k i fa fb = 0 ∧ (intTab K).fppfpp i k fa fb = 0) ∨
    (∀ fa fb, (intTab K).ff j l fa fb = 0 ∧ (intTab K).ffp j l fa fb = 0 ∧
      (intTab K).ffp l j fa fb = 0 ∧ (intTab K).ffpp j l fa fb = 0 ∧ (intTab K).ffpp l j fa fb = 0 ∧
      (intTab K).fpfp j l fa fb = 0 ∧ (intTab K).fpfpp j l fa fb = 0 ∧
      (intTab K).fpfpp l j fa fb = 0 ∧ (intTab K).fppfpp j l fa fb = 0) := by
  have key : ∀ x y : ℕ, 30 ≤ x ∨ 30 ≤ y → ∀ fa fb : Flags K,
      (intTab K).ff x y fa fb = 0 ∧ (intTab K).ffp x y fa fb = 0 ∧
      (intTab K).ffp y x fa fb = 0 ∧ (intTab K).ffpp x y fa fb = 0 ∧ (intTab K).ffpp y x fa fb = 0 ∧
      (intTab K).fpfp x y fa fb = 0 ∧ (intTab K).fpfpp x y fa fb = 0 ∧
      (intTab K).fpfpp y x fa fb = 0 ∧ (intTab K).fppfpp x y fa fb = 0 := by
    intro x y hxy fa fb
    obtain ⟨a1, a2, a3, a4, a5, a6⟩ := tables_high (K := K) x y hxy fa fb
    obtain ⟨_, b2, b3, _, b5, _⟩ := tables_high (K := K) y x hxy.symm fa fb
    exact ⟨a1, a2, b2, a3, b3, a4, a5, b5, a6⟩
  have h' : (30 ≤ i ∨ 30 ≤ k) ∨ (30 ≤ j ∨ 30 ≤ l) := by unfold High at h; tauto
  exact h'.imp (key i k) (key j l)

/-- Additional degrees of freedom have identically zero rows (and, by symmetry, columns) in the
analytical stiffness, geometric stiffness and mass matrices of plates and cylinders. -/
theorem high_terms_zero_rows (P : Panel K) (F : ℕ → ℕ → K) (Nxx Nyy Nxy d h rho : K)
    (s : ℕ) {i j α : ℕ} (hi : i < P.m) (hα : α < 3) (hij : 30 ≤ i ∨ 30 ≤ j) (q : ℕ) :
    let r := s + 3 * (j * P.m + i) + α
    let E := fun L : Coo K => Coo.entry (Coo.finalizeSym L) r q
    E (plateFk0 (intTab K) P F s s) = 0 ∧ E (plateFkG0 (intTab K) P Nxx Nyy Nxy s s) = 0 ∧
    E (plateFkM (intTab K) P d h rho s s) = 0 ∧ E (cylFk0 (intTab K) P F s s) = 0 ∧
    E (cylFkG0 (intTab K) P Nxx Nyy Nxy s s) = 0 ∧ E (cylFkM (intTab K) P d h rho s s) = 0 := by
  refine ⟨?_, ?_, ?_, ?_, ?_, ?_⟩
  · refine finalize_inert High _ s P.m P.n _ (by decide) _ ?_ hi hα hij q
    intro i k j l a b hh
    unfold Gen.PlateAna.fk0
    split <;> first | rfl | (rcases val_high P hh with h | h <;>
      simp [Gen.PlateAna.fk0_00, Gen.PlateAna.fk0_01, Gen.PlateAna.fk0_02, Gen.PlateAna.fk0_10,
        Gen.PlateAna.fk0_11, Gen.PlateAna.fk0_12, Gen.PlateAna.fk0_20, Gen.PlateAna.fk0_21,
        Gen.PlateAna.fk0_22, h])
  · refine finalize_inert High _ s P.m P.n _ (by decide) _ ?_ hi hα hij q
    intro i k j l a b hh
    unfold Gen.PlateAna.fkG0
    split <;> first | rfl | (rcases val_high P hh with h | h <;> simp [Gen.PlateAna.fkG0_22, h])
  · refine finalize_inert High _ s P.m P.n _ (by decide) _ ?_ hi hα hij q
    intro i k j l a b hh
    unfold Gen.PlateAna.fkM
    split <;> first | rfl | (rcases val_high P hh with h | h <;>
      simp [Gen.PlateAna.fkM_00, Gen.PlateAna.fkM_02, Gen.PlateAna.fkM_11, Gen.PlateAna.fkM_12,
        Gen.PlateAna.fkM_20, Gen.PlateAna.fkM_21, Gen.PlateAna.fkM_22, h])
  · refine finalize_inert High _ s P.m P.n _ (by decide) _ ?_ hi hα hij q
    intro i k j l a b hh
    unfold Gen.CylAna.fk0
    split <;> first | rfl | (rcases val_high P hh with h | h <;>
      simp [Gen.CylAna.fk0_00, Gen.CylAna.fk0_01, Gen.CylAna.fk0_02, Gen.CylAna.fk0_10,
        Gen.CylAna.fk0_11, Gen.CylAna.fk0_12, Gen.CylAna.fk0_20, Gen.CylAna.fk0_21,
        Gen.CylAna.fk0_22, h])
  · refine finalize_inert High _ s P.m P.n _ (by decide) _ ?_ hi hα hij q
    intro i k j l a b hh
    unfold Gen.CylAna.fkG0
    split <;> first | rfl | (rcases val_high P hh with h | h <;> simp [Gen.CylAna.fkG0_22, h])
  · refine finalize_inert High _ s P.m P.n _ (by decide) _ ?_ hi hα hij q
    intro i k j l a b hh
    unfold Gen.CylAna.fkM
    split <;> first | rfl | (rcases val_high P hh with h | h <;>
      simp [Gen.CylAna.fkM_00, Gen.CylAna.fkM_02, Gen.CylAna.fkM_11, Gen.CylAna.fkM_12,
        Gen.CylAna.fkM_20, Gen.CylAna.fkM_21, Gen.CylAna.fkM_22, h])

/-- A panel with 40 terms along `x`: the row of term (33, 2), component `w`. -/
example (q : ℕ) : Coo.entry (Coo.finalizeSym (plateFk0 (intTab ℚ)
    { (Witness.panel : Panel ℚ) with m := 40 } Witness.abd 6 6)) (6 + 3 * (2 * 40 + 33) + 2) q = 0 :=
  (high_terms_zero_rows { (Witness.panel : Panel ℚ) with m := 40 } Witness.abd 0 0 0 0 0 0 6
    (i := 33) (j := 2) (α := 2) (by norm_num) (by norm_num) (by norm_num) q).1

end Verif.C07
