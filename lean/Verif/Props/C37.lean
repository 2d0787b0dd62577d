import Verif.Model.Shell
import Verif.Proofs.FieldOut
import Mathlib.Data.Fintype.Card
import Mathlib.Data.Fintype.Prod

/-!
# C37: numbering of the degrees of freedom
-/

set_option linter.unusedSectionVars false

namespace Verif.C37

open Model

/-- Position of component `α` of the term `(i, j)`. -/
def pos (m i j α : ℕ) : ℕ := 3 * (j * m + i) + α

theorem pos_lt {m n i j α : ℕ} (hi : i < m) (hj : j < n) (hα : α < 3) : pos m i j α < 3 * m * n := by
  have := dof_lt hi hj
  unfold dof at this
  unfold pos
  rw [mul_assoc]
  omega

/-- The numbering of the unknowns of a panel. -/
def number (m n : ℕ) (p : Fin m × Fin n × Fin 3) : Fin (3 * m * n) :=
  ⟨pos m p.1 p.2.1 p.2.2, pos_lt p.1.2 p.2.1.2 p.2.2.2⟩

theorem number_injective (m n : ℕ) : Function.Injective (number m n) := by
  rintro ⟨i, j, α⟩ ⟨k, l, β⟩ h
  have h' : dof m i j + α = dof m k l + β := congrArg Fin.val h
  obtain ⟨⟨h1, h2⟩, h3⟩ := dof_add_inj i.2 k.2 α.2 β.2 h'
  simp only [Prod.mk.injEq]
  exact ⟨Fin.ext h1, Fin.ext h2, Fin.ext h3⟩

/-- No two unknowns share a position and no position is unused. -/
theorem bijective (m n : ℕ) : Function.Bijective (number m n) := by
  rw [Fintype.bijective_iff_injective_and_card]
  refine ⟨number_injective m n, ?_⟩
  simp only [Fintype.card_prod, Fintype.card_fin]
  ring

/-- The inverse, by division. -/
theorem of_position {m n p : ℕ} (h : p < 3 * m * n) :
    p / 3 % m < m ∧ p / 3 / m < n ∧ p % 3 < 3 ∧ pos m (p / 3 % m) (p / 3 / m) (p % 3) = p := by
  have hm : 0 < m := by
    rcases Nat.eq_zero_or_pos m with rfl | hm
    · simp at h
    · exact hm
  refine ⟨Nat.mod_lt _ hm, ?_, by omega, ?_⟩
  · rw [Nat.div_lt_iff_lt_mul hm, mul_comm n m]
    rw [mul_assoc] at h
    omega
  · unfold pos
    have := Nat.div_add_mod (p / 3) m
    rw [mul_comm] at this
    rw [this]
    omega

variable {K : Type} [Field K] [DecidableEq K]

/-- `get_size` is the number of unknowns. -/
theorem size (s : Shell K) {n : ℕ} (h : s.getSize = .ok n) :
    n = Fintype.card (Fin s.pan.m × Fin s.pan.n × Fin 3) := by
  unfold Shell.getSize at h
  split at h
  · cases h
  · cases h
    simp only [Fintype.card_prod, Fintype.card_fin]
    ring

/-- A matrix placed on the diagonal stores an entry on the diagonal for every unknown. -/
theorem stored (row0 m n : ℕ) (pat : List (ℕ × ℕ)) (hp : ∀ α < 3, (α, α) ∈ pat)
    (val : ℕ → ℕ → ℕ → ℕ → ℕ → ℕ → K) {p : ℕ} (h : p < 3 * m * n) :
    ∃ t ∈ symBuild row0 row0 m n pat val, t.row = row0 + p ∧ t.col = row0 + p := by
  obtain ⟨hi, hj, hα, he⟩ := of_position h
  unfold pos at he
  refine ⟨⟨row0 + dof m (p / 3 % m) (p / 3 / m) + p % 3, row0 + dof m (p / 3 % m) (p / 3 / m) + p % 3,
    val (p / 3 % m) (p / 3 % m) (p / 3 / m) (p / 3 / m) (p % 3) (p % 3)⟩, ?_, ?_, ?_⟩
  · simp only [symBuild, List.mem_flatMap, List.mem_range]
    refine ⟨_, hi, _, hi, _, hj, _, hj, ?_⟩
    unfold symBlock
    rw [if_neg (lt_irrefl _)]
    exact List.mem_map.2 ⟨_, hp _ hα, rfl⟩
  · simp only [dof]; omega
  · simp only [dof]; omega

theorem mem_pad {L : Coo K} {t : Trip K} (f : ℕ) (h : t ∈ L) : t ∈ Coo.pad f L :=
  List.mem_append_left _ h

/-- Every unknown has a row in the stiffness matrix of either model. -/
theorem stiffness_rows (E : Env K) (k : Kind) (P : Panel K) (F : ℕ → ℕ → K) (row0 : ℕ) {p : ℕ}
    (h : p < 3 * P.m * P.n) :
    ∃ t ∈ fk0 E k P F row0 row0, t.row = row0 + p ∧ t.col = row0 + p := by
  cases k
  · obtain ⟨t, ht, h'⟩ := stored row0 P.m P.n Gen.PlateAna.fk0_pat (by decide)
      (Gen.PlateAna.fk0 E.I P (Lam.ofABD F)) h
    exact ⟨t, mem_pad _ ht, h'⟩
  · obtain ⟨t, ht, h'⟩ := stored row0 P.m P.n Gen.CylAna.fk0_pat (by decide)
      (Gen.CylAna.fk0 E.I P (Lam.ofABD F)) h
    exact ⟨t, mem_pad _ ht, h'⟩

/-- The displacement field reads the same numbering: the unit state of the unknown `(i, j, α)` gives
the term `(i, j)` in the component `α` and nothing in the others. -/
theorem unit_state (S : Shape K) (P : Panel K) {i j α : ℕ} (hi : i < P.m) (hj : j < P.n) (hα : α < 3)
    (x y : K) :
    let o := uvwAt S P (fun k => if k = pos P.m i j α then 1 else 0) x y
    let term := S.f i (2 * x / P.a - 1) (P.xf α) * S.f j (2 * y / P.b - 1) (P.yf α)
    o.u = (if α = 0 then term else 0) ∧ o.v = (if α = 1 then term else 0) ∧
      o.w = (if α = 2 then term else 0) := by
  have key : ∀ β < 3, ∀ ξ η : K, Spec.disp S P 0 (fun k => if k = pos P.m i j α then 1 else 0) β 0 0 ξ η
      = if α = β then S.f i ξ (P.xf α) * S.f j η (P.yf α) else 0 := by
    intro β hβ ξ η
    unfold Spec.disp
    have : ∀ i' ∈ Finset.range P.m, ∀ j' ∈ Finset.range P.n,
        (0 + 3 * (j' * P.m + i') + β = pos P.m i j α) ↔ (i' = i ∧ j' = j ∧ α = β) := by
      intro i' hi' j' _
      rw [Finset.mem_range] at hi'
      constructor
      · intro h
        rw [zero_add] at h
        obtain ⟨⟨h1, h2⟩, h3⟩ := dof_add_inj hi' hi hβ hα h
        exact ⟨h1, h2, h3.symm⟩
      · rintro ⟨rfl, rfl, rfl⟩
        rw [zero_add]; rfl
    rw [Finset.sum_congr rfl fun i' hi' => Finset.sum_congr rfl fun j' hj' =>
      congrArg (· * _) (if_congr (this i' hi' j' hj') rfl rfl)]
    by_cases h : α = β
    · subst h
      rw [Finset.sum_eq_single_of_mem i (Finset.mem_range.2 hi),
        Finset.sum_eq_single_of_mem j (Finset.mem_range.2 hj)]
      · simp [Shape.D]
      · intro b _ hb
        simp [hb]
      · intro b _ hb
        simp [hb]
    · simp [h]
  simp only [uvwAt_field, rowField]
  refine ⟨?_, ?_, ?_⟩ <;> rw [key _ (by omega)] <;> split <;> simp_all

example : number 5 7 (2, 3, 1) = 52 := by decide

example : ∃ p, number 5 7 p = 104 := (bijective 5 7).2 _

end Verif.C37
