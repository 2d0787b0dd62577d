import Verif.Spec.Nest
import Verif.Basic.Entries
import Verif.Basic.Accum
import Verif.Proofs.Structure
import Verif.Model.Num

/-!
# Loop nests with more terms
-/

namespace Verif

open Spec Finset

variable {K : Type*} [Field K]

theorem number_dof (m s i j α : ℕ) : number m s i j α = s + dof m i j + α := rfl

theorem number_le {m m' : ℕ} (hm : m ≤ m') (s s' : ℕ) {i j α k l β : ℕ} (hi : i < m) (hk : k < m)
    (hα : α < 3) (hβ : β < 3) :
    number m s i j α ≤ number m s k l β ↔ number m' s' i j α ≤ number m' s' k l β := by
  unfold number
  have key : ∀ M, m ≤ M → (j * M + i < l * M + k ↔ j < l ∨ j = l ∧ i < k) := by
    intro M hM
    rcases lt_trichotomy j l with h | h | h
    · have h1 : (j + 1) * M ≤ l * M := Nat.mul_le_mul_right _ h
      rw [Nat.succ_mul] at h1
      omega
    · subst h; omega
    · have h1 : (l + 1) * M ≤ j * M := Nat.mul_le_mul_right _ h
      rw [Nat.succ_mul] at h1
      omega
  have keyE : ∀ M, m ≤ M → (j * M + i = l * M + k ↔ j = l ∧ i = k) := by
    intro M hM
    rcases lt_trichotomy j l with h | h | h
    · have h1 : (j + 1) * M ≤ l * M := Nat.mul_le_mul_right _ h
      rw [Nat.succ_mul] at h1
      omega
    · subst h; omega
    · have h1 : (l + 1) * M ≤ j * M := Nat.mul_le_mul_right _ h
      rw [Nat.succ_mul] at h1
      omega
  have a1 := key m le_rfl
  have a2 := key m' hm
  have b1 := keyE m le_rfl
  have b2 := keyE m' hm
  omega

theorem number_lt {m n i j α s : ℕ} (hi : i < m) (hj : j < n) (hα : α < 3) :
    number m s i j α < s + 3 * (m * n) := by
  unfold number
  have : j * m + m ≤ m * n := by
    rw [mul_comm m n, ← Nat.succ_mul]; exact Nat.mul_le_mul_right _ hj
  omega

/-- Every number of a block belongs to a term. -/
theorem exists_number {m n s k : ℕ} (hk : k ∈ numbers m n s) :
    ∃ i < m, ∃ j < n, ∃ α < 3, k = number m s i j α := by
  obtain ⟨h1, h2⟩ := Finset.mem_Ico.1 hk
  have hm : 0 < m := by
    rcases Nat.eq_zero_or_pos m with rfl | h
    · simp at h2; omega
    · exact h
  refine ⟨(k - s) / 3 % m, Nat.mod_lt _ hm, (k - s) / 3 / m, ?_, (k - s) % 3, Nat.mod_lt _ (by omega), ?_⟩
  · rw [Nat.div_lt_iff_lt_mul hm, mul_comm]
    omega
  · unfold number
    rw [Nat.div_add_mod' ((k - s) / 3) m]
    omega

theorem number_inj {m s i j α i' j' α' : ℕ} (hi : i < m) (hi' : i' < m) (hα : α < 3) (hα' : α' < 3)
    (h : number m s i j α = number m s i' j' α') : i = i' ∧ j = j' ∧ α = α' := by
  have e : dof m i j = dof m i' j' := by
    obtain ⟨x, hx⟩ := dof_dvd m i j
    obtain ⟨y, hy⟩ := dof_dvd m i' j'
    rw [number_dof, number_dof] at h
    omega
  obtain ⟨h1, h2⟩ := dof_inj hi hi' e
  rw [number_dof, number_dof] at h
  exact ⟨h1, h2, by omega⟩

/-- The values outside the pattern are not written. -/
theorem symBuild_masked (r c m n : ℕ) (pat : List (ℕ × ℕ)) (v : ℕ → ℕ → ℕ → ℕ → ℕ → ℕ → K) :
    symBuild r c m n pat v
      = symBuild r c m n pat fun i k j l a b => if (a, b) ∈ pat then v i k j l a b else 0 := by
  unfold symBuild symBlock
  congr 1; funext i; congr 1; funext k; congr 1; funext j; congr 1; funext l
  split
  · rfl
  · exact List.map_congr_left fun ab h => by simp [h]

theorem Spec.Nested.pad {m n s m' s' : ℕ} {A B : Coo K} (h : Nested m n s m' s' A B) (f g : ℕ) :
    Nested m n s m' s' (Coo.pad f A) (Coo.pad g B) := by
  intro i hi j hj α hα k hk l hl β hβ
  rw [Coo.entry_pad, Coo.entry_pad]
  exact h i hi j hj α hα k hk l hl β hβ

theorem Spec.Nested.append {m n s m' s' : ℕ} {A B A' B' : Coo K} (h : Nested m n s m' s' A B)
    (h' : Nested m n s m' s' A' B') : Nested m n s m' s' (A ++ A') (B ++ B') := by
  intro i hi j hj α hα k hk l hl β hβ
  rw [Coo.entry_append, Coo.entry_append, h i hi j hj α hα k hk l hl β hβ,
    h' i hi j hj α hα k hk l hl β hβ]

theorem Spec.Nested.finalize {m n s m' s' : ℕ} (hm : m ≤ m') {A B : Coo K} (h : Nested m n s m' s' A B) :
    Nested m n s m' s' (Coo.finalizeSym A) (Coo.finalizeSym B) := by
  intro i hi j hj α hα k hk l hl β hβ
  rw [Coo.entry_finalizeSym, Coo.entry_finalizeSym]
  simp only [number_le hm s s' hi hk hα hβ]
  split
  · exact h i hi j hj α hα k hk l hl β hβ
  · exact h k hk l hl β hβ i hi j hj α hα

/-- The loop nest with more terms writes the same values for the terms of the smaller one. -/
theorem symBuild_nested {m n m' n' : ℕ} (hm : m ≤ m') (hn : n ≤ n') (s s' : ℕ) {pat : List (ℕ × ℕ)}
    (hN : pat.Nodup) (h3 : ∀ ab ∈ pat, ab.1 < 3 ∧ ab.2 < 3) {v v' : ℕ → ℕ → ℕ → ℕ → ℕ → ℕ → K}
    (hv : ∀ i k j l a b, v i k j l a b = v' i k j l a b) :
    Nested m n s m' s' (symBuild s s m n pat v) (symBuild s' s' m' n' pat v') := by
  intro i hi j hj α hα k hk l hl β hβ
  rw [symBuild_masked, symBuild_masked s' s', number_dof, number_dof, number_dof, number_dof,
    entry_symBuild s s m n pat hN h3 _ (fun _ _ _ _ _ _ h => if_neg h) hi hk hj hl hα hβ,
    entry_symBuild s' s' m' n' pat hN h3 _ (fun _ _ _ _ _ _ h => if_neg h) (hi.trans_le hm)
      (hk.trans_le hm) (hj.trans_le hn) (hl.trans_le hn) hα hβ]
  simp only [hv]
  have e : (s + dof m i j > s + dof m k l) ↔ (s' + dof m' i j > s' + dof m' k l) := by
    have := number_le hm s s' (j := j) (l := l) hi hk (show 0 < 3 by norm_num)
      (show 0 < 3 by norm_num)
    simp only [number_dof, add_zero] at this
    omega
  simp only [e]

theorem accum_nested {γ : Type*} (pts : List γ) {m n m' n' : ℕ} (hm : m ≤ m') (hn : n ≤ n')
    (s s' : ℕ) {pat : List (ℕ × ℕ)} (hN : pat.Nodup) (h3 : ∀ ab ∈ pat, ab.1 < 3 ∧ ab.2 < 3)
    {v v' : γ → ℕ → ℕ → ℕ → ℕ → ℕ → ℕ → K} (hv : ∀ x i k j l a b, v x i k j l a b = v' x i k j l a b) :
    Nested m n s m' s' (accum pts fun x => symBuild s s m n pat (v x))
      (accum pts fun x => symBuild s' s' m' n' pat (v' x)) := by
  intro i hi j hj α hα k hk l hl β hβ
  rw [entry_accum, entry_accum]
  exact symBuild_nested hm hn s s' hN h3 (fun _ _ _ _ _ _ => by simp only [hv]) i hi j hj α hα k hk
    l hl β hβ

theorem accumJL_nested {γ : Type*} (pts : List γ) {m n m' n' : ℕ} (hm : m ≤ m') (hn : n ≤ n')
    (s s' : ℕ) {pat : List (ℕ × ℕ)} (hN : pat.Nodup) (h3 : ∀ ab ∈ pat, ab.1 < 3 ∧ ab.2 < 3)
    {v v' : γ → ℕ → ℕ → ℕ → ℕ → ℕ → ℕ → K} (hv : ∀ x i k j l a b, v x i k j l a b = v' x i k j l a b) :
    Nested m n s m' s' (accum pts fun x => symBuildJL s s m n pat (v x))
      (accum pts fun x => symBuildJL s' s' m' n' pat (v' x)) := by
  intro i hi j hj α hα k hk l hl β hβ
  rw [entry_accumJL, entry_accumJL]
  exact symBuild_nested hm hn s s' hN h3 (fun _ _ _ _ _ _ => by simp only [hv]) i hi j hj α hα k hk
    l hl β hβ

/-- Sums over the terms with amplitudes that are zero for the additional terms. -/
theorem Spec.Extends.sum {m n s m' n' s' : ℕ} (hm : m ≤ m') (hn : n ≤ n') {c c' : ℕ → K}
    (h : Extends m n s m' n' s' c c') {e : K → K → K → ℕ → ℕ → K} (h0 : ∀ i j, e 0 0 0 i j = 0) :
    ∑ j ∈ range n', ∑ i ∈ range m', e (c' (s' + dof m' i j + 0)) (c' (s' + dof m' i j + 1))
        (c' (s' + dof m' i j + 2)) i j
      = ∑ j ∈ range n, ∑ i ∈ range m, e (c (s + dof m i j + 0)) (c (s + dof m i j + 1))
        (c (s + dof m i j + 2)) i j := by
  have hz : ∀ i < m', ∀ j < n', ¬ (i < m ∧ j < n) →
      e (c' (s' + dof m' i j + 0)) (c' (s' + dof m' i j + 1)) (c' (s' + dof m' i j + 2)) i j = 0 := by
    intro i hi j hj hij
    have z := fun α hα => h.2 i hi j hj α hα hij
    simp only [number_dof] at z
    rw [z 0 (by norm_num), z 1 (by norm_num), z 2 (by norm_num), h0]
  rw [← Finset.sum_subset (Finset.range_subset_range.2 hn)]
  · refine Finset.sum_congr rfl fun j hj => ?_
    rw [← Finset.sum_subset (Finset.range_subset_range.2 hm)]
    · refine Finset.sum_congr rfl fun i hi => ?_
      have z := fun α hα => h.1 i (mem_range.1 hi) j (mem_range.1 hj) α hα
      simp only [number_dof] at z
      rw [z 0 (by norm_num), z 1 (by norm_num), z 2 (by norm_num)]
    · intro i hi hi'
      exact hz i (mem_range.1 hi) j ((mem_range.1 hj).trans_le hn) fun hh => hi' (mem_range.2 hh.1)
  · intro j hj hj'
    exact Finset.sum_eq_zero fun i hi =>
      hz i (mem_range.1 hi) j (mem_range.1 hj) fun hh => hj' (mem_range.2 hh.2)

/-- Reading a number. -/
theorem number_decode {m : ℕ} (s : ℕ) {i j α : ℕ} (hi : i < m) (hα : α < 3) :
    (number m s i j α - s) / 3 % m = i ∧ (number m s i j α - s) / 3 / m = j ∧
      (number m s i j α - s) % 3 = α := by
  have e1 : number m s i j α - s = 3 * (j * m + i) + α := by unfold number; omega
  have e2 : (number m s i j α - s) / 3 = j * m + i := by rw [e1]; omega
  have e3 : (number m s i j α - s) % 3 = α := by rw [e1]; omega
  rw [e2]
  refine ⟨?_, ?_, e3⟩
  · rw [Nat.add_comm, Nat.add_mul_mod_self_right, Nat.mod_eq_of_lt hi]
  · rw [Nat.add_comm, Nat.add_mul_div_right _ _ (by omega), Nat.div_eq_of_lt hi, zero_add]

/-- Amplitudes of a panel, and zero for the additional terms. -/
def extend (m n s m' s' : ℕ) (c : ℕ → K) (k : ℕ) : K :=
  if s' ≤ k ∧ (k - s') / 3 % m' < m ∧ (k - s') / 3 / m' < n then
    c (number m s ((k - s') / 3 % m') ((k - s') / 3 / m') ((k - s') % 3)) else 0

theorem extend_number {m n s m' s' : ℕ} (c : ℕ → K) {i j α : ℕ} (hi : i < m') (hα : α < 3) :
    extend m n s m' s' c (number m' s' i j α)
      = if i < m ∧ j < n then c (number m s i j α) else 0 := by
  obtain ⟨d1, d2, d3⟩ := number_decode s' (j := j) hi hα
  have e6 : s' ≤ number m' s' i j α := by unfold number; omega
  simp only [extend, d1, d2, d3, e6, true_and]

theorem extends_extend {m n m' n' : ℕ} (hm : m ≤ m') (s s' : ℕ) (c : ℕ → K) :
    Extends m n s m' n' s' c (extend m n s m' s' c) := by
  refine ⟨fun i hi j hj α hα => ?_, fun i hi j _ α hα hij => ?_⟩
  · rw [extend_number c (hi.trans_le hm) hα, if_pos ⟨hi, hj⟩]
  · rw [extend_number c hi hα, if_neg hij]

/-- Sum over the numbers of a block. -/
theorem sum_numbers (m n s : ℕ) (g : ℕ → K) :
    ∑ k ∈ numbers m n s, g k = ∑ j ∈ range n, ∑ i ∈ range m, ∑ α ∈ range 3, g (number m s i j α) := by
  rw [← Finset.sum_product', ← Finset.sum_product', eq_comm]
  refine Finset.sum_bij' (fun p _ => number m s p.1.2 p.1.1 p.2)
    (fun k _ => (((k - s) / 3 / m, (k - s) / 3 % m), (k - s) % 3)) ?_ ?_ ?_ ?_ ?_
  · rintro ⟨⟨j, i⟩, α⟩ h
    simp only [mem_product, mem_range] at h
    exact Finset.mem_Ico.2 ⟨by unfold number; omega, number_lt h.1.2 h.1.1 h.2⟩
  · intro k hk
    obtain ⟨i, hi, j, hj, α, hα, rfl⟩ := exists_number hk
    obtain ⟨d1, d2, d3⟩ := number_decode s (j := j) hi hα
    simp only [d1, d2, d3, mem_product, mem_range]
    exact ⟨⟨hj, hi⟩, hα⟩
  · rintro ⟨⟨j, i⟩, α⟩ h
    simp only [mem_product, mem_range] at h
    obtain ⟨d1, d2, d3⟩ := number_decode s (j := j) h.1.2 h.2
    simp only [d1, d2, d3]
  · intro k hk
    obtain ⟨i, hi, j, hj, α, hα, rfl⟩ := exists_number hk
    obtain ⟨d1, d2, d3⟩ := number_decode s (j := j) hi hα
    simp only [d1, d2, d3]
  · intros; rfl

open Model in
/-- A vector written term by term. -/
theorem vget_nested {γ : Type*} (pts : List γ) {m n m' n' : ℕ} (hm : m ≤ m') (hn : n ≤ n') (s s' : ℕ)
    {a b c a' b' c' : γ → ℕ → ℕ → K} (ha : ∀ x i j, a x i j = a' x i j)
    (hb : ∀ x i j, b x i j = b' x i j) (hc : ∀ x i j, c x i j = c' x i j) {i j α : ℕ} (hi : i < m)
    (hj : j < n) (hα : α < 3) :
    vget (pts.flatMap fun x => (List.range n).flatMap fun j => (List.range m).flatMap fun i =>
        [(s + dof m i j + 0, a x i j), (s + dof m i j + 1, b x i j), (s + dof m i j + 2, c x i j)])
      (number m s i j α)
    = vget (pts.flatMap fun x => (List.range n').flatMap fun j => (List.range m').flatMap fun i =>
        [(s' + dof m' i j + 0, a' x i j), (s' + dof m' i j + 1, b' x i j),
          (s' + dof m' i j + 2, c' x i j)]) (number m' s' i j α) := by
  have key : ∀ (M N t : ℕ) (p q r : γ → ℕ → ℕ → K), i < M → j < N →
      vget (pts.flatMap fun x => (List.range N).flatMap fun j => (List.range M).flatMap fun i =>
        [(t + dof M i j + 0, p x i j), (t + dof M i j + 1, q x i j), (t + dof M i j + 2, r x i j)])
        (number M t i j α)
      = (pts.map fun x => if α = 0 then p x i j else if α = 1 then q x i j else r x i j).sum := by
    intro M N t p q r hM hN
    simp only [vget, sum_map_flatMap, list_sum_range]
    congr 1
    refine List.map_congr_left fun x _ => ?_
    have h0 : ∀ j' i', i' < M → ¬ (i' = i ∧ j' = j) → (([(t + dof M i' j' + 0, p x i' j'),
        (t + dof M i' j' + 1, q x i' j'), (t + dof M i' j' + 2, r x i' j')] : VecW K).map fun w =>
          if w.1 = number M t i j α then w.2 else 0).sum = 0 := by
      intro j' i' hi' hne
      have no : ∀ β < 3, ¬ t + dof M i' j' + β = number M t i j α := fun β hβ h => by
        obtain ⟨h1, h2, -⟩ := number_inj (s := t) hi' hM hβ hα h
        exact hne ⟨h1, h2⟩
      have n0 := no 0 (by norm_num)
      rw [add_zero] at n0
      simp only [List.map_cons, List.map_nil, List.sum_cons, List.sum_nil, n0, no 1 (by norm_num),
        no 2 (by norm_num), if_false, add_zero]
    rw [Finset.sum_eq_single j, Finset.sum_eq_single i]
    · have e : ∀ β, (t + dof M i j + β = number M t i j α) ↔ β = α := fun β => by
        rw [number_dof]; omega
      simp only [List.map_cons, List.map_nil, List.sum_cons, List.sum_nil, e]
      match α, hα with
      | 0, _ => simp
      | 1, _ => simp
      | 2, _ => simp
    · exact fun i' hi' hne => h0 j i' (mem_range.1 hi') fun h => hne h.1
    · exact fun h => absurd (mem_range.2 hM) h
    · exact fun j' _ hne => Finset.sum_eq_zero fun i' hi' =>
        h0 j' i' (mem_range.1 hi') fun h => hne h.2
    · exact fun h => absurd (mem_range.2 hN) h
  rw [key m n s a b c hi hj, key m' n' s' a' b' c' (hi.trans_le hm) (hj.trans_le hn)]
  simp only [ha, hb, hc]

end Verif
