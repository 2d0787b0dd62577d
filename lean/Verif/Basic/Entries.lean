import Verif.Basic.Assembly

/-!
# Entries of the assembled matrices
-/

namespace Verif

open Finset

variable {K : Type*} [Field K]

namespace Coo

theorem entry_finalizeSym (L : Coo K) (r c : ℕ) :
    entry (finalizeSym L) r c = if r ≤ c then entry L r c else entry L c r := by
  have key : ∀ r c, r ≤ c → entry (finalizeSym L) r c = entry L r c := by
    intro r c hrc
    induction L with
    | nil => simp [finalizeSym]
    | cons t L ih =>
      simp only [finalizeSym, entry_append] at ih ⊢
      rw [entry_cons, ← ih]
      rcases lt_trichotomy t.row t.col with h | h | h
      · have h1 : t.row ≤ t.col := h.le
        simp only [List.filter_cons, h1, h, decide_true, if_true, entry_cons, List.map_cons]
        have e : ¬ (t.col = r ∧ t.row = c) := by omega
        rw [if_neg e]; ring
      · have h1 : t.row ≤ t.col := h.le
        have h2 : ¬ t.row < t.col := by omega
        simp only [List.filter_cons, h1, h2, decide_true, decide_false, if_true, entry_cons,
          if_false, Bool.false_eq_true]
        ring
      · have h1 : ¬ t.row ≤ t.col := by omega
        have h2 : ¬ t.row < t.col := by omega
        simp only [List.filter_cons, h1, h2, decide_false, if_false, Bool.false_eq_true]
        have e : ¬ (t.row = r ∧ t.col = c) := by omega
        rw [if_neg e]; ring
  split
  · exact key r c ‹_›
  · rw [entry_finalizeSym_comm]; exact key c r (by omega)

theorem entry_pad (fdim : ℕ) (L : Coo K) (r c : ℕ) : entry (pad fdim L) r c = entry L r c := by
  simp [pad, entry]

end Coo

theorem entry_symBuild_sum (row0 col0 m n : ℕ) (pat : List (ℕ × ℕ))
    (val : ℕ → ℕ → ℕ → ℕ → ℕ → ℕ → K) (r c : ℕ) :
    Coo.entry (symBuild row0 col0 m n pat val) r c
      = ∑ i ∈ range m, ∑ k ∈ range m, ∑ j ∈ range n, ∑ l ∈ range n,
          Coo.entry (symBlock row0 col0 m pat val i k j l) r c := by
  simp only [symBuild, Coo.entry, sum_map_flatMap, list_sum_range]

theorem entry_symBuildJL (row0 col0 m n : ℕ) (pat : List (ℕ × ℕ))
    (val : ℕ → ℕ → ℕ → ℕ → ℕ → ℕ → K) (r c : ℕ) :
    Coo.entry (symBuildJL row0 col0 m n pat val) r c
      = Coo.entry (symBuild row0 col0 m n pat val) r c := by
  rw [entry_symBuild_sum]
  simp only [symBuildJL, Coo.entry, sum_map_flatMap, list_sum_range]
  exact sum4_prod' m n (fun i k j l =>
    ((symBlock row0 col0 m pat val i k j l).map fun t : Trip K =>
      if t.row = r ∧ t.col = c then t.val else 0).sum)

theorem entry_symBlock (row0 col0 m : ℕ) (pat : List (ℕ × ℕ))
    (val : ℕ → ℕ → ℕ → ℕ → ℕ → ℕ → K) (i k j l r c : ℕ) :
    Coo.entry (symBlock row0 col0 m pat val i k j l) r c
      = if row0 + dof m i j > col0 + dof m k l then 0 else
        (pat.map fun ab => if row0 + dof m i j + ab.1 = r ∧ col0 + dof m k l + ab.2 = c
          then val i k j l ab.1 ab.2 else 0).sum := by
  unfold symBlock
  split
  · simp
  · simp only [Coo.entry, List.map_map]; rfl

/-- Linearity of the assembled matrix in the entry values. -/
theorem entry_symBuild_lin (row0 col0 m n : ℕ) (pat : List (ℕ × ℕ)) (s t : K)
    (v v' w : ℕ → ℕ → ℕ → ℕ → ℕ → ℕ → K)
    (h : ∀ i k j l a b, w i k j l a b = s * v i k j l a b + t * v' i k j l a b) (r c : ℕ) :
    Coo.entry (symBuild row0 col0 m n pat w) r c
      = s * Coo.entry (symBuild row0 col0 m n pat v) r c
        + t * Coo.entry (symBuild row0 col0 m n pat v') r c := by
  simp only [entry_symBuild_sum, Finset.mul_sum, ← Finset.sum_add_distrib]
  refine Finset.sum_congr rfl fun i _ => Finset.sum_congr rfl fun k _ =>
    Finset.sum_congr rfl fun j _ => Finset.sum_congr rfl fun l _ => ?_
  simp only [entry_symBlock]
  split
  · ring
  · rw [← List.sum_map_mul_left, ← List.sum_map_mul_left, ← List.sum_map_add]
    congr 1
    refine List.map_congr_left fun ab _ => ?_
    split
    · exact h ..
    · ring

theorem sum_pat_single (pat : List (ℕ × ℕ)) (hn : pat.Nodup) (e : ℕ → ℕ → K) (α β : ℕ)
    (hz : (α, β) ∉ pat → e α β = 0) :
    (pat.map fun ab => if ab.1 = α ∧ ab.2 = β then e ab.1 ab.2 else 0).sum = e α β := by
  induction pat with
  | nil => simpa using (hz (by simp)).symm
  | cons p pat ih =>
    obtain ⟨a, b⟩ := p
    rw [List.nodup_cons] at hn
    simp only [List.map_cons, List.sum_cons]
    by_cases h : a = α ∧ b = β
    · obtain ⟨rfl, rfl⟩ := h
      have : (pat.map fun ab => if ab.1 = a ∧ ab.2 = b then e ab.1 ab.2 else 0).sum = 0 := by
        apply List.sum_eq_zero
        intro x hx
        obtain ⟨q, hq, rfl⟩ := List.mem_map.1 hx
        have : ¬ (q.1 = a ∧ q.2 = b) := by
          rintro ⟨h1, h2⟩
          apply hn.1
          have : q = (a, b) := Prod.ext h1 h2
          rw [← this]; exact hq
        rw [if_neg this]
      simp [this]
    · rw [if_neg h, zero_add]
      refine ih hn.2 fun hm => hz ?_
      intro hm'
      rcases List.mem_cons.1 hm' with h' | h'
      · exact h ⟨(congrArg Prod.fst h').symm, (congrArg Prod.snd h').symm⟩
      · exact hm h'

/-- The entry of a symmetric loop nest before finalisation. -/
theorem entry_symBuild (row0 col0 m n : ℕ) (pat : List (ℕ × ℕ)) (hn : pat.Nodup)
    (hp : ∀ ab ∈ pat, ab.1 < 3 ∧ ab.2 < 3)
    (val : ℕ → ℕ → ℕ → ℕ → ℕ → ℕ → K)
    (hz : ∀ i k j l a b, (a, b) ∉ pat → val i k j l a b = 0)
    {i k j l α β : ℕ} (hi : i < m) (hk : k < m) (hj : j < n) (hl : l < n) (hα : α < 3)
    (hβ : β < 3) :
    Coo.entry (symBuild row0 col0 m n pat val) (row0 + dof m i j + α) (col0 + dof m k l + β)
      = if row0 + dof m i j > col0 + dof m k l then 0 else val i k j l α β := by
  rw [entry_symBuild_sum]
  have hne : ∀ i' k' j' l', i' < m → k' < m → ¬ (i' = i ∧ j' = j ∧ k' = k ∧ l' = l) →
      Coo.entry (symBlock row0 col0 m pat val i' k' j' l')
        (row0 + dof m i j + α) (col0 + dof m k l + β) = 0 := by
    intro i' k' j' l' hi' hk' h
    rw [entry_symBlock]
    split
    · rfl
    · apply List.sum_eq_zero
      intro x hx
      obtain ⟨q, hq, rfl⟩ := List.mem_map.1 hx
      obtain ⟨h1, h2⟩ := hp q hq
      rw [if_neg]
      rintro ⟨e1, e2⟩
      obtain ⟨x1, hx1⟩ := dof_dvd m i j
      obtain ⟨x2, hx2⟩ := dof_dvd m i' j'
      obtain ⟨x3, hx3⟩ := dof_dvd m k l
      obtain ⟨x4, hx4⟩ := dof_dvd m k' l'
      have d1 : dof m i' j' = dof m i j := by omega
      have d2 : dof m k' l' = dof m k l := by omega
      obtain ⟨a1, a2⟩ := dof_inj hi' hi d1
      obtain ⟨a3, a4⟩ := dof_inj hk' hk d2
      exact h ⟨a1, a2, a3, a4⟩
  rw [Finset.sum_eq_single i, Finset.sum_eq_single k, Finset.sum_eq_single j,
    Finset.sum_eq_single l]
  · rw [entry_symBlock]
    split
    · rfl
    · have := sum_pat_single pat hn (val i k j l) α β (hz i k j l α β)
      rw [← this]
      congr 1
      refine List.map_congr_left fun ab _ => ?_
      have e : (row0 + dof m i j + ab.1 = row0 + dof m i j + α ∧
        col0 + dof m k l + ab.2 = col0 + dof m k l + β) ↔ (ab.1 = α ∧ ab.2 = β) := by omega
      simp only [e]
  · intro l' _ h; exact hne i k j l' hi hk (by tauto)
  · intro h; exact absurd (mem_range.2 hl) h
  · intro j' _ h
    exact Finset.sum_eq_zero fun l' _ => hne i k j' l' hi hk (by tauto)
  · intro h; exact absurd (mem_range.2 hj) h
  · intro k' hk' h
    exact Finset.sum_eq_zero fun j' _ => Finset.sum_eq_zero fun l' _ =>
      hne i k' j' l' hi (mem_range.1 hk') (by tauto)
  · intro h; exact absurd (mem_range.2 hk) h
  · intro i' hi' h
    exact Finset.sum_eq_zero fun k' hk' => Finset.sum_eq_zero fun j' _ =>
      Finset.sum_eq_zero fun l' _ => hne i' k' j' l' (mem_range.1 hi') (mem_range.1 hk') (by tauto)
  · intro h; exact absurd (mem_range.2 hi) h

/-- Every entry of the finalised matrix is the value the loop body computes for that pair of
degrees of freedom, whichever triangle it lies in. -/
theorem entry_finalize_symBuild (s m n : ℕ) (pat : List (ℕ × ℕ)) (hn : pat.Nodup)
    (hp : ∀ ab ∈ pat, ab.1 < 3 ∧ ab.2 < 3)
    (val : ℕ → ℕ → ℕ → ℕ → ℕ → ℕ → K)
    (hz : ∀ i k j l a b, (a, b) ∉ pat → val i k j l a b = 0)
    (hs : ∀ i k j l a b, a < 3 → b < 3 → val i k j l a b = val k i l j b a)
    {i k j l α β : ℕ} (hi : i < m) (hk : k < m) (hj : j < n) (hl : l < n) (hα : α < 3)
    (hβ : β < 3) :
    Coo.entry (Coo.finalizeSym (symBuild s s m n pat val))
      (s + dof m i j + α) (s + dof m k l + β) = val i k j l α β := by
  obtain ⟨x1, hx1⟩ := dof_dvd m i j
  obtain ⟨x2, hx2⟩ := dof_dvd m k l
  rw [Coo.entry_finalizeSym]
  split
  · rw [entry_symBuild s s m n pat hn hp val hz hi hk hj hl hα hβ, if_neg (by omega)]
  · rw [entry_symBuild s s m n pat hn hp val hz hk hi hl hj hβ hα, if_neg (by omega),
      hs _ _ _ _ _ _ hα hβ]

end Verif
