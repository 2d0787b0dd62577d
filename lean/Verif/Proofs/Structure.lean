import Verif.Basic.Cross

/-!
# Lengths, positions and translations of the loop nests
-/

set_option linter.unusedSectionVars false

namespace Verif

open Finset

variable {K : Type*} [Field K]

/-- The triplet lies in rows `[row0, row0+nr)` and columns `[col0, col0+nc)`. -/
def InBlock (row0 nr col0 nc : ℕ) (t : Trip K) : Prop :=
  row0 ≤ t.row ∧ t.row < row0 + nr ∧ col0 ≤ t.col ∧ t.col < col0 + nc

theorem length_flatMap_le {α β : Type*} (l : List α) (g : α → List β) (c : ℕ)
    (h : ∀ a ∈ l, (g a).length ≤ c) : (l.flatMap g).length ≤ l.length * c := by
  induction l with
  | nil => simp
  | cons a l ih =>
    have h1 := h a (by simp)
    have h2 := ih fun b hb => h b (by simp [hb])
    simp only [List.flatMap_cons, List.length_append, List.length_cons, Nat.add_mul, Nat.one_mul]
    omega

theorem length_flatMap_range_le {β : Type*} (n : ℕ) (g : ℕ → List β) (c : ℕ)
    (h : ∀ a, (g a).length ≤ c) : ((List.range n).flatMap g).length ≤ n * c := by
  simpa using length_flatMap_le (List.range n) g c fun a _ => h a

theorem length_symBlock_le (r c m : ℕ) (pat : List (ℕ × ℕ)) (v : ℕ → ℕ → ℕ → ℕ → ℕ → ℕ → K)
    (i k j l : ℕ) : (symBlock r c m pat v i k j l).length ≤ pat.length := by
  unfold symBlock
  split <;> simp

theorem length_symBuild_le (r c m n : ℕ) (pat : List (ℕ × ℕ)) (v : ℕ → ℕ → ℕ → ℕ → ℕ → ℕ → K) :
    (symBuild r c m n pat v).length ≤ m * (m * (n * (n * pat.length))) :=
  length_flatMap_range_le _ _ _ fun i => length_flatMap_range_le _ _ _ fun k =>
    length_flatMap_range_le _ _ _ fun j => length_flatMap_range_le _ _ _ fun l =>
      length_symBlock_le r c m pat v i k j l

theorem length_symBuildJL_le (r c m n : ℕ) (pat : List (ℕ × ℕ)) (v : ℕ → ℕ → ℕ → ℕ → ℕ → ℕ → K) :
    (symBuildJL r c m n pat v).length ≤ n * (n * (m * (m * pat.length))) :=
  length_flatMap_range_le _ _ _ fun j => length_flatMap_range_le _ _ _ fun l =>
    length_flatMap_range_le _ _ _ fun i => length_flatMap_range_le _ _ _ fun k =>
      length_symBlock_le r c m pat v i k j l

theorem length_crossBuild_le (r c m1 n1 m2 n2 : ℕ) (pat : List (ℕ × ℕ))
    (v : ℕ → ℕ → ℕ → ℕ → ℕ → ℕ → K) :
    (crossBuild r c m1 n1 m2 n2 pat v).length ≤ m1 * (m2 * (n1 * (n2 * pat.length))) :=
  length_flatMap_range_le _ _ _ fun i => length_flatMap_range_le _ _ _ fun k =>
    length_flatMap_range_le _ _ _ fun j => length_flatMap_range_le _ _ _ fun l => by simp

theorem length_crossBuildJL_le (r c m1 n1 m2 n2 : ℕ) (pat : List (ℕ × ℕ))
    (v : ℕ → ℕ → ℕ → ℕ → ℕ → ℕ → K) :
    (crossBuildJL r c m1 n1 m2 n2 pat v).length ≤ n1 * (n2 * (m1 * (m2 * pat.length))) :=
  length_flatMap_range_le _ _ _ fun j => length_flatMap_range_le _ _ _ fun l =>
    length_flatMap_range_le _ _ _ fun i => length_flatMap_range_le _ _ _ fun k => by simp

theorem length_symBlockW_le (r c m : ℕ) (ws : List ((ℕ × ℕ) × (ℕ → ℕ → ℕ → ℕ → K)))
    (i k j l : ℕ) : (symBlockW r c m ws i k j l).length ≤ ws.length := by
  unfold symBlockW
  split <;> simp

theorem length_symBuildW_le (r c m n : ℕ) (ws : List ((ℕ × ℕ) × (ℕ → ℕ → ℕ → ℕ → K))) :
    (symBuildW r c m n ws).length ≤ m * (m * (n * (n * ws.length))) :=
  length_flatMap_range_le _ _ _ fun i => length_flatMap_range_le _ _ _ fun k =>
    length_flatMap_range_le _ _ _ fun j => length_flatMap_range_le _ _ _ fun l =>
      length_symBlockW_le r c m ws i k j l

theorem length_symBuildWJL_le (r c m n : ℕ) (ws : List ((ℕ × ℕ) × (ℕ → ℕ → ℕ → ℕ → K))) :
    (symBuildWJL r c m n ws).length ≤ n * (n * (m * (m * ws.length))) :=
  length_flatMap_range_le _ _ _ fun j => length_flatMap_range_le _ _ _ fun l =>
    length_flatMap_range_le _ _ _ fun i => length_flatMap_range_le _ _ _ fun k =>
      length_symBlockW_le r c m ws i k j l

theorem length_addVals_le (a b : Coo K) : (addVals a b).length ≤ a.length := by
  simp [addVals]

theorem length_accum_le {α : Type*} (pts : List α) (body : α → Coo K) (N : ℕ)
    (h : ∀ p, (body p).length ≤ N) : (accum pts body).length ≤ N := by
  match pts with
  | [] => simp [accum]
  | p :: ps =>
    have key : ∀ (ps : List α) (buf : Coo K), buf.length ≤ N →
        (ps.foldl (fun buf q => addVals buf (body q)) buf).length ≤ N := by
      intro ps
      induction ps with
      | nil => intro buf hb; exact hb
      | cons q qs ih => intro buf hb; exact ih _ ((length_addVals_le _ _).trans hb)
    exact key ps _ (h p)

/-- The buffer has exactly the allocated length: no write went beyond it. -/
theorem Coo.length_pad {f : ℕ} {L : Coo K} (h : L.length ≤ f) : (Coo.pad f L).length = f := by
  simp [Coo.pad]; omega

theorem Coo.length_pad_iff {f : ℕ} {L : Coo K} : (Coo.pad f L).length = f ↔ L.length ≤ f := by
  simp [Coo.pad]; omega

/-! ## Positions -/

theorem mem_symBlock {r c m : ℕ} {pat : List (ℕ × ℕ)} {v : ℕ → ℕ → ℕ → ℕ → ℕ → ℕ → K}
    {i k j l : ℕ} {t : Trip K} (ht : t ∈ symBlock r c m pat v i k j l) :
    ∃ ab ∈ pat, t = ⟨r + dof m i j + ab.1, c + dof m k l + ab.2, v i k j l ab.1 ab.2⟩ := by
  unfold symBlock at ht
  split at ht
  · simp at ht
  · simp only [List.mem_map] at ht
    obtain ⟨ab, h1, h2⟩ := ht
    exact ⟨ab, h1, h2.symm⟩

theorem inBlock_dof {r c m1 n1 m2 n2 i k j l : ℕ} (hi : i < m1) (hk : k < m2) (hj : j < n1)
    (hl : l < n2) {a b : ℕ} (ha : a < 3) (hb : b < 3) (x : K) :
    InBlock r (3 * (m1 * n1)) c (3 * (m2 * n2))
      ⟨r + dof m1 i j + a, c + dof m2 k l + b, x⟩ := by
  have h1 := dof_lt hi hj
  have h2 := dof_lt hk hl
  refine ⟨?_, ?_, ?_, ?_⟩ <;> simp <;> omega

/-- All offsets of the pattern are below 3. -/
def Pat3 (pat : List (ℕ × ℕ)) : Prop := ∀ ab ∈ pat, ab.1 < 3 ∧ ab.2 < 3

theorem symBuild_inside {r c m n : ℕ} {pat : List (ℕ × ℕ)} (hp : Pat3 pat)
    (v : ℕ → ℕ → ℕ → ℕ → ℕ → ℕ → K) :
    ∀ t ∈ symBuild r c m n pat v, InBlock r (3 * (m * n)) c (3 * (m * n)) t := by
  intro t ht
  simp only [symBuild, List.mem_flatMap, List.mem_range] at ht
  obtain ⟨i, hi, k, hk, j, hj, l, hl, ht⟩ := ht
  obtain ⟨ab, hab, rfl⟩ := mem_symBlock ht
  exact inBlock_dof hi hk hj hl (hp ab hab).1 (hp ab hab).2 _

theorem symBuildJL_inside {r c m n : ℕ} {pat : List (ℕ × ℕ)} (hp : Pat3 pat)
    (v : ℕ → ℕ → ℕ → ℕ → ℕ → ℕ → K) :
    ∀ t ∈ symBuildJL r c m n pat v, InBlock r (3 * (m * n)) c (3 * (m * n)) t := by
  intro t ht
  simp only [symBuildJL, List.mem_flatMap, List.mem_range] at ht
  obtain ⟨j, hj, l, hl, i, hi, k, hk, ht⟩ := ht
  obtain ⟨ab, hab, rfl⟩ := mem_symBlock ht
  exact inBlock_dof hi hk hj hl (hp ab hab).1 (hp ab hab).2 _

theorem crossBuild_inside {r c m1 n1 m2 n2 : ℕ} {pat : List (ℕ × ℕ)} (hp : Pat3 pat)
    (v : ℕ → ℕ → ℕ → ℕ → ℕ → ℕ → K) :
    ∀ t ∈ crossBuild r c m1 n1 m2 n2 pat v,
      InBlock r (3 * (m1 * n1)) c (3 * (m2 * n2)) t := by
  intro t ht
  simp only [crossBuild, List.mem_flatMap, List.mem_range, List.mem_map] at ht
  obtain ⟨i, hi, k, hk, j, hj, l, hl, ab, hab, rfl⟩ := ht
  exact inBlock_dof hi hk hj hl (hp ab hab).1 (hp ab hab).2 _

theorem crossBuildJL_inside {r c m1 n1 m2 n2 : ℕ} {pat : List (ℕ × ℕ)} (hp : Pat3 pat)
    (v : ℕ → ℕ → ℕ → ℕ → ℕ → ℕ → K) :
    ∀ t ∈ crossBuildJL r c m1 n1 m2 n2 pat v,
      InBlock r (3 * (m1 * n1)) c (3 * (m2 * n2)) t := by
  intro t ht
  simp only [crossBuildJL, List.mem_flatMap, List.mem_range, List.mem_map] at ht
  obtain ⟨j, hj, l, hl, i, hi, k, hk, ab, hab, rfl⟩ := ht
  exact inBlock_dof hi hk hj hl (hp ab hab).1 (hp ab hab).2 _

theorem mem_symBlockW {r c m : ℕ} {ws : List ((ℕ × ℕ) × (ℕ → ℕ → ℕ → ℕ → K))}
    {i k j l : ℕ} {t : Trip K} (ht : t ∈ symBlockW r c m ws i k j l) :
    ∃ w ∈ ws, t = ⟨r + dof m i j + w.1.1, c + dof m k l + w.1.2, w.2 i k j l⟩ := by
  unfold symBlockW at ht
  split at ht
  · simp at ht
  · simp only [List.mem_map] at ht
    obtain ⟨ab, h1, h2⟩ := ht
    exact ⟨ab, h1, h2.symm⟩

theorem symBuildW_inside {r c m n : ℕ} {ws : List ((ℕ × ℕ) × (ℕ → ℕ → ℕ → ℕ → K))}
    (hp : ∀ w ∈ ws, w.1.1 < 3 ∧ w.1.2 < 3) :
    ∀ t ∈ symBuildW r c m n ws, InBlock r (3 * (m * n)) c (3 * (m * n)) t := by
  intro t ht
  simp only [symBuildW, List.mem_flatMap, List.mem_range] at ht
  obtain ⟨i, hi, k, hk, j, hj, l, hl, ht⟩ := ht
  obtain ⟨ab, hab, rfl⟩ := mem_symBlockW ht
  exact inBlock_dof hi hk hj hl (hp ab hab).1 (hp ab hab).2 _

theorem symBuildWJL_inside {r c m n : ℕ} {ws : List ((ℕ × ℕ) × (ℕ → ℕ → ℕ → ℕ → K))}
    (hp : ∀ w ∈ ws, w.1.1 < 3 ∧ w.1.2 < 3) :
    ∀ t ∈ symBuildWJL r c m n ws, InBlock r (3 * (m * n)) c (3 * (m * n)) t := by
  intro t ht
  simp only [symBuildWJL, List.mem_flatMap, List.mem_range] at ht
  obtain ⟨j, hj, l, hl, i, hi, k, hk, ht⟩ := ht
  obtain ⟨ab, hab, rfl⟩ := mem_symBlockW ht
  exact inBlock_dof hi hk hj hl (hp ab hab).1 (hp ab hab).2 _

theorem addVals_inside {r nr c nc : ℕ} {a b : Coo K} (h : ∀ t ∈ a, InBlock r nr c nc t) :
    ∀ t ∈ addVals a b, InBlock r nr c nc t := by
  intro t ht
  unfold addVals at ht
  induction a generalizing b with
  | nil => simp at ht
  | cons x a ih =>
    cases b with
    | nil => simp at ht
    | cons y b =>
      simp only [List.zipWith_cons_cons, List.mem_cons] at ht
      rcases ht with rfl | ht
      · exact h x (by simp)
      · exact ih (fun t ht => h t (by simp [ht])) ht

theorem accum_inside {α : Type*} {pts : List α} {body : α → Coo K} {r nr c nc : ℕ}
    (h : ∀ p, ∀ t ∈ body p, InBlock r nr c nc t) : ∀ t ∈ accum pts body, InBlock r nr c nc t := by
  match pts with
  | [] => simp [accum]
  | p :: ps =>
    have key : ∀ (ps : List α) (buf : Coo K), (∀ t ∈ buf, InBlock r nr c nc t) →
        ∀ t ∈ ps.foldl (fun buf q => addVals buf (body q)) buf, InBlock r nr c nc t := by
      intro ps
      induction ps with
      | nil => intro buf hb; exact hb
      | cons q qs ih => intro buf hb; exact ih _ (addVals_inside hb)
    exact key ps _ (h p)

/-- The builder filled a buffer of `fdim` positions without overrun, and wrote only inside the
block (positions that it did not reach keep the initial zeros). -/
structure Fits (L : Coo K) (fdim row0 nr col0 nc : ℕ) : Prop where
  alloc : L.length = fdim
  inside : ∀ t ∈ L, t = ⟨0, 0, 0⟩ ∨ InBlock row0 nr col0 nc t

theorem Fits.pad {L : Coo K} {f row0 nr col0 nc : ℕ} (hl : L.length ≤ f)
    (hi : ∀ t ∈ L, InBlock row0 nr col0 nc t) : Fits (Coo.pad f L) f row0 nr col0 nc where
  alloc := Coo.length_pad hl
  inside t ht := by
    simp only [Coo.pad, List.mem_append, List.mem_replicate] at ht
    rcases ht with ht | ⟨-, rfl⟩
    · exact .inr (hi t ht)
    · exact .inl rfl

/-- A block that fits the matrix gives only indices of the matrix. -/
theorem Fits.inMatrix {L : Coo K} {f row0 nr col0 nc size : ℕ} (h : Fits L f row0 nr col0 nc)
    (hr : row0 + nr ≤ size) (hc : col0 + nc ≤ size) (h0 : 0 < f → 0 < nr) :
    ∀ t ∈ L, t.row < size ∧ t.col < size := by
  intro t ht
  rcases h.inside t ht with rfl | h'
  · have : 0 < L.length := List.length_pos_of_mem ht
    have := h0 (by rw [← h.alloc]; exact this)
    constructor <;> simp <;> omega
  · exact ⟨by have := h'.2.1; omega, by have := h'.2.2.2; omega⟩

/-- Entries outside the block are zero. -/
theorem Fits.entry_outside {L : Coo K} {f row0 nr col0 nc : ℕ} (h : Fits L f row0 nr col0 nc)
    {p q : ℕ} (hpq : ¬ (row0 ≤ p ∧ p < row0 + nr ∧ col0 ≤ q ∧ q < col0 + nc)) :
    Coo.entry L p q = 0 := by
  unfold Coo.entry
  apply List.sum_eq_zero
  intro x hx
  simp only [List.mem_map] at hx
  obtain ⟨t, ht, rfl⟩ := hx
  split_ifs with h1
  · rcases h.inside t ht with rfl | h'
    · rfl
    · exfalso; apply hpq; rw [← h1.1, ← h1.2]; exact h'
  · rfl

/-! ## Translation -/

/-- All triplets moved by `s` rows and columns. -/
def Coo.shift (s : ℕ) (L : Coo K) : Coo K := L.map fun t => ⟨s + t.row, s + t.col, t.val⟩

theorem Coo.shift_flatMap {α : Type*} (s : ℕ) (l : List α) (g : α → Coo K) :
    Coo.shift s (l.flatMap g) = l.flatMap fun a => Coo.shift s (g a) := by
  simp [Coo.shift, List.map_flatMap]

theorem Coo.length_shift (s : ℕ) (L : Coo K) : (Coo.shift s L).length = L.length := by
  simp [Coo.shift]

theorem symBlock_shift (s m : ℕ) (pat : List (ℕ × ℕ)) (v : ℕ → ℕ → ℕ → ℕ → ℕ → ℕ → K)
    (i k j l : ℕ) :
    symBlock s s m pat v i k j l = Coo.shift s (symBlock 0 0 m pat v i k j l) := by
  unfold symBlock
  by_cases h : dof m i j > dof m k l
  · rw [if_pos (by omega), if_pos (by omega)]; rfl
  · rw [if_neg (by omega), if_neg (by omega)]
    simp [Coo.shift, Nat.add_assoc]

theorem symBuild_shift (s m n : ℕ) (pat : List (ℕ × ℕ)) (v : ℕ → ℕ → ℕ → ℕ → ℕ → ℕ → K) :
    symBuild s s m n pat v = Coo.shift s (symBuild 0 0 m n pat v) := by
  unfold symBuild
  simp only [Coo.shift_flatMap, ← symBlock_shift]

theorem symBuildJL_shift (s m n : ℕ) (pat : List (ℕ × ℕ)) (v : ℕ → ℕ → ℕ → ℕ → ℕ → ℕ → K) :
    symBuildJL s s m n pat v = Coo.shift s (symBuildJL 0 0 m n pat v) := by
  unfold symBuildJL
  simp only [Coo.shift_flatMap, ← symBlock_shift]

theorem symBlockW_shift (s m : ℕ) (ws : List ((ℕ × ℕ) × (ℕ → ℕ → ℕ → ℕ → K))) (i k j l : ℕ) :
    symBlockW s s m ws i k j l = Coo.shift s (symBlockW 0 0 m ws i k j l) := by
  unfold symBlockW
  by_cases h : dof m i j > dof m k l
  · rw [if_pos (by omega), if_pos (by omega)]; rfl
  · rw [if_neg (by omega), if_neg (by omega)]
    simp [Coo.shift, Nat.add_assoc]

theorem symBuildW_shift (s m n : ℕ) (ws : List ((ℕ × ℕ) × (ℕ → ℕ → ℕ → ℕ → K))) :
    symBuildW s s m n ws = Coo.shift s (symBuildW 0 0 m n ws) := by
  unfold symBuildW
  simp only [Coo.shift_flatMap, ← symBlockW_shift]

theorem symBuildWJL_shift (s m n : ℕ) (ws : List ((ℕ × ℕ) × (ℕ → ℕ → ℕ → ℕ → K))) :
    symBuildWJL s s m n ws = Coo.shift s (symBuildWJL 0 0 m n ws) := by
  unfold symBuildWJL
  simp only [Coo.shift_flatMap, ← symBlockW_shift]

theorem addVals_shift (s : ℕ) (a b : Coo K) :
    addVals (Coo.shift s a) (Coo.shift s b) = Coo.shift s (addVals a b) := by
  unfold addVals Coo.shift
  rw [List.map_zipWith, List.zipWith_map]

theorem accum_shift {α : Type*} (s : ℕ) (pts : List α) (body : α → Coo K) :
    accum pts (fun p => Coo.shift s (body p)) = Coo.shift s (accum pts body) := by
  match pts with
  | [] => rfl
  | p :: ps =>
    have key : ∀ (ps : List α) (buf : Coo K),
        ps.foldl (fun buf q => addVals buf (Coo.shift s (body q))) (Coo.shift s buf)
          = Coo.shift s (ps.foldl (fun buf q => addVals buf (body q)) buf) := by
      intro ps
      induction ps with
      | nil => intro buf; rfl
      | cons q qs ih => intro buf; rw [List.foldl_cons, addVals_shift, ih]; rfl
    exact key ps _

/-- `B` is `A` with the written triplets moved by `s`; positions never written stay zero. -/
def Translated (s : ℕ) (A B : Coo K) : Prop :=
  ∃ f core, A = Coo.pad f core ∧ B = Coo.pad f (Coo.shift s core)

theorem entry_shift (s : ℕ) (L : Coo K) (r c : ℕ) :
    Coo.entry (Coo.shift s L) (s + r) (s + c) = Coo.entry L r c := by
  simp [Coo.entry, Coo.shift, Function.comp_def]

theorem entry_shift_lt (s : ℕ) (L : Coo K) (r c : ℕ) (h : r < s ∨ c < s) :
    Coo.entry (Coo.shift s L) r c = 0 := by
  unfold Coo.entry Coo.shift
  apply List.sum_eq_zero
  intro x hx
  simp only [List.map_map, List.mem_map, Function.comp] at hx
  obtain ⟨t, -, rfl⟩ := hx
  rw [if_neg (by omega)]

end Verif
