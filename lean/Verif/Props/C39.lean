import Verif.Model.Multi
import Verif.Props.C54

/-!
# C39: blocks of the panels of an assembly

Holds when no panel object is listed twice; otherwise the claim is violated (`repeated`), as it is for
an assembly one of whose panels is later given to another assembly (`shared`): the offsets are
attributes of the panel.
-/

set_option linter.unusedSectionVars false

namespace Verif.C39

open Model

variable {K : Type} [Field K] [LinearOrder K]

/-- Number of unknowns of a panel. -/
def dofs (s : Shell K) : ℕ := 3 * s.pan.m * s.pan.n

theorem foldl_not_mem (shells : ℕ → Shell K) (l : List ℕ) (st : ℕ × ℕ × (ℕ → Option Place)) {p : ℕ}
    (hp : p ∉ l) : (l.foldl (placeStep shells) st).2.2 p = st.2.2 p := by
  induction l generalizing st with
  | nil => rfl
  | cons a l ih =>
    rw [List.foldl_cons, ih _ (fun h => hp (List.mem_cons_of_mem _ h))]
    have : p ≠ a := fun h => hp (by rw [h]; exact List.mem_cons_self)
    exact if_neg this

theorem foldl_place (shells : ℕ → Shell K) (l : List ℕ) (hn : l.Nodup) (a : ℕ)
    (f : ℕ → Option Place) (k : ℕ) (hk : k < l.length) :
    (l.foldl (placeStep shells) (a, a, f)).2.2 l[k]
      = some ⟨a + ((l.take k).map fun p => dofs (shells p)).sum,
          a + ((l.take k).map fun p => dofs (shells p)).sum,
          a + ((l.take (k + 1)).map fun p => dofs (shells p)).sum,
          a + ((l.take (k + 1)).map fun p => dofs (shells p)).sum⟩ := by
  induction l generalizing a f k with
  | nil => simp at hk
  | cons x l ih =>
    rw [List.foldl_cons]
    obtain ⟨hx, hl⟩ := List.nodup_cons.1 hn
    cases k with
    | zero =>
      rw [List.getElem_cons_zero, foldl_not_mem shells l _ hx]
      simp [placeStep, dofs]
    | succ k =>
      simp only [List.getElem_cons_succ]
      have := ih hl (a + dofs (shells x)) (placeStep shells (a, a, f) x).2.2 k (by simpa using hk)
      rw [show placeStep shells (a, a, f) x
        = (a + dofs (shells x), a + dofs (shells x), (placeStep shells (a, a, f) x).2.2) from rfl, this]
      simp [List.take_succ_cons, add_assoc]

/-- The assembly just built. -/
abbrev built (shells : ℕ → Shell K) (place : ℕ → Option Place) (panels : List ℕ)
    (conn : Option (List (ConnD K))) : Multi K := Multi.init shells place panels conn

/-- The panels are stacked in the order of the list: each block starts where the one before ends. -/
theorem blocks_partial (shells : ℕ → Shell K) (place : ℕ → Option Place) (panels : List ℕ)
    (conn : Option (List (ConnD K))) (hn : panels.Nodup) (k : ℕ) (hk : k < panels.length) :
    let s := fun j => ((panels.take j).map fun p => 3 * (shells p).pan.m * (shells p).pan.n).sum
    (built shells place panels conn).place panels[k] = some ⟨s k, s k, s (k + 1), s (k + 1)⟩ := by
  have := foldl_place shells panels hn 0 place k hk
  simp only [zero_add] at this
  exact this

/-- Consecutive blocks meet, the first starts at zero and the last ends at the size. -/
theorem contiguous_partial (shells : ℕ → Shell K) (place : ℕ → Option Place) (panels : List ℕ)
    (conn : Option (List (ConnD K))) (hn : panels.Nodup) :
    let M := built shells place panels conn
    (∀ h : 0 < panels.length, ∃ q, M.place panels[0] = some q ∧ q.col0 = 0) ∧
    (∀ k (h : k + 1 < panels.length), ∃ q q', M.place panels[k] = some q ∧
      M.place panels[k + 1] = some q' ∧ q.col1 = q'.col0) ∧
    (∀ h : 0 < panels.length, ∃ q, M.place panels[panels.length - 1] = some q ∧
      q.col1 = M.getSize) := by
  refine ⟨fun h => ⟨_, blocks_partial shells place panels conn hn 0 h, by simp⟩, fun k h => ⟨_, _,
    blocks_partial shells place panels conn hn k (by omega),
    blocks_partial shells place panels conn hn (k + 1) h, rfl⟩, fun h => ⟨_,
    blocks_partial shells place panels conn hn _ (by omega), ?_⟩⟩
  simp only [Nat.sub_add_cancel h, List.take_length, Multi.getSize, Multi.init]

theorem take_sum_le (f : ℕ → ℕ) (l : List ℕ) {i j : ℕ} (h : i ≤ j) :
    ((l.take i).map f).sum ≤ ((l.take j).map f).sum := by
  obtain ⟨d, rfl⟩ := Nat.exists_eq_add_of_le h
  rw [List.take_add, List.map_append, List.sum_append]
  omega

theorem exists_block (f : ℕ → ℕ) (l : List ℕ) {d : ℕ} (h : d < (l.map f).sum) :
    ∃ k, ∃ _ : k < l.length, ((l.take k).map f).sum ≤ d ∧ d < ((l.take (k + 1)).map f).sum := by
  induction l generalizing d with
  | nil => simp at h
  | cons a l ih =>
    by_cases hd : d < f a
    · exact ⟨0, by simp, by simp, by simpa using hd⟩
    · rw [List.map_cons, List.sum_cons] at h
      obtain ⟨k, hk, h1, h2⟩ := ih (d := d - f a) (by omega)
      refine ⟨k + 1, by simpa using hk, ?_, ?_⟩
      · rw [List.take_succ_cons, List.map_cons, List.sum_cons]; omega
      · rw [List.take_succ_cons, List.map_cons, List.sum_cons]; omega

/-- Every position below the size lies in the block of exactly one panel, and no block reaches beyond
the size; rows and columns agree. -/
theorem partition_partial (shells : ℕ → Shell K) (place : ℕ → Option Place) (panels : List ℕ)
    (conn : Option (List (ConnD K))) (hn : panels.Nodup) :
    let M := built shells place panels conn
    let owns := fun p d => p ∈ panels ∧ ∃ q, M.place p = some q ∧ q.col0 ≤ d ∧ d < q.col1
    (∀ d, d < M.getSize → ∃ p, owns p d) ∧ (∀ d p, owns p d → d < M.getSize) ∧
    (∀ d p p', owns p d → owns p' d → p = p') ∧
    (∀ p ∈ panels, ∃ q, M.place p = some q ∧ q.row0 = q.col0 ∧ q.row1 = q.col1 ∧
      q.col1 = q.col0 + 3 * (shells p).pan.m * (shells p).pan.n) := by
  have hb := blocks_partial shells place panels conn hn
  refine ⟨?_, ?_, ?_, ?_⟩
  · intro d hd
    obtain ⟨k, hk, h1, h2⟩ := exists_block _ panels hd
    exact ⟨panels[k], List.getElem_mem hk, _, hb k hk, h1, h2⟩
  · rintro d p ⟨hp, q, hq, h1, h2⟩
    obtain ⟨k, hk, rfl⟩ := List.getElem_of_mem hp
    rw [hb k hk] at hq
    cases hq
    refine lt_of_lt_of_le h2 ?_
    have := take_sum_le (fun p => 3 * (shells p).pan.m * (shells p).pan.n) panels
      (show k + 1 ≤ panels.length from hk)
    rw [List.take_length] at this
    exact this
  · rintro d p p' ⟨hp, q, hq, h1, h2⟩ ⟨hp', q', hq', h1', h2'⟩
    obtain ⟨k, hk, rfl⟩ := List.getElem_of_mem hp
    obtain ⟨k', hk', rfl⟩ := List.getElem_of_mem hp'
    rw [hb k hk] at hq
    rw [hb k' hk'] at hq'
    cases hq
    cases hq'
    simp only at h1 h2 h1' h2'
    rcases lt_trichotomy k k' with h | h | h
    · have := take_sum_le (fun p => 3 * (shells p).pan.m * (shells p).pan.n) panels
        (show k + 1 ≤ k' from h)
      omega
    · subst h; rfl
    · have := take_sum_le (fun p => 3 * (shells p).pan.m * (shells p).pan.n) panels
        (show k' + 1 ≤ k from h)
      omega
  · intro p hp
    obtain ⟨k, hk, rfl⟩ := List.getElem_of_mem hp
    refine ⟨_, hb k hk, rfl, rfl, ?_⟩
    simp only
    rw [List.take_succ_eq_append_getElem hk, List.map_append, List.sum_append]
    simp

/-- Panels outside the list keep their attributes. -/
theorem others_kept (shells : ℕ → Shell K) (place : ℕ → Option Place) (panels : List ℕ)
    (conn : Option (List (ConnD K))) {p : ℕ} (hp : p ∉ panels) :
    (built shells place panels conn).place p = place p :=
  foldl_not_mem shells panels _ hp

/-- A panel of 35 terms. -/
def one : ℕ → Shell ℚ := fun _ => C54.shell

/-- The claim is violated for a list that names one object twice: positions 0 to 104 belong to no
block. -/
theorem repeated : (built one (fun _ => none) [0, 0] none).getSize = 210 ∧
    (built one (fun _ => none) [0, 0] none).place 0 = some ⟨105, 105, 210, 210⟩ := by
  constructor <;> decide

/-- Two assemblies that share a panel: after the second is made, the blocks of the first overlap. -/
theorem shared :
    let M1 := built one (fun _ => none) [0, 1] none
    let M2 := built one M1.place [1] none
    M1.place 1 = some ⟨105, 105, 210, 210⟩ ∧ M2.place 0 = M2.place 1 := by
  constructor <;> decide

example : (built one (fun _ => none) [4, 0, 7] none).place 7 = some ⟨210, 210, 315, 315⟩ ∧
    [4, 0, 7].Nodup := by
  constructor <;> decide

end Verif.C39
