import Verif.Basic.Entries

/-!
# Buffers that are accumulated over integration points

The numerical builders keep one buffer of triplets; row and column numbers are written while
the first integration point is processed and the values are accumulated (`kCv[c] += …`) at every
point, e.g. `panels/models/plate_clpt_donnell_bardell_num.pyx` lines 133-281.
-/

namespace Verif

open Finset

variable {K : Type*} [Field K]

/-- `kCv[c] += v` for all positions of the buffer. -/
def addVals (buf new : Coo K) : Coo K :=
  List.zipWith (fun t s => ⟨t.row, t.col, t.val + s.val⟩) buf new

/-- Loop over the integration points: the first one writes rows, columns and values, the others
add values. -/
def accum {α : Type*} (pts : List α) (body : α → Coo K) : Coo K :=
  match pts with
  | [] => []
  | p :: ps => ps.foldl (fun buf q => addVals buf (body q)) (body p)

/-- `for ptx in range(nx): for pty in range(ny):`. -/
def grid (nx ny : ℕ) : List (ℕ × ℕ) :=
  (List.range nx).flatMap fun ptx => (List.range ny).map fun pty => (ptx, pty)

theorem sum_grid {M : Type*} [AddCommMonoid M] (nx ny : ℕ) (f : ℕ × ℕ → M) :
    ((grid nx ny).map f).sum = ∑ p ∈ range nx, ∑ q ∈ range ny, f (p, q) := by
  simp only [grid, sum_map_flatMap, List.map_map, list_sum_range]
  rfl

theorem zipWith_flatMap {α β γ δ : Type*} (f : β → γ → δ) (l : List α) (g : α → List β)
    (h : α → List γ) (hlen : ∀ a ∈ l, (g a).length = (h a).length) :
    List.zipWith f (l.flatMap g) (l.flatMap h) = l.flatMap fun a => List.zipWith f (g a) (h a) := by
  induction l with
  | nil => rfl
  | cons a l ih =>
    rw [List.flatMap_cons, List.flatMap_cons, List.flatMap_cons,
      List.zipWith_append (hlen a (List.mem_cons_self ..)),
      ih fun b hb => hlen b (List.mem_cons_of_mem _ hb)]

theorem addVals_symBlock (r c m : ℕ) (pat : List (ℕ × ℕ)) (v w : ℕ → ℕ → ℕ → ℕ → ℕ → ℕ → K)
    (i k j l : ℕ) :
    addVals (symBlock r c m pat v i k j l) (symBlock r c m pat w i k j l)
      = symBlock r c m pat (fun i k j l a b => v i k j l a b + w i k j l a b) i k j l := by
  unfold symBlock addVals
  split
  · rfl
  · rw [List.zipWith_map]
    induction pat with
    | nil => rfl
    | cons p pat ih => simp only [List.zipWith_cons_cons, List.map_cons, ih]

theorem length_flatMap_congr {α β γ : Type*} (l : List α) (g : α → List β) (h : α → List γ)
    (e : ∀ a ∈ l, (g a).length = (h a).length) : (l.flatMap g).length = (l.flatMap h).length := by
  rw [List.length_flatMap, List.length_flatMap, List.map_congr_left e]

omit [Field K] in
theorem length_symBlock (r c m : ℕ) (pat : List (ℕ × ℕ)) (v w : ℕ → ℕ → ℕ → ℕ → ℕ → ℕ → K)
    (i k j l : ℕ) :
    (symBlock r c m pat v i k j l).length = (symBlock r c m pat w i k j l).length := by
  unfold symBlock; split <;> simp

theorem addVals_symBuild (r c m n : ℕ) (pat : List (ℕ × ℕ)) (v w : ℕ → ℕ → ℕ → ℕ → ℕ → ℕ → K) :
    addVals (symBuild r c m n pat v) (symBuild r c m n pat w)
      = symBuild r c m n pat (fun i k j l a b => v i k j l a b + w i k j l a b) := by
  unfold symBuild addVals
  rw [zipWith_flatMap]
  · refine List.flatMap_congr fun i _ => ?_
    rw [zipWith_flatMap]
    · refine List.flatMap_congr fun k _ => ?_
      rw [zipWith_flatMap]
      · refine List.flatMap_congr fun j _ => ?_
        rw [zipWith_flatMap]
        · refine List.flatMap_congr fun l _ => ?_
          exact addVals_symBlock r c m pat v w i k j l
        · intro l _; exact length_symBlock ..
      · intro j _; exact length_flatMap_congr _ _ _ fun l _ => length_symBlock ..
    · intro k _
      exact length_flatMap_congr _ _ _ fun j _ =>
        length_flatMap_congr _ _ _ fun l _ => length_symBlock ..
  · intro i _
    exact length_flatMap_congr _ _ _ fun k _ => length_flatMap_congr _ _ _ fun j _ =>
        length_flatMap_congr _ _ _ fun l _ => length_symBlock ..

theorem addVals_symBuildJL (r c m n : ℕ) (pat : List (ℕ × ℕ))
    (v w : ℕ → ℕ → ℕ → ℕ → ℕ → ℕ → K) :
    addVals (symBuildJL r c m n pat v) (symBuildJL r c m n pat w)
      = symBuildJL r c m n pat (fun i k j l a b => v i k j l a b + w i k j l a b) := by
  unfold symBuildJL addVals
  rw [zipWith_flatMap]
  · refine List.flatMap_congr fun j _ => ?_
    rw [zipWith_flatMap]
    · refine List.flatMap_congr fun l _ => ?_
      rw [zipWith_flatMap]
      · refine List.flatMap_congr fun i _ => ?_
        rw [zipWith_flatMap]
        · refine List.flatMap_congr fun k _ => ?_
          exact addVals_symBlock r c m pat v w i k j l
        · intro k _; exact length_symBlock ..
      · intro i _; exact length_flatMap_congr _ _ _ fun k _ => length_symBlock ..
    · intro l _
      exact length_flatMap_congr _ _ _ fun j _ =>
        length_flatMap_congr _ _ _ fun l _ => length_symBlock ..
  · intro j _
    exact length_flatMap_congr _ _ _ fun k _ => length_flatMap_congr _ _ _ fun j _ =>
        length_flatMap_congr _ _ _ fun l _ => length_symBlock ..

/-- Accumulating over a non-empty list of points is the loop nest with summed values. -/
theorem accum_symBuild {α : Type*} (pts : List α) (hne : pts ≠ []) (r c m n : ℕ)
    (pat : List (ℕ × ℕ)) (v : α → ℕ → ℕ → ℕ → ℕ → ℕ → ℕ → K) :
    accum pts (fun p => symBuild r c m n pat (v p))
      = symBuild r c m n pat fun i k j l a b => (pts.map fun p => v p i k j l a b).sum := by
  obtain ⟨p, ps, rfl⟩ := List.exists_cons_of_ne_nil hne
  simp only [accum, List.map_cons, List.sum_cons]
  generalize hw : v p = w
  clear hw hne
  induction ps generalizing w with
  | nil => simp
  | cons q ps ih =>
    rw [List.foldl_cons, addVals_symBuild, ih]
    simp only [List.map_cons, List.sum_cons, add_assoc]

theorem accum_symBuildJL {α : Type*} (pts : List α) (hne : pts ≠ []) (r c m n : ℕ)
    (pat : List (ℕ × ℕ)) (v : α → ℕ → ℕ → ℕ → ℕ → ℕ → ℕ → K) :
    accum pts (fun p => symBuildJL r c m n pat (v p))
      = symBuildJL r c m n pat fun i k j l a b => (pts.map fun p => v p i k j l a b).sum := by
  obtain ⟨p, ps, rfl⟩ := List.exists_cons_of_ne_nil hne
  simp only [accum, List.map_cons, List.sum_cons]
  generalize hw : v p = w
  clear hw hne
  induction ps generalizing w with
  | nil => simp
  | cons q ps ih =>
    rw [List.foldl_cons, addVals_symBuildJL, ih]
    simp only [List.map_cons, List.sum_cons, add_assoc]

theorem entry_symBuild_zero (r c m n : ℕ) (pat : List (ℕ × ℕ)) (p q : ℕ) :
    Coo.entry (symBuild r c m n pat (fun _ _ _ _ _ _ => (0 : K))) p q = 0 := by
  rw [entry_symBuild_sum]
  refine Finset.sum_eq_zero fun i _ => Finset.sum_eq_zero fun k _ =>
    Finset.sum_eq_zero fun j _ => Finset.sum_eq_zero fun l _ => ?_
  rw [entry_symBlock]
  split
  · rfl
  · simp

/-- Entries of an accumulated buffer (also when there is no integration point). -/
theorem entry_accum {α : Type*} (pts : List α) (r c m n : ℕ)
    (pat : List (ℕ × ℕ)) (v : α → ℕ → ℕ → ℕ → ℕ → ℕ → ℕ → K) (p q : ℕ) :
    Coo.entry (accum pts (fun x => symBuild r c m n pat (v x))) p q
      = Coo.entry (symBuild r c m n pat fun i k j l a b =>
          (pts.map fun x => v x i k j l a b).sum) p q := by
  by_cases h : pts = []
  · subst h
    simp only [List.map_nil, List.sum_nil, entry_symBuild_zero]
    rfl
  · rw [accum_symBuild pts h]

theorem entry_accumJL {α : Type*} (pts : List α) (r c m n : ℕ)
    (pat : List (ℕ × ℕ)) (v : α → ℕ → ℕ → ℕ → ℕ → ℕ → ℕ → K) (p q : ℕ) :
    Coo.entry (accum pts (fun x => symBuildJL r c m n pat (v x))) p q
      = Coo.entry (symBuild r c m n pat fun i k j l a b =>
          (pts.map fun x => v x i k j l a b).sum) p q := by
  by_cases h : pts = []
  · subst h
    simp only [List.map_nil, List.sum_nil, entry_symBuild_zero]
    rfl
  · rw [accum_symBuildJL pts h, entry_symBuildJL]

theorem symW_zero_sum (s m n : ℕ) (pat : List (ℕ × ℕ)) (v : ℕ → K) :
    ((symBuild s s m n pat (fun _ _ _ _ _ _ => (0 : K))).map (Coo.symW v)).sum = 0 := by
  apply List.sum_eq_zero
  intro x hx
  obtain ⟨t, ht, rfl⟩ := List.mem_map.1 hx
  have h0 : t.val = 0 := by
    simp only [symBuild, List.mem_flatMap] at ht
    obtain ⟨i, _, k, _, j, _, l, _, ht⟩ := ht
    unfold symBlock at ht
    split at ht
    · simp at ht
    · obtain ⟨ab, _, rfl⟩ := List.mem_map.1 ht
      rfl
  simp [Coo.symW, h0]

/-- Quadratic form of a finalised accumulated buffer. -/
theorem quad_accum {α : Type*} (pts : List α) (s m n : ℕ)
    (pat : List (ℕ × ℕ)) (val : α → ℕ → ℕ → ℕ → ℕ → ℕ → ℕ → K) (v : ℕ → K) :
    Coo.quad (Coo.finalizeSym (accum pts (fun x => symBuild s s m n pat (val x)))) v
      = Coo.quad (Coo.finalizeSym (symBuild s s m n pat fun i k j l a b =>
          (pts.map fun x => val x i k j l a b).sum)) v := by
  by_cases h : pts = []
  · subst h
    simp only [List.map_nil, List.sum_nil]
    rw [Coo.quad_finalizeSym, Coo.quad_finalizeSym, symW_zero_sum]
    rfl
  · rw [accum_symBuild pts h]

theorem quad_accumJL {α : Type*} (pts : List α) (s m n : ℕ)
    (pat : List (ℕ × ℕ)) (val : α → ℕ → ℕ → ℕ → ℕ → ℕ → ℕ → K) (v : ℕ → K) :
    Coo.quad (Coo.finalizeSym (accum pts (fun x => symBuildJL s s m n pat (val x)))) v
      = Coo.quad (Coo.finalizeSym (symBuild s s m n pat fun i k j l a b =>
          (pts.map fun x => val x i k j l a b).sum)) v := by
  by_cases h : pts = []
  · subst h
    simp only [List.map_nil, List.sum_nil]
    rw [Coo.quad_finalizeSym, Coo.quad_finalizeSym, symW_zero_sum]
    rfl
  · rw [accum_symBuildJL pts h, quad_symBuildJL]

end Verif
