import Verif.Model.Save

/-!
# C53: saving and loading

The round trip holds exactly for names in which the extension does not occur; for the other names
`load(name)` does not look at the file that `save` wrote.
-/

namespace Verif.C53

open Model

variable {α : Type*}

/-- A name without the extension is read back, as the object is after saving. -/
theorem round_trip_partial (ext : List Char) (clear : α → α) (fs : Files α) (name : List Char) (x : α)
    (h : ¬ ext <:+: name) :
    load ext (save ext clear fs name x).1 name = .obj (save ext clear fs name x).2 := by
  simp [load, save, readFile, h]

/-- The full name of the file is read back for every name. -/
theorem full_name (ext : List Char) (clear : α → α) (fs : Files α) (name : List Char) (x : α) :
    load ext (save ext clear fs name x).1 (name ++ ext) = .obj (save ext clear fs name x).2 := by
  have : ext <:+: name ++ ext := (List.suffix_append name ext).isInfix
  simp [load, save, readFile, this]

/-- With the extension inside the name, saving has no influence on what `load(name)` gives. -/
theorem not_read (ext : List Char) (hext : ext ≠ []) (clear : α → α) (fs : Files α)
    (name : List Char) (x : α) (h : ext <:+: name) :
    load ext (save ext clear fs name x).1 name = load ext fs name := by
  have : name ≠ name ++ ext := by
    intro he
    exact hext (List.self_eq_append_right.1 he)
  simp [load, save, readFile, h, this]

/-- So in an empty directory the round trip works for a name exactly if the extension does not occur
in it. -/
theorem round_trip_iff (ext : List Char) (hext : ext ≠ []) (clear : α → α) (name : List Char) (x : α) :
    load ext (save ext clear (fun _ => none) name x).1 name = .obj (clear x) ↔ ¬ ext <:+: name := by
  constructor
  · intro h hi
    rw [not_read ext hext clear _ name x hi] at h
    simp [load, readFile, hi] at h
  · intro h
    exact round_trip_partial ext clear _ name x h

/-- The claim "for every name" is violated. -/
theorem claim_violated : ∃ name : List Char,
    load shellExt (save shellExt id (fun _ => none) name (7 : ℕ)).1 name = .fileNotFound := by
  refine ⟨shellExt ++ ['2'], ?_⟩
  decide

/-- Saving under another name leaves a saved object readable. -/
theorem others_kept (ext : List Char) (clear : α → α) (fs : Files α) (name name' : List Char)
    (x y : α) (hn : name ≠ name') (h : ¬ ext <:+: name) :
    load ext (save ext clear (save ext clear fs name x).1 name' y).1 name = .obj (clear x) := by
  simp [load, save, readFile, h, hn]

/-- The last save of a name is the one that is read. -/
theorem last_wins (ext : List Char) (clear : α → α) (fs : Files α) (name : List Char) (x y : α)
    (h : ¬ ext <:+: name) :
    load ext (save ext clear (save ext clear fs name x).1 name y).1 name = .obj (clear y) := by
  simp [load, save, readFile, h]

example : load shellExt (save shellExt (· + 1) (fun _ => none) ['p', '1'] (7 : ℕ)).1 ['p', '1']
    = .obj 8 := round_trip_partial _ _ _ _ _ (by decide)

example : bayExt ≠ [] ∧ ¬ bayExt <:+: ['a', '.', 'S', 'h', 'e', 'l', 'l'] := by decide

end Verif.C53
