import Mathlib.Data.List.Infix

/-!
# Saving and loading

`panels/shell.py` lines 20-24 and 1203-1218, `panels/stiffpanelbay/stiffpanelbay.py` lines 18-22 and
1411-1427.  A file name is the list of its characters; the file system is a function from names to
stored objects; `pickle` is taken to give back what was stored (not modelled: what can be pickled,
paths that cannot be opened).
-/

namespace Verif.Model

/-- Files by name. -/
abbrev Files (α : Type*) := List Char → Option α

/-- Outcome of `load`. -/
inductive Loaded (α : Type*)
  | obj (x : α)
  | fileNotFound
deriving DecidableEq

/-- `open(name, 'rb')` and `pickle.load`. -/
def readFile {α : Type*} (fs : Files α) (name : List Char) : Loaded α :=
  match fs name with
  | some x => .obj x
  | none => .fileNotFound

/-- `load` (`panels/shell.py` lines 20-24; `ext` is `'.Shell'` or `'.StiffPanelBay'`): the extension is
appended unless it occurs anywhere in the name. -/
def load {α : Type*} (ext : List Char) (fs : Files α) (name : List Char) : Loaded α :=
  if ext <:+: name then readFile fs name else readFile fs (name ++ ext)

/-- `save` (`panels/shell.py` lines 1203-1218): the extension is always appended; `clear` is
`_clear_matrices`, which changes the object itself. -/
def save {α : Type*} (ext : List Char) (clear : α → α) (fs : Files α) (name : List Char) (x : α) :
    Files α × α :=
  (fun f => if f = name ++ ext then some (clear x) else fs f, clear x)

/-- `'.Shell'`. -/
def shellExt : List Char := ['.', 'S', 'h', 'e', 'l', 'l']

/-- `'.StiffPanelBay'`. -/
def bayExt : List Char := ['.', 'S', 't', 'i', 'f', 'f', 'P', 'a', 'n', 'e', 'l', 'B', 'a', 'y']

end Verif.Model
