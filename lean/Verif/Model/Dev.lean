import Mathlib.Data.List.Basic
import Mathlib.Data.List.TakeWhile
import Mathlib.Data.List.Infix

/-!
# Printing of expressions

`pow2mult`, `mprint_as_sparse` and `mprint_as_array` (`panels/dev/matrixtools.py`), by which the kernels were
printed.  A string is a list of characters.  `\w`, `\d` and `\s` are those of
ASCII, and `int` knows no underscores.
-/

namespace Verif.Model.Dev

abbrev Text := List Char

/-- `\w`. -/
def isWord (c : Char) : Bool := c.isAlphanum || c == '_'

/-- `\d`. -/
def isDigit (c : Char) : Bool := c.isDigit

/-- `\s`. -/
def isSpace (c : Char) : Bool := c == ' ' || c == '\t' || c == '\n' || c == '\r'

/-- What can go wrong. -/
inductive Err
  | valueError
  | indexError
  | unboundLocal
  deriving DecidableEq, Repr

/-- The regular expression `\w+\*\*\d+` at the beginning of a text: base, exponent and what follows.
`panels/dev/matrixtools.py:25`. -/
def matchPow (s : Text) : Option (Text × Text × Text) :=
  if s.takeWhile isWord = [] then none
  else
    match s.dropWhile isWord with
    | '*' :: '*' :: r =>
      if r.takeWhile isDigit = [] then none
      else some (s.takeWhile isWord, r.takeWhile isDigit, r.dropWhile isDigit)
    | _ => none

/-- What follows is shorter. -/
theorem matchPow_lt {s w d r : Text} (h : matchPow s = some (w, d, r)) : r.length < s.length := by
  unfold matchPow at h
  split at h
  · cases h
  · next hw =>
    split at h
    · next t ht =>
      split at h
      · cases h
      · simp only [Option.some.injEq, Prod.mk.injEq] at h
        obtain ⟨-, -, rfl⟩ := h
        have h1 : (t.dropWhile isDigit).length ≤ t.length := (List.dropWhile_sublist _).length_le
        have h2 : (s.dropWhile isWord).length ≤ s.length := (List.dropWhile_sublist _).length_le
        rw [ht] at h2
        simp only [List.length_cons] at h2
        omega
    · cases h

/-- `re.findall(r'\w+\*\*\d+', instr)`, split at `**` (`panels/dev/matrixtools.py:25-26`). -/
def findPows : Text → List (Text × Text)
  | [] => []
  | c :: s =>
    match h : matchPow (c :: s) with
    | some (w, d, r) => (w, d) :: findPows r
    | none => findPows s
termination_by s => s.length
decreasing_by
  · exact matchPow_lt h
  · simp

/-- `old`: the text found. -/
def powText (p : Text × Text) : Text := p.1 ++ ['*', '*'] ++ p.2

/-- `int(exp)` for digits. -/
def value (d : Text) : ℕ := d.foldl (fun n c => 10 * n + (c.toNat - '0'.toNat)) 0

/-- `'(' + '*'.join([var]*n) + ')'` (`panels/dev/matrixtools.py:27`). -/
def product (w : Text) (n : ℕ) : Text := '(' :: (List.intercalate ['*'] (List.replicate n w) ++ [')'])

/-- `str.replace(old, new)` for an `old` that is not empty. -/
def replace (old new : Text) : Text → Text
  | [] => []
  | c :: s =>
    if old.isPrefixOf (c :: s) then new ++ replace old new (s.drop (old.length - 1))
    else c :: replace old new s
termination_by s => s.length
decreasing_by
  · simp only [List.length_drop, List.length_cons]; omega
  · simp

/-- `for old, new in old_new: outstr = outstr.replace(old, new)`. -/
def replaceAll (l : List (Text × Text)) (s : Text) : Text := l.foldl (fun t p => replace p.1 p.2 t) s

/-- A power found and its product. -/
def powPair (p : Text × Text) : Text × Text := (powText p, product p.1 (value p.2))

/-- `sorted(old_new, key=lambda x: len(x[0]))[::-1]` (`panels/dev/matrixtools.py:31`). -/
def longFirst (l : List (Text × Text)) : List (Text × Text) :=
  (l.mergeSort fun p q => p.1.length ≤ q.1.length).reverse

/-- `str.split(sep)` for a `sep` that is not empty; `acc` is the piece being read, backwards. -/
def splitAux (sep acc : Text) : Text → List Text
  | [] => [acc.reverse]
  | c :: s =>
    if sep.isPrefixOf (c :: s) then acc.reverse :: splitAux sep [] (s.drop (sep.length - 1))
    else splitAux sep (c :: acc) s
termination_by s => s.length
decreasing_by
  · simp only [List.length_drop, List.length_cons]; omega
  · simp

def split (sep s : Text) : List Text := splitAux sep [] s

/-- `l[i]`. -/
def item (l : List Text) (i : ℕ) : Except Err Text :=
  match l[i]? with
  | some t => .ok t
  | none => .error .indexError

/-- `int(s)`: spaces around digits. -/
def toInt (s : Text) : Except Err ℕ :=
  let t := ((s.dropWhile isSpace).reverse.dropWhile isSpace).reverse
  if t ≠ [] ∧ t.all isDigit then .ok (value t) else .error .valueError

/-- The regular expression `pow\(\w+,\s*\w+\)` at the beginning of a text: the text found and what follows.
`panels/dev/matrixtools.py:37`. -/
def matchCall (s : Text) : Option (Text × Text) :=
  match s with
  | 'p' :: 'o' :: 'w' :: '(' :: r =>
    if r.takeWhile isWord = [] then none
    else
      match r.dropWhile isWord with
      | ',' :: t =>
        if (t.dropWhile isSpace).takeWhile isWord = [] then none
        else
          match (t.dropWhile isSpace).dropWhile isWord with
          | ')' :: q =>
            some ("pow(".toList ++ (r.takeWhile isWord ++ ',' ::
              (t.takeWhile isSpace ++ ((t.dropWhile isSpace).takeWhile isWord ++ [')']))), q)
          | _ => none
      | _ => none
  | _ => none

theorem matchCall_lt {s p r : Text} (h : matchCall s = some (p, r)) : r.length < s.length := by
  unfold matchCall at h
  split at h
  · next t =>
    split at h
    · cases h
    · split at h
      · next u hu =>
        split at h
        · cases h
        · split at h
          · next v hv =>
            simp only [Option.some.injEq, Prod.mk.injEq] at h
            obtain ⟨-, rfl⟩ := h
            have h1 : (t.dropWhile isWord).length ≤ t.length := (List.dropWhile_sublist _).length_le
            have h2 : ((u.dropWhile isSpace).dropWhile isWord).length ≤ (u.dropWhile isSpace).length :=
              (List.dropWhile_sublist _).length_le
            have h3 : (u.dropWhile isSpace).length ≤ u.length := (List.dropWhile_sublist _).length_le
            rw [hu] at h1
            rw [hv] at h2
            simp only [List.length_cons] at *
            omega
          · cases h
      · cases h
  · cases h

/-- `re.findall(r'pow\(\w+,\s*\w+\)', instr)`. -/
def findCalls : Text → List Text
  | [] => []
  | c :: s =>
    match h : matchCall (c :: s) with
    | some (p, r) => p :: findCalls r
    | none => findCalls s
termination_by s => s.length
decreasing_by
  · exact matchCall_lt h
  · simp

/-- `var, exp = p.split('pow')[1].split('(')[1].split(')')[0].split(',')` and the product
(`panels/dev/matrixtools.py:38-40`). -/
def callPair (p : Text) : Except Err (Text × Text) := do
  let a ← item (split "pow".toList p) 1
  let b ← item (split ['('] a) 1
  let c ← item (split [')'] b) 0
  match split [','] c with
  | [v, e] => do
    let n ← toInt e
    pure (p, product v n)
  | _ => .error .valueError

/-- `pow2mult(instr)` (`panels/dev/matrixtools.py:8-44`). -/
def pow2mult (instr : Text) : Except Err Text := do
  let out := replaceAll (longFirst ((findPows instr).map powPair)) instr
  let old_new ← (findCalls instr).mapM callPair
  pure (replaceAll old_new out)

/-- The powers in `mprint_as_array` (`panels/dev/matrixtools.py:157-161`): in the order found. -/
def arrayPows (v : Text) : Text := replaceAll ((findPows v).map powPair) v

/-! ## Kernels -/

/-- A line of a printed kernel; `rel`: relative to the block. -/
inductive Line
  /-- comments -/
  | note (t : Text)
  /-- `c += 1` -/
  | next
  /-- `kr[c] = row+i` or `kr[c] = i` -/
  | row (rel : Bool) (i : ℕ)
  /-- `kc[c] = col+j` or `kc[c] = j` -/
  | col (rel : Bool) (j : ℕ)
  /-- `kv[c] += t` -/
  | put (t : Text)
  deriving DecidableEq, Repr

/-- `np.ndenumerate(m)` without the zeros: `m i j` is the printed entry, `none` for zero. -/
def nonzero (nr nc : ℕ) (m : ℕ → ℕ → Option Text) : List ((ℕ × ℕ) × Text) :=
  (List.range nr).flatMap fun i => (List.range nc).filterMap fun j => (m i j).map fun t => ((i, j), t)

/-- `left, right = sufix` (`panels/dev/matrixtools.py:50-54`). -/
def sides (sufix : Text) : Except Err (Char × Char) :=
  match sufix with
  | [] => .ok ('1', '1')
  | [l, r] => .ok (l, r)
  | _ => .error .valueError

/-- The lines of one entry (`panels/dev/matrixtools.py:71-98`, `collect_for=None`, `subs=None`). -/
def entryLines (left right : Char) (powByMul full : Bool) (x : (ℕ × ℕ) × Text) : Except Err (List Line) :=
  if full && decide (x.1.2 < x.1.1) then .ok []
  else do
    let t ← if powByMul then pow2mult x.2 else .ok x.2
    .ok [.next, .row (!(left == '0' || full)) x.1.1, .col (!(right == '0' || full)) x.1.2, .put t]

/-- `mprint_as_sparse`: the number announced and the lines (`panels/dev/matrixtools.py:47-116`).  Without
`subs` and `collect_for`, which are left to `sympy`; header, names and the file are not modelled. -/
def asSparse (nr nc : ℕ) (m : ℕ → ℕ → Option Text) (sufix : Text) (powByMul full : Bool) :
    Except Err (ℕ × List Line) := do
  let (left, right) ← sides sufix
  let num := if full then ((nonzero nr nc m).filter fun x => decide (x.1.1 ≤ x.1.2)).length
    else (nonzero nr nc m).length
  let ls ← (nonzero nr nc m).mapM (entryLines left right powByMul full)
  pure (num, .note [] :: .note [] :: ls.flatten)

/-- `mprint_as_array`: the number announced and, for every line `k[pos+i] += t`, `i` and `t`
(`panels/dev/matrixtools.py:118-169`).  Without `use_cse` and `collect_for`. -/
def asArray (nr nc : ℕ) (m : ℕ → ℕ → Option Text) (order : Char) (powByMul : Bool) :
    Except Err (ℕ × List (ℕ × Text)) := do
  let flat ← match order with
    | 'C' => .ok ((List.range nr).flatMap fun i => (List.range nc).map fun j => m i j)
    | 'F' => .ok ((List.range nc).flatMap fun j => (List.range nr).map fun i => m i j)
    | _ => .error .unboundLocal
  let ls := (flat.zipIdx).filterMap fun x =>
    x.1.map fun t => (x.2, if powByMul then arrayPows t else t)
  pure ((nonzero nr nc m).length, ls)

end Verif.Model.Dev
