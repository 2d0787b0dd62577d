import Verif.Model.Dev
import Verif.Spec.Printed

/-!
# Replacing in texts

A text cut into single characters and patterns; `by f` writes `f p` for the pattern `p`.
-/

namespace Verif.DevL

open Model.Dev

/-- A piece of text. -/
inductive Seg
  | chr (c : Char)
  | pat (p : Text)

/-- The text, patterns written by `f`. -/
def ren (f : Text → Text) : List Seg → Text
  | [] => []
  | .chr c :: l => c :: ren f l
  | .pat p :: l => f p ++ ren f l

def pats : List Seg → List Text
  | [] => []
  | .chr _ :: l => pats l
  | .pat p :: l => p :: pats l

def chrs (t : Text) : List Seg := t.map .chr

theorem ren_append (f : Text → Text) (l k : List Seg) : ren f (l ++ k) = ren f l ++ ren f k := by
  induction l with
  | nil => rfl
  | cons s l ih => cases s <;> simp [ren, ih]

theorem ren_chrs (f : Text → Text) (t : Text) : ren f (chrs t) = t := by
  induction t with
  | nil => rfl
  | cons c t ih => simpa [chrs, ren] using ih

theorem pats_append (l k : List Seg) : pats (l ++ k) = pats l ++ pats k := by
  induction l with
  | nil => rfl
  | cons s l ih => cases s <;> simp [pats, ih]

theorem pats_chrs (t : Text) : pats (chrs t) = [] := by
  induction t with
  | nil => rfl
  | cons c t ih => simpa [chrs, pats] using ih

theorem ren_congr {f g : Text → Text} {l : List Seg} (h : ∀ p ∈ pats l, f p = g p) : ren f l = ren g l := by
  induction l with
  | nil => rfl
  | cons s l ih =>
    cases s with
    | chr c => simp only [ren]; rw [ih h]
    | pat p =>
      simp only [pats, List.mem_cons, forall_eq_or_imp] at h
      simp only [ren]
      rw [h.1, ih h.2]

/-! ## `replace` -/

theorem replace_nil (old new : Text) : replace old new [] = [] := by rw [replace]

theorem replace_copy (old new : Text) (c : Char) (s : Text) (h : ¬ old <+: c :: s) :
    replace old new (c :: s) = c :: replace old new s := by
  rw [replace, if_neg (by rwa [List.isPrefixOf_iff_prefix])]

theorem replace_hit {old : Text} (ho : old ≠ []) (new s : Text) :
    replace old new (old ++ s) = new ++ replace old new s := by
  obtain ⟨c, t, rfl⟩ := List.exists_cons_of_ne_nil ho
  rw [List.cons_append, replace, if_pos (by rw [List.isPrefixOf_iff_prefix]; exact ⟨s, rfl⟩)]
  simp

/-- Text in which `old` does not begin is copied. -/
theorem replace_append {old : Text} (new : Text) {a s : Text}
    (h : ∀ b, b ≠ [] → b <:+ a → ¬ old <+: b ++ s) : replace old new (a ++ s) = a ++ replace old new s := by
  induction a with
  | nil => rfl
  | cons c a ih =>
    rw [List.cons_append, replace_copy _ _ c (a ++ s) (h (c :: a) (by simp) (List.suffix_refl _)),
      ih fun b hb hs => h b hb (hs.trans (List.suffix_cons c a)), List.cons_append]

/-- Where `old` begins in a text: only at patterns equal to it and not yet written. -/
def Quiet (f : Text → Text) (old new : Text) : List Seg → Prop
  | [] => True
  | .chr c :: l => (¬ old <+: c :: ren f l) ∧ Quiet f old new l
  | .pat p :: l => ((p = old ∧ f p = old) ∨
      ((p = old → f p = new) ∧ ∀ b, b ≠ [] → b <:+ f p → ¬ old <+: b ++ ren f l)) ∧ Quiet f old new l

theorem replace_step {f : Text → Text} {old new : Text} (ho : old ≠ []) {l : List Seg}
    (h : Quiet f old new l) : replace old new (ren f l) = ren (fun p => if p = old then new else f p) l := by
  induction l with
  | nil => exact replace_nil _ _
  | cons s l ih =>
    cases s with
    | chr c =>
      obtain ⟨h1, h2⟩ := h
      simp only [ren]
      rw [replace_copy _ _ _ _ h1, ih h2]
    | pat p =>
      obtain ⟨h1, h2⟩ := h
      simp only [ren]
      rcases h1 with ⟨rfl, h1⟩ | ⟨h1, h3⟩
      · rw [h1, replace_hit ho, ih h2, if_pos rfl]
      · rw [replace_append new h3, ih h2]
        by_cases hp : p = old
        · rw [if_pos hp, h1 hp]
        · rw [if_neg hp]

/-- All replacements.  `hq`: when `old` is due, the patterns before it are written and the others not.
-/
theorem replaceAll_ren (g : Text → Text) {l : List Seg} :
    ∀ (L : List Text) (f : Text → Text), (∀ p ∈ L, p ≠ []) →
      (∀ p ∈ pats l, f p = g p ∨ f p = p ∧ p ∈ L) →
      (∀ (f : Text → Text) (old : Text) (L' : List Text), (old :: L') <:+ L → (∀ p ∈ pats l, f p = g p ∨ f p = p ∧ p ∈ old :: L') →
        Quiet f old (g old) l) →
      replaceAll (L.map fun p => (p, g p)) (ren f l) = ren g l := by
  intro L
  induction L with
  | nil =>
    intro f _ hf _
    refine ren_congr fun p hp => ?_
    rcases hf p hp with h | ⟨-, h⟩
    · exact h
    · cases h
  | cons old L ih =>
    intro f ho hf hq
    simp only [replaceAll, List.map_cons, List.foldl_cons]
    rw [replace_step (ho old (by simp)) (hq f old L (List.suffix_refl _) hf)]
    refine ih _ (fun p hp => ho p (List.mem_cons_of_mem _ hp)) (fun p hp => ?_)
      fun f old' L' hs hf => hq f old' L' (hs.trans (List.suffix_cons _ _)) hf
    by_cases h : p = old
    · subst h
      exact .inl (if_pos rfl)
    · simp only [if_neg h]
      rcases hf p hp with h1 | ⟨h1, h2⟩
      · exact .inl h1
      · exact .inr ⟨h1, (List.mem_cons.1 h2).resolve_left h⟩

/-! ## Words, digits -/

theorem word_of_digit {c : Char} (h : isDigit c = true) : isWord c = true := by
  unfold isDigit at h
  simp [isWord, Char.isAlphanum, h]

/-- Nothing to go on with after a word or a number. -/
def Follow (r : Text) : Prop := (∀ c ∈ r.head?, isWord c = false) ∧ ¬ ['*', '*'] <+: r

/-- A power can be read here. -/
def Starts (s : Text) : Prop :=
  ∃ w x, w ≠ [] ∧ (∀ c ∈ w, isWord c = true) ∧ isDigit x = true ∧ w ++ ['*', '*', x] <+: s

theorem takeWhile_split {p : Char → Bool} {w r : Text} (hw : ∀ c ∈ w, p c = true) (hr : ∀ c ∈ r.head?, p c = false) :
    (w ++ r).takeWhile p = w ∧ (w ++ r).dropWhile p = r := by
  induction w with
  | nil =>
    cases r with
    | nil => exact ⟨rfl, rfl⟩
    | cons c r => simp [hr c (by simp)]
  | cons c w ih =>
    simp only [List.mem_cons, forall_eq_or_imp] at hw
    simp [hw.1, ih hw.2]

theorem matchPow_none {s : Text} (h : ¬ Starts s) : matchPow s = none := by
  unfold matchPow
  split
  · rfl
  · next hw =>
    split
    · next r hr =>
      split
      · rfl
      · next hd =>
        refine absurd ?_ h
        obtain ⟨x, d, hx⟩ := List.exists_cons_of_ne_nil hd
        have hxd : isDigit x = true := by
          have : x ∈ r.takeWhile isDigit := by rw [hx]; simp
          exact List.mem_takeWhile_imp this
        refine ⟨s.takeWhile isWord, x, hw, fun c hc => List.mem_takeWhile_imp hc, hxd, d ++ r.dropWhile isDigit, ?_⟩
        have h1 := List.takeWhile_append_dropWhile (p := isWord) (l := s)
        have h2 := List.takeWhile_append_dropWhile (p := isDigit) (l := r)
        rw [hx] at h2
        rw [hr, ← h2] at h1
        simpa using h1
    · rfl

theorem matchPow_hit {w d r : Text} (hw : w ≠ [] ∧ ∀ c ∈ w, isWord c = true)
    (hd : d ≠ [] ∧ ∀ c ∈ d, isDigit c = true) (hr : Follow r) :
    matchPow (powText (w, d) ++ r) = some (w, d, r) := by
  have e : powText (w, d) ++ r = w ++ ('*' :: '*' :: (d ++ r)) := by simp [powText]
  obtain ⟨t1, t2⟩ := takeWhile_split (p := isWord) (r := '*' :: '*' :: (d ++ r)) hw.2 (by simp; decide)
  obtain ⟨t3, t4⟩ := takeWhile_split (p := isDigit) (w := d) (r := r) hd.2 fun c hc => by
    by_contra h
    have := hr.1 c hc
    rw [word_of_digit (by simpa using h)] at this
    cases this
  rw [e]
  unfold matchPow
  rw [t1, t2, if_neg hw.1]
  simp only
  rw [t3, t4, if_neg hd.1]

/-- A text cut at its powers. -/
def Good : List Seg → Prop
  | [] => True
  | .chr c :: l => (¬ Starts (c :: ren id l)) ∧ Good l
  | .pat p :: l => (∃ w d, p = powText (w, d) ∧ (w ≠ [] ∧ ∀ c ∈ w, isWord c = true) ∧
      d ≠ [] ∧ ∀ c ∈ d, isDigit c = true) ∧ Follow (ren id l) ∧ Good l

/-- The words of a power. -/
def parts (p : Text) : Text × Text := (p.takeWhile isWord, (p.dropWhile isWord).drop 2)

theorem parts_pow {w d : Text} (hw : ∀ c ∈ w, isWord c = true) : parts (powText (w, d)) = (w, d) := by
  have e : powText (w, d) = w ++ ('*' :: '*' :: d) := by simp [powText]
  obtain ⟨t1, t2⟩ := takeWhile_split (p := isWord) (r := '*' :: '*' :: d) hw (by simp; decide)
  rw [parts, e, t1, t2]
  rfl

theorem findPows_good {l : List Seg} (h : Good l) : findPows (ren id l) = (pats l).map parts := by
  induction l with
  | nil => simp [ren, findPows, pats]
  | cons s l ih =>
    cases s with
    | chr c =>
      simp only [ren, pats]
      rw [findPows, matchPow_none h.1]
      exact ih h.2
    | pat p =>
      obtain ⟨⟨w, d, rfl, hw, hd⟩, hr, hl⟩ := h
      have hm := matchPow_hit hw hd hr
      simp only [ren, id, pats, List.map_cons, parts_pow hw.2]
      rw [← ih hl]
      obtain ⟨c, t, rfl⟩ := List.exists_cons_of_ne_nil hw.1
      have e : powText (c :: t, d) ++ ren id l = c :: (t ++ ('*' :: '*' :: (d ++ ren id l))) := by simp [powText]
      rw [e] at hm ⊢
      rw [findPows]
      split
      · next h => rw [hm] at h; cases h; rfl
      · next h => rw [hm] at h; cases h

/-! ## Powers -/

theorem not_word {c : Char} (h : isWord c = false) (s : Text) : ¬ Starts (c :: s) := by
  rintro ⟨w, x, hw, ha, -, hp⟩
  obtain ⟨a, w, rfl⟩ := List.exists_cons_of_ne_nil hw
  rw [List.cons_append, List.cons_prefix_cons] at hp
  have := ha a (by simp)
  rw [hp.1, h] at this
  cases this

/-- A prefix without `c` ends before `c`. -/
theorem prefix_before {c : Char} {t a b : Text} (hc : c ∉ t) (h : t <+: a ++ c :: b) : t <+: a := by
  induction a generalizing t with
  | nil =>
    cases t with
    | nil => exact List.nil_prefix
    | cons x t =>
      rw [List.nil_append, List.cons_prefix_cons] at h
      exact absurd (by rw [h.1]; simp) hc
  | cons y a ih =>
    cases t with
    | nil => exact List.nil_prefix
    | cons x t =>
      rw [List.cons_append, List.cons_prefix_cons] at h
      rw [List.cons_prefix_cons]
      exact ⟨h.1, ih (fun hm => hc (List.mem_cons_of_mem _ hm)) h.2⟩

/-- A parenthesis ends what is read. -/
theorem starts_before {c : Char} (hc : isWord c = false) (hs : c ≠ '*') {a b : Text} (h : Starts (a ++ c :: b)) :
    ∃ w x, w ≠ [] ∧ (∀ c ∈ w, isWord c = true) ∧ isDigit x = true ∧ w ++ ['*', '*', x] <+: a := by
  obtain ⟨w, x, hw, ha, hx, hp⟩ := h
  refine ⟨w, x, hw, ha, hx, prefix_before (fun hm => ?_) hp⟩
  simp only [List.mem_append, List.mem_cons, List.not_mem_nil, or_false] at hm
  rcases hm with hm | hm | hm | hm
  · rw [ha c hm] at hc; cases hc
  · exact hs hm
  · exact hs hm
  · rw [hm, word_of_digit hx] at hc; cases hc

/-- What a pattern may be written as. -/
def Form (f : Text → Text) (l : List Seg) : Prop :=
  ∀ p ∈ pats l, f p = p ∨ ∃ t, f p = '(' :: t

theorem starts_ren {f : Text → Text} {l : List Seg} (hf : Form f l) (a : Text) (h : Starts (a ++ ren f l)) :
    Starts (a ++ ren id l) := by
  induction l generalizing a with
  | nil => exact h
  | cons s l ih =>
    cases s with
    | chr c =>
      have := ih hf (a ++ [c]) (by simpa [ren] using h)
      simpa [ren] using this
    | pat p =>
      have hf' : Form f l := fun q hq => hf q (by simp [pats, hq])
      rcases hf p (by simp [pats]) with hp | ⟨t, hp⟩
      · have := ih hf' (a ++ p) (by simpa [ren, hp] using h)
        simpa [ren] using this
      · simp only [ren, hp] at h
        obtain ⟨w, x, hw, ha, hx, hpre⟩ := starts_before (by decide) (by decide) h
        exact ⟨w, x, hw, ha, hx, hpre.trans (List.prefix_append _ _)⟩

theorem follow_ren {f : Text → Text} {l : List Seg} (hf : Form f l) (hl : Good l) (h : Follow (ren id l)) :
    Follow (ren f l) := by
  cases l with
  | nil => exact h
  | cons s l =>
    cases s with
    | chr c =>
      refine ⟨fun x hx => h.1 x (by simpa [ren] using hx), fun hp => h.2 ?_⟩
      simp only [ren] at hp ⊢
      rw [List.cons_prefix_cons] at hp ⊢
      refine ⟨hp.1, ?_⟩
      cases l with
      | nil => exact hp.2
      | cons s l =>
        cases s with
        | chr c' => simpa [ren, List.cons_prefix_cons] using hp.2
        | pat p =>
          rcases hf p (by simp [pats]) with e | ⟨t, e⟩
          · obtain ⟨-, ⟨w, d, rfl, hw, -⟩, -⟩ := hl
            obtain ⟨x, w, rfl⟩ := List.exists_cons_of_ne_nil hw.1
            have := hp.2
            simp only [ren] at this ⊢
            rw [e] at this
            simpa [powText, List.cons_prefix_cons] using this
          · have := hp.2
            simp only [ren, e, List.cons_append, List.cons_prefix_cons] at this
            exact absurd this.1 (by decide)
    | pat p =>
      obtain ⟨⟨w, d, rfl, hw, -⟩, -⟩ := hl
      obtain ⟨x, w, rfl⟩ := List.exists_cons_of_ne_nil hw.1
      have := h.1 x (by simp [ren, powText])
      rw [hw.2 x (by simp)] at this
      cases this

/-- No two stars. -/
def Single (t : Text) : Prop := ¬ ['*', '*'] <:+: t

theorem inter_cons (w : Text) (n : ℕ) :
    List.intercalate ['*'] (List.replicate (n + 2) w) = w ++ '*' :: List.intercalate ['*'] (List.replicate (n + 1) w) := by
  simp [List.replicate_succ, List.intercalate]

theorem infix_sep {c : Char} {t a b : Text} (hc : c ∉ t) (h : t <:+: a ++ c :: b) : t <:+: a ∨ t <:+: b := by
  induction a with
  | nil =>
    rw [List.nil_append, List.infix_cons_iff] at h
    rcases h with h | h
    · left
      exact (prefix_before (a := []) hc h).isInfix
    · exact .inr h
  | cons x a ih =>
    rw [List.cons_append, List.infix_cons_iff] at h
    rcases h with h | h
    · exact .inl (prefix_before (a := x :: a) hc h).isInfix
    · rcases ih h with h | h
      · exact .inl (h.trans (List.suffix_cons _ _).isInfix)
      · exact .inr h

theorem single_word {w : Text} (hw : ∀ c ∈ w, isWord c = true) : Single w := fun h => by
  have := hw '*' (h.subset (by simp))
  revert this
  decide

/-- Single stars remain single next to words. -/
theorem single_app {w r : Text} (hw : w ≠ [] ∧ ∀ c ∈ w, isWord c = true) (hr : Single r) :
    Single (w ++ r) := by
  obtain ⟨w0, hw⟩ := hw
  clear w0
  induction w with
  | nil => exact hr
  | cons c w ih =>
    intro h
    rw [List.cons_append, List.infix_cons_iff] at h
    rcases h with h | h
    · rw [List.cons_prefix_cons] at h
      have := hw c (by simp)
      rw [← h.1] at this
      revert this
      decide
    · exact ih (fun c hc => hw c (List.mem_cons_of_mem _ hc)) h

theorem single_inter {w : Text} (hw : w ≠ [] ∧ ∀ c ∈ w, isWord c = true) (n : ℕ) :
    Single (List.intercalate ['*'] (List.replicate n w)) := by
  induction n with
  | zero => simp [Single, List.intercalate]
  | succ n ih =>
    cases n with
    | zero => simpa [List.intercalate] using single_word hw.2
    | succ n =>
      rw [inter_cons]
      refine single_app hw fun h => ?_
      rw [List.infix_cons_iff] at h
      rcases h with h | h
      · rw [List.cons_prefix_cons] at h
        have h2 := h.2
        obtain ⟨x, w, rfl⟩ := List.exists_cons_of_ne_nil hw.1
        have hx := hw.2 x (by simp)
        have : ∃ t, List.intercalate ['*'] (List.replicate (n + 1) (x :: w)) = x :: t := by
          cases n with
          | zero => exact ⟨w, by simp [List.intercalate]⟩
          | succ n => rw [inter_cons]; exact ⟨_, rfl⟩
        obtain ⟨t, ht⟩ := this
        rw [ht, List.cons_prefix_cons] at h2
        rw [← h2.1] at hx
        revert hx
        decide
      · exact ih h

/-- Nothing can be read as a power inside a product. -/
theorem product_quiet {w : Text} (hw : w ≠ [] ∧ ∀ c ∈ w, isWord c = true) (n : ℕ) {b r : Text} (hb : b ≠ [])
    (hs : b <:+ product w n) : ¬ Starts (b ++ r) := by
  intro h
  unfold product at hs
  rw [← List.cons_append] at hs
  obtain ⟨a, ha⟩ := hs
  have hlast : b = b.dropLast ++ [')'] := by
    have h1 := List.dropLast_append_getLast hb
    have h2 : b.getLast hb = ')' := by
      have := congrArg List.getLast? ha
      rw [List.getLast?_append, List.getLast?_concat, List.getLast?_eq_some_getLast hb] at this
      simpa using this
    rw [h2] at h1
    exact h1.symm
  rw [hlast, ← List.append_assoc] at ha
  have ha := List.append_cancel_right ha
  rw [hlast, List.append_assoc] at h
  obtain ⟨v, x, hv, hva, -, hp⟩ := starts_before (by decide) (by decide) h
  have h1 : ['*', '*'] <:+: b.dropLast := by
    refine List.IsInfix.trans ?_ hp.isInfix
    exact ⟨v, [x], by simp⟩
  have h2 : ['*', '*'] <:+: '(' :: List.intercalate ['*'] (List.replicate n w) := by
    rw [← ha]
    exact h1.trans (List.suffix_append _ _).isInfix
  rw [List.infix_cons_iff] at h2
  rcases h2 with h2 | h2
  · rw [List.cons_prefix_cons] at h2
    exact absurd h2.1 (by decide)
  · exact single_inter hw n h2

theorem suffix_append_cases {b v r : Text} (h : b <:+ v ++ r) : b <:+ r ∨ ∃ v', v' ≠ [] ∧ v' <:+ v ∧ b = v' ++ r := by
  obtain ⟨a, ha⟩ := h
  rcases List.append_eq_append_iff.1 ha with ⟨c, h1, h2⟩ | ⟨c, h1, h2⟩
  · by_cases hc : c = []
    · subst hc
      exact .inl ⟨[], by simpa using h2⟩
    · exact .inr ⟨c, hc, ⟨a, h1.symm⟩, h2⟩
  · exact .inl ⟨c, h2.symm⟩

/-- A prefix made of a word and then something else. -/
theorem word_eq {isWord : Char → Bool} {w v s r : Text} (hw : ∀ c ∈ w, isWord c = true)
    (hv : ∀ c ∈ v, isWord c = true)
    (hs : s ≠ []) (hs' : ∀ c ∈ s.head?, isWord c = false) (hr : ∀ c ∈ r.head?, isWord c = false)
    (h : w ++ s <+: v ++ r) : w = v ∧ s <+: r := by
  obtain ⟨t, ht⟩ := h
  rw [List.append_assoc] at ht
  have e1 := takeWhile_split (p := isWord) (w := w) (r := s ++ t) hw (by
    obtain ⟨x, s, rfl⟩ := List.exists_cons_of_ne_nil hs
    simpa using hs')
  have e2 := takeWhile_split (p := isWord) hv hr
  rw [ht] at e1
  refine ⟨e1.1.symm.trans e2.1, t, e1.2.symm.trans e2.2⟩

/-- Where a power is found in another: only as a part of its text. -/
theorem power_in {w d v e b r : Text} (hw : w ≠ [] ∧ ∀ c ∈ w, isWord c = true)
    (hd : d ≠ [] ∧ ∀ c ∈ d, isDigit c = true) (hv : ∀ c ∈ v, isWord c = true)
    (he : ∀ c ∈ e, isDigit c = true) (hr : Follow r) (hb : b ≠ []) (hs : b <:+ powText (v, e))
    (h : powText (w, d) <+: b ++ r) : powText (w, d) <:+: powText (v, e) := by
  have e1 : powText (v, e) = v ++ ('*' :: '*' :: e) := by simp [powText]
  have e2 : powText (w, d) = w ++ ('*' :: '*' :: d) := by simp [powText]
  have star : isWord '*' = false := by decide
  rw [e1] at hs
  rw [e2] at h
  have nostar : ∀ t, ¬ w ++ ('*' :: '*' :: d) <+: '*' :: t := fun t ht => by
    obtain ⟨x, w, rfl⟩ := List.exists_cons_of_ne_nil hw.1
    rw [List.cons_append, List.cons_prefix_cons] at ht
    have := hw.2 x (by simp)
    rw [ht.1, star] at this
    cases this
  rcases suffix_append_cases hs with hs | ⟨v', hv0, hv', rfl⟩
  · rcases List.suffix_cons_iff.1 hs with rfl | hs
    · exact absurd h (nostar _)
    · rcases List.suffix_cons_iff.1 hs with rfl | hs
      · exact absurd h (nostar _)
      · have hbw : ∀ c ∈ b, isWord c = true := fun c hc => word_of_digit (he c (hs.subset hc))
        obtain ⟨-, h2⟩ := word_eq hw.2 hbw (by simp) (by simpa using star) hr.1 h
        refine absurd (List.IsPrefix.trans ?_ h2) hr.2
        exact ⟨d, rfl⟩
  · have hbw : ∀ c ∈ v', isWord c = true := fun c hc => hv c (hv'.subset hc)
    rw [List.append_assoc] at h
    obtain ⟨rfl, h2⟩ := word_eq hw.2 hbw (by simp) (by simpa using star) (by simpa using star) h
    simp only [List.cons_append, List.cons_prefix_cons, true_and] at h2
    have h3 : d <+: e := by
      rcases r with _ | ⟨x, r⟩
      · simpa using h2
      · refine prefix_before (fun hm => ?_) h2
        have := hr.1 x (by simp)
        rw [word_of_digit (hd.2 x hm)] at this
        cases this
    obtain ⟨a, rfl⟩ := hv'
    obtain ⟨z, rfl⟩ := h3
    exact ⟨a, z, by simp [powText]⟩

/-- The product written for a power. -/
def prod (p : Text) : Text := product (parts p).1 (value (parts p).2)

theorem powText_starts {w d : Text} (hw : w ≠ [] ∧ ∀ c ∈ w, isWord c = true)
    (hd : d ≠ [] ∧ ∀ c ∈ d, isDigit c = true) {s : Text} (h : powText (w, d) <+: s) : Starts s := by
  obtain ⟨x, d, rfl⟩ := List.exists_cons_of_ne_nil hd.1
  refine ⟨w, x, hw.1, hw.2, hd.2 x (by simp), List.IsPrefix.trans ⟨d, by simp [powText]⟩ h⟩

/-- Where a power begins. -/
theorem quiet {f : Text → Text} {w d : Text} {l : List Seg} (hw : w ≠ [] ∧ ∀ c ∈ w, isWord c = true)
    (hd : d ≠ [] ∧ ∀ c ∈ d, isDigit c = true) (hl : Good l)
    (hf : ∀ p ∈ pats l, f p = prod p ∨ f p = p ∧ (powText (w, d) <:+: p → p = powText (w, d))) :
    Quiet f (powText (w, d)) (prod (powText (w, d))) l := by
  have form : Form f l := fun p hp => (hf p hp).elim (fun h => .inr ⟨_, h⟩) fun h => .inl h.1
  induction l with
  | nil => trivial
  | cons s l ih =>
    cases s with
    | chr c =>
      refine ⟨fun h => ?_, ih hl.2 hf form⟩
      exact hl.1 (starts_ren (l := l) form [c] (powText_starts hw hd h))
    | pat p =>
      have form' : Form f l := fun q hq => form q (by simp [pats, hq])
      have hf' := fun q (hq : q ∈ pats l) => hf q (by simp [pats, hq])
      obtain ⟨⟨v, e, rfl, hv, he⟩, hr, hl⟩ := hl
      refine ⟨?_, ih hl hf' form'⟩
      rcases hf (powText (v, e)) (by simp [pats]) with h | ⟨h, h'⟩
      · refine .inr ⟨fun hp => by rw [h, hp], fun b hb hs hp => ?_⟩
        rw [h, prod, parts_pow hv.2] at hs
        exact product_quiet hv _ hb hs (powText_starts hw hd hp)
      · by_cases hp : powText (v, e) = powText (w, d)
        · exact .inl ⟨hp, h.trans hp⟩
        · refine .inr ⟨fun hq => absurd hq hp, fun b hb hs hq => hp (h' ?_)⟩
          rw [h] at hs
          exact power_in hw hd hv.2 he.2 (follow_ren form' hl hr) hb hs hq

theorem good_pats {l : List Seg} (h : Good l) : ∀ p ∈ pats l, ∃ w d, p = powText (w, d) ∧
    (w ≠ [] ∧ ∀ c ∈ w, isWord c = true) ∧ d ≠ [] ∧ ∀ c ∈ d, isDigit c = true := by
  induction l with
  | nil => simp [pats]
  | cons s l ih =>
    cases s with
    | chr c => exact ih h.2
    | pat p =>
      intro q hq
      rcases List.mem_cons.1 hq with rfl | hq
      · exact h.1
      · exact ih h.2.2 q hq

/-- All powers are written as products when none comes before one that it is a part of. -/
theorem powers_written {l : List Seg} (h : Good l) {L : List Text} (hL : ∀ p, p ∈ L ↔ p ∈ pats l)
    (ho : L.Pairwise fun p q => p <:+: q → q = p) :
    replaceAll (L.map fun p => (p, prod p)) (ren id l) = ren prod l := by
  refine replaceAll_ren prod L id (fun p hp => ?_) (fun p hp => .inr ⟨rfl, (hL p).2 hp⟩) ?_
  · obtain ⟨w, d, rfl, hw, -⟩ := good_pats h p ((hL p).1 hp)
    simp [powText]
  · intro f old L' hs hf
    obtain ⟨w, d, rfl, hw, hd⟩ := good_pats h old ((hL old).1 (hs.subset (by simp)))
    refine quiet hw hd h fun p hp => (hf p hp).imp id fun q => ⟨q.1, fun hi => ?_⟩
    rcases List.mem_cons.1 q.2 with h1 | h1
    · exact h1
    · exact (List.pairwise_cons.1 (ho.sublist hs.sublist)).1 p h1 hi

/-! ## Calls -/

/-- `pow(w, d)`. -/
def callText (w s d : Text) : Text := 'p' :: 'o' :: 'w' :: '(' :: (w ++ ',' :: (s ++ (d ++ [')'])))

/-- A text cut at its calls. -/
def Plain : List Seg → Prop
  | [] => True
  | .chr c :: l => c ≠ ',' ∧ Plain l
  | .pat p :: l => (∃ w s d, p = callText w s d ∧ (w ≠ [] ∧ ∀ c ∈ w, isWord c = true) ∧
      (∀ c ∈ s, c = ' ') ∧ d ≠ [] ∧ ∀ c ∈ d, isDigit c = true) ∧ Plain l

/-- What comes before the first comma. -/
def Before (r : Text) : Prop := ',' ∉ r ∨
  ∃ t v, (∀ c ∈ v, isWord c = true) ∧ r.takeWhile (· != ',') = t ++ ('p' :: 'o' :: 'w' :: '(' :: v)

theorem no_comma {w : Text} (hw : ∀ c ∈ w, isWord c = true) : ',' ∉ w := fun h => by
  have := hw _ h
  revert this
  decide

theorem takeWhile_all {p : Char → Bool} {a : Text} (r : Text) (ha : ∀ c ∈ a, p c = true) :
    (a ++ r).takeWhile p = a ++ r.takeWhile p := by
  induction a with
  | nil => rfl
  | cons c a ih =>
    simp only [List.mem_cons, forall_eq_or_imp] at ha
    simp [ha.1, ih ha.2]

theorem comma_all {a : Text} (ha : ',' ∉ a) : ∀ c ∈ a, (c != ',') = true := fun c hc => by
  simp only [bne_iff_ne]
  rintro rfl
  exact ha hc

/-- The word at the end. -/
theorem tail_word {w v a : Text} (hw : ∀ c ∈ w, isWord c = true) (hv : ∀ c ∈ v, isWord c = true)
    (h : 'p' :: 'o' :: 'w' :: '(' :: w = a ++ ('p' :: 'o' :: 'w' :: '(' :: v)) : w = v ∧ a = [] := by
  have e := congrArg List.reverse h
  simp only [List.reverse_cons, List.reverse_append, List.append_assoc, List.cons_append,
    List.nil_append] at e
  have par : isWord '(' = false := by decide
  have e1 := takeWhile_split (p := isWord) (w := w.reverse) (r := ['(', 'w', 'o', 'p'])
    (fun c hc => hw c (List.mem_reverse.1 hc)) (by simpa using par)
  have e2 := takeWhile_split (p := isWord) (w := v.reverse) (r := '(' :: 'w' :: 'o' :: 'p' :: a.reverse)
    (fun c hc => hv c (List.mem_reverse.1 hc)) (by simpa using par)
  rw [e] at e1
  have h1 := e1.1.symm.trans e2.1
  have h2 := e1.2.symm.trans e2.2
  refine ⟨List.reverse_injective h1, ?_⟩
  simpa using h2

theorem no_start {w x a r : Text} (hw : ∀ c ∈ w, isWord c = true) (ha : a ≠ []) (hc : ',' ∉ a) (hr : Before r) :
    ¬ 'p' :: 'o' :: 'w' :: '(' :: (w ++ ',' :: x) <+: a ++ r := by
  rintro ⟨t, ht⟩
  have e1 := (takeWhile_split (p := (· != ',')) (w := 'p' :: 'o' :: 'w' :: '(' :: w) (r := ',' :: (x ++ t))
    (comma_all (by simpa using no_comma hw)) (by simp)).1
  have e : 'p' :: 'o' :: 'w' :: '(' :: w ++ ',' :: (x ++ t) = a ++ r := by simpa using ht
  rw [e, takeWhile_all _ (comma_all hc)] at e1
  rcases hr with hr | ⟨s, v, hv, hs⟩
  · have : ',' ∈ a ++ r := by rw [← e]; simp
    simp [hc, hr] at this
  · rw [hs, ← List.append_assoc] at e1
    have := (tail_word hw hv e1.symm).2
    simp [ha] at this

theorem before_ren {f : Text → Text} {l : List Seg} (hl : Plain l) (hf : ∀ p ∈ pats l, ',' ∉ f p ∨ f p = p) :
    Before (ren f l) := by
  have key : ∀ {a r : Text}, ',' ∉ a → Before r → Before (a ++ r) := by
    rintro a r ha (h | ⟨t, v, hv, ht⟩)
    · exact .inl (by simp [ha, h])
    · exact .inr ⟨a ++ t, v, hv, by rw [takeWhile_all _ (comma_all ha), ht, List.append_assoc]⟩
  induction l with
  | nil => exact .inl (by simp [ren])
  | cons s l ih =>
    cases s with
    | chr c => exact key (a := [c]) (by simpa using hl.1.symm) (ih hl.2 hf)
    | pat p =>
      have ih := ih hl.2 fun q hq => hf q (by simp [pats, hq])
      rcases hf p (by simp [pats]) with h | h
      · exact key h ih
      · obtain ⟨⟨w, s, d, rfl, hw, -⟩, -⟩ := hl
        refine .inr ⟨[], w, hw.2, ?_⟩
        simp only [ren]
        rw [h]
        have := (takeWhile_split (p := (· != ',')) (w := 'p' :: 'o' :: 'w' :: '(' :: w)
          (r := ',' :: (s ++ (d ++ ')' :: ren f l))) (comma_all (by simpa using no_comma hw.2)) (by simp)).1
        simpa [callText] using this

/-- Where a call begins in another. -/
theorem call_in {w s d v s' e b r : Text} (hw : ∀ c ∈ w, isWord c = true) (hs : ∀ c ∈ s, c = ' ')
    (hd : d ≠ [] ∧ ∀ c ∈ d, isDigit c = true) (hv : ∀ c ∈ v, isWord c = true) (hs' : ∀ c ∈ s', c = ' ')
    (he : e ≠ [] ∧ ∀ c ∈ e, isDigit c = true) (hr : Before r) (hb : b ≠ []) (hsuf : b <:+ callText v s' e)
    (h : callText w s d <+: b ++ r) : callText w s d = callText v s' e := by
  have e1 : callText v s' e = ('p' :: 'o' :: 'w' :: '(' :: v) ++ ',' :: (s' ++ (e ++ [')'])) := by
    simp [callText]
  rw [e1] at hsuf
  have dig : ∀ c, isDigit c = true → c ≠ ',' ∧ c ≠ ' ' ∧ c ≠ ')' := fun c hc => by
    refine ⟨?_, ?_, ?_⟩ <;> rintro rfl <;> revert hc <;> decide
  rcases suffix_append_cases hsuf with hb' | ⟨v', hv0, ⟨a, ha⟩, rfl⟩
  · rcases List.suffix_cons_iff.1 hb' with rfl | hb'
    · rw [callText, List.cons_append, List.cons_prefix_cons] at h
      exact absurd h.1 (by decide)
    · refine absurd h (no_start hw hb (fun hc => ?_) hr)
      have := hb'.subset hc
      simp only [List.mem_append, List.mem_cons, List.not_mem_nil, or_false] at this
      rcases this with h1 | h1 | h1
      · exact absurd (hs' _ h1) (by decide)
      · exact (dig _ (he.2 _ h1)).1 rfl
      · exact absurd h1 (by decide)
  · have hcv : ',' ∉ v' := fun hc => by
      have : ',' ∈ 'p' :: 'o' :: 'w' :: '(' :: v := by rw [← ha]; simp [hc]
      simp [no_comma hv] at this
    have h' : ('p' :: 'o' :: 'w' :: '(' :: w) ++ (',' :: (s ++ (d ++ [')']))) <+:
        v' ++ (',' :: (s' ++ (e ++ ')' :: r))) := by
      simpa [callText] using h
    obtain ⟨h1, h2⟩ := word_eq (isWord := (· != ',')) (comma_all (by simpa using no_comma hw)) (comma_all hcv)
      (by simp) (by simp) (by simp) h'
    rw [← h1] at ha
    obtain ⟨rfl, -⟩ := tail_word hv hw ha.symm
    rw [List.cons_prefix_cons] at h2
    have hsp : ∀ {d : Text} (t : Text), (d ≠ [] ∧ ∀ c ∈ d, isDigit c = true) →
        ∀ c ∈ (d ++ t).head?, (c == ' ') = false := by
      rintro d t ⟨h1, h2⟩ c hc
      obtain ⟨x, d, rfl⟩ := List.exists_cons_of_ne_nil h1
      simp only [List.cons_append, List.head?_cons, Option.mem_def, Option.some.injEq] at hc
      subst hc
      simpa using (dig _ (h2 _ (by simp))).2.1
    obtain ⟨rfl, h3⟩ := word_eq (isWord := (· == ' ')) (s := d ++ [')']) (fun c hc => by simpa using hs c hc)
      (fun c hc => by simpa using hs' c hc) (by simp) (hsp _ hd) (hsp _ he) h2.2
    have par : isDigit ')' = false := by decide
    obtain ⟨rfl, -⟩ := word_eq (isWord := isDigit) hd.2 he.2 (by simp) (by simpa using par) (by simpa using par) h3
    rfl

/-- What is written for a call. -/
def prodC (p : Text) : Text :=
  match callPair p with
  | .ok q => q.2
  | .error _ => p

theorem plain_pats {l : List Seg} (h : Plain l) : ∀ p ∈ pats l, ∃ w s d, p = callText w s d ∧
    (w ≠ [] ∧ ∀ c ∈ w, isWord c = true) ∧ (∀ c ∈ s, c = ' ') ∧ d ≠ [] ∧ ∀ c ∈ d, isDigit c = true := by
  induction l with
  | nil => simp [pats]
  | cons s l ih =>
    cases s with
    | chr c => exact ih h.2
    | pat p =>
      intro q hq
      rcases List.mem_cons.1 hq with rfl | hq
      · exact h.1
      · exact ih h.2 q hq

theorem quiet_call {f : Text → Text} {w s d : Text} {l : List Seg} (hw : ∀ c ∈ w, isWord c = true)
    (hs : ∀ c ∈ s, c = ' ') (hd : d ≠ [] ∧ ∀ c ∈ d, isDigit c = true) (hl : Plain l)
    (hc : ∀ p ∈ pats l, ',' ∉ prodC p) (hf : ∀ p ∈ pats l, f p = prodC p ∨ f p = p) :
    Quiet f (callText w s d) (prodC (callText w s d)) l := by
  induction l with
  | nil => trivial
  | cons g l ih =>
    cases g with
    | chr c =>
      refine ⟨?_, ih hl.2 hc hf⟩
      refine no_start (a := [c]) hw (by simp) (by simpa using hl.1.symm) (before_ren hl.2 fun p hp => ?_)
      exact (hf p hp).imp (fun h => by rw [h]; exact hc p hp) id
    | pat p =>
      have hc' := fun q (hq : q ∈ pats l) => hc q (by simp [pats, hq])
      have hf' := fun q (hq : q ∈ pats l) => hf q (by simp [pats, hq])
      have hb : Before (ren f l) :=
        before_ren hl.2 fun p hp => (hf' p hp).imp (fun h => by rw [h]; exact hc' p hp) id
      refine ⟨?_, ih hl.2 hc' hf'⟩
      obtain ⟨⟨v, s', e, rfl, hv, hs', he⟩, -⟩ := hl
      rcases hf (callText v s' e) (by simp [pats]) with h | h
      · refine .inr ⟨fun hp => by rw [h, hp], fun b hb0 hs hp => ?_⟩
        refine no_start hw hb0 (fun hm => ?_) hb hp
        rw [h] at hs
        exact hc _ (by simp [pats]) (hs.subset hm)
      · by_cases hp : callText v s' e = callText w s d
        · exact .inl ⟨hp, h.trans hp⟩
        · refine .inr ⟨fun hq => absurd hq hp, fun b hb0 hsuf hq => hp ?_⟩
          rw [h] at hsuf
          exact (call_in hw hs hd hv.2 hs' he hb hb0 hsuf hq).symm

/-- All calls are written as products. -/
theorem calls_written {l : List Seg} (h : Plain l) (hc : ∀ p ∈ pats l, ',' ∉ prodC p) {L : List Text}
    (hL : ∀ p, p ∈ L ↔ p ∈ pats l) :
    replaceAll (L.map fun p => (p, prodC p)) (ren id l) = ren prodC l := by
  refine replaceAll_ren prodC L id (fun p hp => ?_) (fun p hp => .inr ⟨rfl, (hL p).2 hp⟩) ?_
  · obtain ⟨w, s, d, rfl, -⟩ := plain_pats h p ((hL p).1 hp)
    simp [callText]
  · intro f old L' hs hf
    obtain ⟨w, s, d, rfl, hw, hsp, hd⟩ := plain_pats h old ((hL old).1 (hs.subset (by simp)))
    exact quiet_call hw.2 hsp hd h hc fun p hp => (hf p hp).imp id fun q => q.1

theorem matchCall_some {s p r : Text} (h : matchCall s = some (p, r)) :
    ∃ w x, (∀ c ∈ w, isWord c = true) ∧ 'p' :: 'o' :: 'w' :: '(' :: (w ++ ',' :: x) <+: s := by
  unfold matchCall at h
  split at h
  · next t =>
    split at h
    · cases h
    · split at h
      · next u hu =>
        refine ⟨t.takeWhile isWord, u, fun c hc => List.mem_takeWhile_imp hc, ?_⟩
        rw [← hu, List.takeWhile_append_dropWhile]
      · cases h
  · cases h

theorem matchCall_hit {w s d : Text} (r : Text) (hw : w ≠ [] ∧ ∀ c ∈ w, isWord c = true) (hs : ∀ c ∈ s, c = ' ')
    (hd : d ≠ [] ∧ ∀ c ∈ d, isDigit c = true) :
    matchCall (callText w s d ++ r) = some (callText w s d, r) := by
  have e : callText w s d ++ r = 'p' :: 'o' :: 'w' :: '(' :: (w ++ (',' :: (s ++ (d ++ ')' :: r)))) := by
    simp [callText]
  have com : isWord ',' = false := by decide
  have par : isWord ')' = false := by decide
  obtain ⟨t1, t2⟩ := takeWhile_split (p := isWord) (r := ',' :: (s ++ (d ++ ')' :: r))) hw.2 (by simpa using com)
  obtain ⟨t3, t4⟩ := takeWhile_split (p := isSpace) (w := s) (r := d ++ ')' :: r)
    (fun c hc => by rw [hs c hc]; decide) fun c hc => by
      obtain ⟨x, d, rfl⟩ := List.exists_cons_of_ne_nil hd.1
      simp only [List.cons_append, List.head?_cons, Option.mem_def, Option.some.injEq] at hc
      subst hc
      have hx := hd.2 x (by simp)
      by_contra hn
      simp only [isSpace, Bool.not_eq_false, Bool.or_eq_true, beq_iff_eq] at hn
      rcases hn with ((rfl | rfl) | rfl) | rfl <;> revert hx <;> decide
  obtain ⟨t5, t6⟩ := takeWhile_split (p := isWord) (w := d) (r := ')' :: r)
    (fun c hc => word_of_digit (hd.2 c hc)) (by simpa using par)
  rw [e]
  unfold matchCall
  simp only [t1, t2, if_neg hw.1, t3, t4, t5, t6, if_neg hd.1]
  simp [callText]

theorem findCalls_plain {l : List Seg} (h : Plain l) : findCalls (ren id l) = pats l := by
  induction l with
  | nil => simp [ren, findCalls, pats]
  | cons s l ih =>
    cases s with
    | chr c =>
      simp only [ren, pats]
      rw [findCalls]
      split
      · next h' =>
        obtain ⟨w, x, hw, hp⟩ := matchCall_some h'
        exact absurd hp (no_start (a := [c]) hw (by simp) (by simpa using h.1.symm)
          (before_ren h.2 fun _ _ => .inr rfl))
      · exact ih h.2
    | pat p =>
      obtain ⟨⟨w, s, d, rfl, hw, hs, hd⟩, hl⟩ := h
      have hm := matchCall_hit (ren id l) hw hs hd
      simp only [ren, id, pats]
      rw [← ih hl]
      have e : callText w s d ++ ren id l = 'p' :: ('o' :: 'w' :: '(' :: (w ++ ',' :: (s ++ (d ++ ')' :: ren id l)))) := by
        simp [callText]
      rw [e] at hm ⊢
      rw [findCalls]
      split
      · next h => rw [hm] at h; cases h; rfl
      · next h => rw [hm] at h; cases h

/-! ## The pieces of a call -/

theorem splitAux_none {sep : Text} : ∀ {s : Text} (acc : Text), (∀ b, b ≠ [] → b <:+ s → ¬ sep <+: b) →
    splitAux sep acc s = [acc.reverse ++ s]
  | [], acc, _ => by simp [splitAux]
  | c :: s, acc, h => by
    rw [splitAux, if_neg (by rw [List.isPrefixOf_iff_prefix]; exact h _ (by simp) (List.suffix_refl _)),
      splitAux_none _ fun b hb hs => h b hb (hs.trans (List.suffix_cons _ _))]
    simp

theorem splitAux_char {c : Char} : ∀ {a : Text} (acc r : Text), c ∉ a →
    splitAux [c] acc (a ++ c :: r) = (acc.reverse ++ a) :: splitAux [c] [] r
  | [], acc, r, _ => by
    rw [List.nil_append, splitAux, if_pos (by simp)]
    simp
  | x :: a, acc, r, h => by
    simp only [List.mem_cons, not_or] at h
    rw [List.cons_append, splitAux, if_neg (by simp [h.1]), splitAux_char _ _ h.2]
    simp

theorem splitAux_last {c : Char} {a : Text} (acc : Text) (h : c ∉ a) : splitAux [c] acc a = [acc.reverse ++ a] :=
  splitAux_none acc fun b hb hs hp => by
    obtain ⟨t, rfl⟩ := hp
    exact h (hs.subset (by simp))

theorem toInt_digits {s d : Text} (hs : ∀ c ∈ s, c = ' ') (hd : d ≠ [] ∧ ∀ c ∈ d, isDigit c = true) :
    toInt (s ++ d) = .ok (value d) := by
  have sp : ∀ {d : Text}, (∀ c ∈ d, isDigit c = true) → ∀ c ∈ d.head?, isSpace c = false := by
    intro d hd c hc
    have hx := hd c (List.mem_of_mem_head? hc)
    by_contra hn
    simp only [isSpace, Bool.not_eq_false, Bool.or_eq_true, beq_iff_eq] at hn
    rcases hn with ((rfl | rfl) | rfl) | rfl <;> revert hx <;> decide
  have e1 := (takeWhile_split (p := isSpace) (w := s) (r := d) (fun c hc => by rw [hs c hc]; decide) (sp hd.2)).2
  have e2 := (takeWhile_split (p := isSpace) (w := []) (r := d.reverse) (by simp)
    (sp fun c hc => hd.2 c (List.mem_reverse.1 hc))).2
  rw [List.nil_append] at e2
  simp only [toInt, e1, e2, List.reverse_reverse]
  rw [if_pos ⟨hd.1, by rw [List.all_eq_true]; exact hd.2⟩]

/-- What is made of a call. -/
theorem callPair_eq {w s d : Text} (hw : ∀ c ∈ w, isWord c = true) (hp : ¬ ['p', 'o', 'w'] <:+: w)
    (hs : ∀ c ∈ s, c = ' ') (hd : d ≠ [] ∧ ∀ c ∈ d, isDigit c = true) :
    callPair (callText w s d) = .ok (callText w s d, product w (value d)) := by
  have dig : ∀ c, isDigit c = true → c ≠ ',' ∧ c ≠ '(' ∧ c ≠ ')' ∧ c ≠ 'p' := fun c hc => by
    refine ⟨?_, ?_, ?_, ?_⟩ <;> rintro rfl <;> revert hc <;> decide
  have wor : ∀ c, isWord c = true → c ≠ ',' ∧ c ≠ '(' ∧ c ≠ ')' := fun c hc => by
    refine ⟨?_, ?_, ?_⟩ <;> rintro rfl <;> revert hc <;> decide
  have sd : ∀ c ∈ s ++ d, c ≠ ',' ∧ c ≠ '(' ∧ c ≠ ')' ∧ c ≠ 'p' := fun c hc => by
    rcases List.mem_append.1 hc with h | h
    · rw [hs c h]; decide
    · exact dig c (hd.2 c h)
  have s1 : split "pow".toList (callText w s d) = [[], '(' :: (w ++ ',' :: (s ++ (d ++ [')'])))] := by
    have e : "pow".toList = ['p', 'o', 'w'] := rfl
    rw [split, e, callText, splitAux, if_pos (by simp)]
    rw [show (['p', 'o', 'w'] : Text).length - 1 = 2 from rfl]
    simp only [List.drop_succ_cons, List.drop_zero, List.reverse_nil]
    rw [splitAux_none]
    · simp
    · intro b hb hsuf hpre
      have hi : (['p', 'o', 'w'] : Text) <:+: '(' :: (w ++ ',' :: (s ++ (d ++ [')']))) :=
        hpre.isInfix.trans hsuf.isInfix
      rcases infix_sep (a := []) (by decide) hi with h | h
      · exact absurd (List.eq_nil_of_infix_nil h) (by simp)
      · rcases infix_sep (by decide) h with h | h
        · exact hp h
        · have : 'p' ∈ s ++ (d ++ [')']) := h.subset (by simp)
          rw [← List.append_assoc] at this
          rcases List.mem_append.1 this with h | h
          · exact (sd _ h).2.2.2 rfl
          · simp at h
  have s2 : split ['('] ('(' :: (w ++ ',' :: (s ++ (d ++ [')'])))) = [[], w ++ ',' :: (s ++ (d ++ [')']))] := by
    rw [split]
    refine (splitAux_char (c := '(') (a := []) [] (w ++ ',' :: (s ++ (d ++ [')']))) (by simp)).trans ?_
    rw [splitAux_last]
    · simp
    · intro h
      simp only [List.mem_append, List.mem_cons, List.not_mem_nil, or_false] at h
      rcases h with h | h | h | h | h
      · exact (wor _ (hw _ h)).2.1 rfl
      · exact absurd h (by decide)
      · exact (sd _ (List.mem_append_left _ h)).2.1 rfl
      · exact (sd _ (List.mem_append_right _ h)).2.1 rfl
      · exact absurd h (by decide)
  have s3 : split [')'] (w ++ ',' :: (s ++ (d ++ [')']))) = [w ++ ',' :: (s ++ d), []] := by
    have e : w ++ ',' :: (s ++ (d ++ [')'])) = (w ++ ',' :: (s ++ d)) ++ ')' :: [] := by simp
    rw [split, e, splitAux_char]
    · simp [splitAux]
    · intro h
      simp only [List.mem_append, List.mem_cons] at h
      rcases h with h | h | h | h
      · exact (wor _ (hw _ h)).2.2 rfl
      · exact absurd h (by decide)
      · exact (sd _ (List.mem_append_left _ h)).2.2.1 rfl
      · exact (sd _ (List.mem_append_right _ h)).2.2.1 rfl
  have s4 : split [','] (w ++ ',' :: (s ++ d)) = [w, s ++ d] := by
    rw [split, splitAux_char _ _ (no_comma hw), splitAux_last]
    · simp
    · exact fun h => (sd _ h).1 rfl
  have s5 := toInt_digits hs hd
  simp only [callPair, s1, s2, s3, s4, s5, item, bind, Except.bind, pure, Except.pure,
    List.getElem?_cons_zero, List.getElem?_cons_succ]

end Verif.DevL
