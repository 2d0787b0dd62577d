import Mathlib.Tactic.Ring
import Mathlib.Data.List.Sort
import Verif.Proofs.Dev

/-!
# C96: printed powers keep their values

`pow2mult` turns a printed expression into one without powers of words that has the same value.
-/

namespace Verif.C96

open Spec.Printed DevL
open Model.Dev hiding Text

theorem isWord_iff (c : Char) : isWord c = true ↔ c.isAlphanum ∨ c = '_' := by simp [isWord]

theorem word_iff {t : Text} : Word t ↔ t ≠ [] ∧ ∀ c ∈ t, isWord c = true := by
  simp only [Word, isWord_iff]

theorem digits_iff {t : Text} : Digits t ↔ t ≠ [] ∧ ∀ c ∈ t, isDigit c = true := Iff.rfl

/-- `int` reads what is written. -/
theorem value_eq (d : Text) : value d = number d := by
  have key : ∀ (d : Text) (n : ℕ), d.foldl (fun n c => 10 * n + (c.toNat - '0'.toNat)) n
      = n * 10 ^ d.length + number d := by
    intro d
    induction d with
    | nil => simp [number]
    | cons c d ih =>
      intro n
      rw [List.foldl_cons, ih, number, List.length_cons]
      have : '0'.toNat = 48 := rfl
      rw [this]
      ring
  rw [value, key, zero_mul, zero_add]

/-! ## Expanded expressions -/

/-- `w*w*…*w`. -/
def times (w : Text) : ℕ → Ex
  | 0 => .word w
  | n + 1 => .mul (times w n) (.word w)

/-- Powers as products. -/
def expand : Ex → Ex
  | .word t => .word t
  | .dec t u => .dec t u
  | .pow w d => .par (times w (number d - 1))
  | .powCall w s d => .powCall w s d
  | .par e => .par (expand e)
  | .parPow e d => .parPow (expand e) d
  | .call f e => .call f (expand e)
  | .mul a b => .mul (expand a) (expand b)
  | .div a b => .div (expand a) (expand b)
  | .neg a => .neg (expand a)
  | .add a b => .add (expand a) (expand b)
  | .sub a b => .sub (expand a) (expand b)

/-- Calls of `pow` as products. -/
def expandC : Ex → Ex
  | .word t => .word t
  | .dec t u => .dec t u
  | .pow w d => .pow w d
  | .powCall w _ d => .par (times w (number d - 1))
  | .par e => .par (expandC e)
  | .parPow e d => .parPow (expandC e) d
  | .call f e => .call f (expandC e)
  | .mul a b => .mul (expandC a) (expandC b)
  | .div a b => .div (expandC a) (expandC b)
  | .neg a => .neg (expandC a)
  | .add a b => .add (expandC a) (expandC b)
  | .sub a b => .sub (expandC a) (expandC b)

theorem text_times (w : Text) (n : ℕ) :
    text (times w n) = List.intercalate ['*'] (List.replicate (n + 1) w) := by
  have tail : ∀ n, List.intercalate ['*'] (List.replicate (n + 2) w)
      = List.intercalate ['*'] (List.replicate (n + 1) w) ++ '*' :: w := by
    intro n
    induction n with
    | zero => simp [List.intercalate]
    | succ n ih =>
      have h1 := inter_cons w (n + 1)
      rw [ih] at h1
      rw [h1, inter_cons w n]
      simp
  induction n with
  | zero => simp [times, text, List.intercalate]
  | succ n ih => rw [times, text, ih, tail]; rfl

theorem text_product {w : Text} {n : ℕ} (hn : 1 ≤ n) : text (.par (times w (n - 1))) = product w n := by
  obtain ⟨k, rfl⟩ : ∃ k, n = k + 1 := ⟨n - 1, by omega⟩
  rw [text, text_times]
  rfl

section
variable {K : Type*} [Field K]

theorem eval_times (ν : Meaning K) (w : Text) (n : ℕ) : eval ν (times w n) = ν.word w ^ (n + 1) := by
  induction n with
  | zero => simp [times, eval]
  | succ n ih => rw [times, eval, ih, eval, pow_succ _ (n + 1)]

theorem eval_expand (ν : Meaning K) {e : Ex} {n : ℕ} (h : Reads n e) : eval ν (expand e) = eval ν e := by
  induction e generalizing n with
  | word t => rfl
  | dec t u => rfl
  | pow w d =>
    obtain ⟨k, hk⟩ : ∃ k, number d = k + 1 := ⟨number d - 1, by have := h.2.2; omega⟩
    simp only [expand, eval, eval_times, hk, Nat.add_sub_cancel]
  | powCall w s d => rfl
  | par e ih => exact ih h
  | parPow e d ih => simp only [expand, eval, ih h.1]
  | call f e ih => simp only [expand, eval, ih h.2]
  | mul a b iha ihb => simp only [expand, eval, iha h.2.1, ihb h.2.2]
  | div a b iha ihb => simp only [expand, eval, iha h.2.1, ihb h.2.2]
  | neg a iha => simp only [expand, eval, iha h.2]
  | add a b iha ihb => simp only [expand, eval, iha h.2.1, ihb h.2.2]
  | sub a b iha ihb => simp only [expand, eval, iha h.2.1, ihb h.2.2]

theorem eval_expandC (ν : Meaning K) {e : Ex} {n : ℕ} (h : Reads n e) : eval ν (expandC e) = eval ν e := by
  induction e generalizing n with
  | word t => rfl
  | dec t u => rfl
  | pow w d => rfl
  | powCall w s d =>
    obtain ⟨k, hk⟩ : ∃ k, number d = k + 1 := ⟨number d - 1, by have := h.2.2.2.2; omega⟩
    simp only [expandC, eval, eval_times, hk, Nat.add_sub_cancel]
  | par e ih => exact ih h
  | parPow e d ih => simp only [expandC, eval, ih h.1]
  | call f e ih => simp only [expandC, eval, ih h.2]
  | mul a b iha ihb => simp only [expandC, eval, iha h.2.1, ihb h.2.2]
  | div a b iha ihb => simp only [expandC, eval, iha h.2.1, ihb h.2.2]
  | neg a iha => simp only [expandC, eval, iha h.2]
  | add a b iha ihb => simp only [expandC, eval, iha h.2.1, ihb h.2.2]
  | sub a b iha ihb => simp only [expandC, eval, iha h.2.1, ihb h.2.2]

end

theorem reads_mono {e : Ex} {n m : ℕ} (hnm : n ≤ m) (h : Reads n e) : Reads m e := by
  cases e <;> simp only [Reads] at h ⊢ <;> first | exact h | exact ⟨by omega, h.2⟩

theorem reads_times {w : Text} (hw : Word w) (n : ℕ) : Reads 1 (times w n) := by
  induction n with
  | zero => exact hw
  | succ n ih => exact ⟨le_rfl, ih, hw⟩

theorem reads_expand {e : Ex} {n : ℕ} (h : Reads n e) : Reads n (expand e) := by
  induction e generalizing n with
  | word t => exact h
  | dec t u => exact h
  | pow w d => exact reads_mono (m := 2) (by omega) (reads_times h.1 _)
  | powCall w s d => exact h
  | par e ih => exact ih (n := 2) h
  | parPow e d ih => exact ⟨ih h.1, h.2⟩
  | call f e ih => exact ⟨h.1, ih h.2⟩
  | mul a b iha ihb => exact ⟨h.1, iha h.2.1, ihb h.2.2⟩
  | div a b iha ihb => exact ⟨h.1, iha h.2.1, ihb h.2.2⟩
  | neg a iha => exact ⟨h.1, iha h.2⟩
  | add a b iha ihb => exact ⟨h.1, iha h.2.1, ihb h.2.2⟩
  | sub a b iha ihb => exact ⟨h.1, iha h.2.1, ihb h.2.2⟩

theorem reads_expandC {e : Ex} {n : ℕ} (h : Reads n e) : Reads n (expandC e) := by
  induction e generalizing n with
  | word t => exact h
  | dec t u => exact h
  | pow w d => exact h
  | powCall w s d => exact reads_mono (m := 2) (by omega) (reads_times h.1 _)
  | par e ih => exact ih (n := 2) h
  | parPow e d ih => exact ⟨ih h.1, h.2⟩
  | call f e ih => exact ⟨h.1, ih h.2⟩
  | mul a b iha ihb => exact ⟨h.1, iha h.2.1, ihb h.2.2⟩
  | div a b iha ihb => exact ⟨h.1, iha h.2.1, ihb h.2.2⟩
  | neg a iha => exact ⟨h.1, iha h.2⟩
  | add a b iha ihb => exact ⟨h.1, iha h.2.1, ihb h.2.2⟩
  | sub a b iha ihb => exact ⟨h.1, iha h.2.1, ihb h.2.2⟩

theorem powers_times (w : Text) (n : ℕ) : powers (times w n) = [] ∧ calls (times w n) = [] := by
  induction n with
  | zero => exact ⟨rfl, rfl⟩
  | succ n ih => simp [times, powers, calls, ih]

theorem powers_expand (e : Ex) : powers (expand e) = [] ∧ calls (expand e) = calls e := by
  induction e <;> simp [expand, powers, calls, powers_times, *]

theorem powers_expandC (e : Ex) : powers (expandC e) = powers e ∧ calls (expandC e) = [] := by
  induction e <;> simp [expandC, powers, calls, powers_times, *]

/-! ## Pieces -/

/-- The text cut at its powers. -/
def segs : Ex → List Seg
  | .word t => chrs t
  | .dec t u => chrs t ++ .chr '.' :: chrs u
  | .pow w d => [.pat (powText (w, d))]
  | .powCall w s d => .chr 'p' :: .chr 'o' :: .chr 'w' :: .chr '(' :: (chrs w ++ .chr ',' :: (chrs s ++ (chrs d ++ [.chr ')'])))
  | .par e => .chr '(' :: (segs e ++ [.chr ')'])
  | .parPow e d => .chr '(' :: (segs e ++ .chr ')' :: .chr '*' :: .chr '*' :: chrs d)
  | .call f e => chrs f ++ .chr '(' :: (segs e ++ [.chr ')'])
  | .mul a b => segs a ++ .chr '*' :: segs b
  | .div a b => segs a ++ .chr '/' :: segs b
  | .neg a => .chr '-' :: segs a
  | .add a b => segs a ++ .chr ' ' :: .chr '+' :: .chr ' ' :: segs b
  | .sub a b => segs a ++ .chr ' ' :: .chr '-' :: .chr ' ' :: segs b

/-- The text cut at its calls of `pow`. -/
def segsC : Ex → List Seg
  | .word t => chrs t
  | .dec t u => chrs t ++ .chr '.' :: chrs u
  | .pow w d => chrs w ++ .chr '*' :: .chr '*' :: chrs d
  | .powCall w s d => [.pat (callText w s d)]
  | .par e => .chr '(' :: (segsC e ++ [.chr ')'])
  | .parPow e d => .chr '(' :: (segsC e ++ .chr ')' :: .chr '*' :: .chr '*' :: chrs d)
  | .call f e => chrs f ++ .chr '(' :: (segsC e ++ [.chr ')'])
  | .mul a b => segsC a ++ .chr '*' :: segsC b
  | .div a b => segsC a ++ .chr '/' :: segsC b
  | .neg a => .chr '-' :: segsC a
  | .add a b => segsC a ++ .chr ' ' :: .chr '+' :: .chr ' ' :: segsC b
  | .sub a b => segsC a ++ .chr ' ' :: .chr '-' :: .chr ' ' :: segsC b

theorem ren_segs (e : Ex) : ren id (segs e) = text e := by
  induction e <;> simp [segs, text, ren, ren_append, ren_chrs, powText, *]

theorem ren_segsC (e : Ex) : ren id (segsC e) = text e := by
  induction e <;> simp [segsC, text, ren, ren_append, ren_chrs, callText, *]

theorem pats_segs (e : Ex) : pats (segs e) = (powers e).map powText := by
  induction e <;> simp [segs, powers, pats, pats_append, pats_chrs, *]

theorem pats_segsC (e : Ex) : pats (segsC e) = (calls e).map fun q => callText q.1 q.2.1 q.2.2 := by
  induction e <;> simp [segsC, calls, pats, pats_append, pats_chrs, *]

theorem ren_expand {e : Ex} {n : ℕ} (h : Reads n e) : ren prod (segs e) = text (expand e) := by
  induction e generalizing n with
  | word t => simp [segs, ren_chrs, expand, text]
  | dec t u => simp [segs, ren_chrs, ren_append, ren, expand, text]
  | pow w d =>
    rw [expand, text_product h.2.2]
    simp [segs, ren, prod, parts_pow (word_iff.1 h.1).2, value_eq]
  | powCall w s d => simp [segs, ren_chrs, ren_append, ren, expand, text]
  | par e ih => simp [segs, ren_append, ren, expand, text, ih (n := 2) h]
  | parPow e d ih => simp [segs, ren_append, ren, ren_chrs, expand, text, ih h.1]
  | call f e ih => simp [segs, ren_append, ren, ren_chrs, expand, text, ih h.2]
  | mul a b iha ihb => simp [segs, ren_append, ren, expand, text, iha h.2.1, ihb h.2.2]
  | div a b iha ihb => simp [segs, ren_append, ren, expand, text, iha h.2.1, ihb h.2.2]
  | neg a iha => simp [segs, ren, expand, text, iha h.2]
  | add a b iha ihb => simp [segs, ren_append, ren, expand, text, iha h.2.1, ihb h.2.2]
  | sub a b iha ihb => simp [segs, ren_append, ren, expand, text, iha h.2.1, ihb h.2.2]

theorem prodC_eq {w s d : Text} {n : ℕ} (h : Reads n (.powCall w s d)) :
    callPair (callText w s d) = .ok (callText w s d, product w (number d)) ∧
      prodC (callText w s d) = product w (number d) := by
  have := callPair_eq (word_iff.1 h.1).2 h.2.1 h.2.2.1 (digits_iff.1 h.2.2.2.1)
  rw [value_eq] at this
  exact ⟨this, by rw [prodC, this]⟩

theorem ren_expandC {e : Ex} {n : ℕ} (h : Reads n e) : ren prodC (segsC e) = text (expandC e) := by
  induction e generalizing n with
  | word t => simp [segsC, ren_chrs, expandC, text]
  | dec t u => simp [segsC, ren_chrs, ren_append, ren, expandC, text]
  | pow w d => simp [segsC, ren_chrs, ren_append, ren, expandC, text]
  | powCall w s d =>
    rw [expandC, text_product h.2.2.2.2]
    simp [segsC, ren, (prodC_eq h).2]
  | par e ih => simp [segsC, ren_append, ren, expandC, text, ih (n := 2) h]
  | parPow e d ih => simp [segsC, ren_append, ren, ren_chrs, expandC, text, ih h.1]
  | call f e ih => simp [segsC, ren_append, ren, ren_chrs, expandC, text, ih h.2]
  | mul a b iha ihb => simp [segsC, ren_append, ren, expandC, text, iha h.2.1, ihb h.2.2]
  | div a b iha ihb => simp [segsC, ren_append, ren, expandC, text, iha h.2.1, ihb h.2.2]
  | neg a iha => simp [segsC, ren, expandC, text, iha h.2]
  | add a b iha ihb => simp [segsC, ren_append, ren, expandC, text, iha h.2.1, ihb h.2.2]
  | sub a b iha ihb => simp [segsC, ren_append, ren, expandC, text, iha h.2.1, ihb h.2.2]

/-! ## The pieces are where they should be -/

theorem follow_cons {c : Char} (h : isWord c = false) (hs : c ≠ '*') (r : Text) : Follow (c :: r) :=
  ⟨by simpa using h, fun hp => by rw [List.cons_prefix_cons] at hp; exact hs hp.1.symm⟩

theorem good_chr {c : Char} (h : isWord c = false) {k : List Seg} (hk : Good k) : Good (.chr c :: k) :=
  ⟨not_word h _, hk⟩

theorem good_word {w : Text} (hw : ∀ c ∈ w, isWord c = true) {k : List Seg} (hk : Good k)
    (hf : Follow (ren id k)) : Good (chrs w ++ k) := by
  induction w with
  | nil => exact hk
  | cons c w ih =>
    refine ⟨?_, ih fun x hx => hw x (List.mem_cons_of_mem _ hx)⟩
    rintro ⟨v, x, hv, hva, -, hp⟩
    have e : c :: ren id (w.map .chr ++ k) = (c :: w) ++ ren id k := by
      have := ren_chrs id w
      unfold chrs at this
      rw [ren_append, this, List.cons_append]
    replace hp : v ++ ['*', '*', x] <+: (c :: w) ++ ren id k := e ▸ hp
    have star : isWord '*' = false := by decide
    obtain ⟨-, h2⟩ := word_eq (isWord := isWord) hva hw (by simp) (by simpa using star) hf.1 hp
    exact hf.2 (List.IsPrefix.trans ⟨[x], rfl⟩ h2)

/-- No factor begins with a star. -/
theorem head_ne {e : Ex} {n : ℕ} (h : Reads n e) : ∃ c t, text e = c :: t ∧ c ≠ '*' := by
  have hw : ∀ {w : Text}, Word w → ∃ c t, w = c :: t ∧ c ≠ '*' := fun {w} hw => by
    obtain ⟨c, t, rfl⟩ := List.exists_cons_of_ne_nil hw.1
    refine ⟨c, t, rfl, ?_⟩
    rintro rfl
    have := (word_iff.1 hw).2 '*' (by simp)
    revert this
    decide
  have app : ∀ {s : Text} (r : Text), (∃ c t, s = c :: t ∧ c ≠ '*') → ∃ c t, s ++ r = c :: t ∧ c ≠ '*' := by
    rintro s r ⟨c, t, rfl, h⟩
    exact ⟨c, t ++ r, rfl, h⟩
  induction e generalizing n with
  | word t => exact hw h
  | dec t u => exact app _ (hw ⟨h.1.1, fun c hc => (isWord_iff c).1 (word_of_digit (h.1.2 c hc))⟩)
  | pow w d => exact app _ (hw h.1)
  | powCall w s d => exact ⟨_, _, rfl, by decide⟩
  | par e ih => exact ⟨_, _, rfl, by decide⟩
  | parPow e d ih => exact ⟨_, _, rfl, by decide⟩
  | call f e ih => exact app _ (hw h.1)
  | mul a b iha ihb => exact app _ (iha h.2.1)
  | div a b iha ihb => exact app _ (iha h.2.1)
  | neg a iha => exact ⟨_, _, rfl, by decide⟩
  | add a b iha ihb => exact app _ (iha h.2.1)
  | sub a b iha ihb => exact app _ (iha h.2.1)

theorem good_segs {e : Ex} {n : ℕ} (h : Reads n e) {k : List Seg} (hk : Good k) (hf : Follow (ren id k)) :
    Good (segs e ++ k) := by
  have dw : ∀ {d : Text}, Digits d → ∀ c ∈ d, isWord c = true := fun hd c hc => word_of_digit (hd.2 c hc)
  induction e generalizing n k with
  | word t => exact good_word (word_iff.1 h).2 hk hf
  | dec t u =>
    simp only [segs, List.append_assoc, List.cons_append]
    exact good_word (dw h.1) (good_chr (by decide) (good_word (dw h.2) hk hf)) (follow_cons (by decide) (by decide) _)
  | pow w d => exact ⟨⟨w, d, rfl, word_iff.1 h.1, digits_iff.1 h.2.1⟩, hf, hk⟩
  | powCall w s d =>
    obtain ⟨h1, -, h2, h3, -⟩ := h
    simp only [segs, List.append_assoc, List.cons_append, List.nil_append]
    have hp := good_word (w := ['p', 'o', 'w']) (k := .chr '(' :: (chrs w ++ .chr ',' :: (chrs s ++ (chrs d ++ .chr ')' :: k))))
      (by decide) (good_chr (by decide) (good_word (word_iff.1 h1).2 (good_chr (by decide) ?_)
        (follow_cons (by decide) (by decide) _))) (follow_cons (by decide) (by decide) _)
    · simpa [chrs] using hp
    · have hd := good_word (dw h3) (good_chr (c := ')') (by decide) hk) (follow_cons (by decide) (by decide) _)
      clear h1
      induction s with
      | nil => exact hd
      | cons c s ih =>
        rw [h2 c (by simp)]
        exact good_chr (by decide) (ih fun x hx => h2 x (List.mem_cons_of_mem _ hx))
  | par e ih =>
    simp only [segs, List.append_assoc, List.cons_append, List.nil_append]
    exact good_chr (by decide) (ih (n := 2) h (good_chr (by decide) hk) (follow_cons (by decide) (by decide) _))
  | parPow e d ih =>
    simp only [segs, List.append_assoc, List.cons_append]
    exact good_chr (by decide) (ih h.1 (good_chr (by decide) (good_chr (by decide) (good_chr (by decide)
      (good_word (dw h.2) hk hf)))) (follow_cons (by decide) (by decide) _))
  | call f e ih =>
    simp only [segs, List.append_assoc, List.cons_append, List.nil_append]
    exact good_word (word_iff.1 h.1).2 (good_chr (by decide) (ih h.2 (good_chr (by decide) hk)
      (follow_cons (by decide) (by decide) _))) (follow_cons (by decide) (by decide) _)
  | mul a b iha ihb =>
    simp only [segs, List.append_assoc, List.cons_append]
    refine iha h.2.1 (good_chr (by decide) (ihb h.2.2 hk hf)) ⟨by simp [ren]; decide, fun hp => ?_⟩
    obtain ⟨c, t, ht, hc⟩ := head_ne h.2.2
    simp only [ren, ren_append, ren_segs, ht, List.cons_append, List.cons_prefix_cons] at hp
    exact hc hp.2.1.symm
  | div a b iha ihb =>
    simp only [segs, List.append_assoc, List.cons_append]
    exact iha h.2.1 (good_chr (by decide) (ihb h.2.2 hk hf)) (follow_cons (by decide) (by decide) _)
  | neg a iha => exact good_chr (by decide) (iha h.2 hk hf)
  | add a b iha ihb =>
    simp only [segs, List.append_assoc, List.cons_append]
    exact iha h.2.1 (good_chr (by decide) (good_chr (by decide) (good_chr (by decide) (ihb h.2.2 hk hf))))
      (follow_cons (by decide) (by decide) _)
  | sub a b iha ihb =>
    simp only [segs, List.append_assoc, List.cons_append]
    exact iha h.2.1 (good_chr (by decide) (good_chr (by decide) (good_chr (by decide) (ihb h.2.2 hk hf))))
      (follow_cons (by decide) (by decide) _)

theorem good {e : Ex} {n : ℕ} (h : Reads n e) : Good (segs e) := by
  simpa using good_segs h (k := []) trivial ⟨by simp [ren], by simp [ren]⟩

theorem plain_chrs {t : Text} (ht : ',' ∉ t) {k : List Seg} (hk : Plain k) : Plain (chrs t ++ k) := by
  induction t with
  | nil => exact hk
  | cons c t ih =>
    simp only [List.mem_cons, not_or] at ht
    exact ⟨fun h => ht.1 h.symm, ih ht.2⟩

theorem plain_segs {e : Ex} {n : ℕ} (h : Reads n e) {k : List Seg} (hk : Plain k) : Plain (segsC e ++ k) := by
  have ww : ∀ {w : Text}, Word w → ',' ∉ w := fun hw => no_comma (word_iff.1 hw).2
  have dw : ∀ {d : Text}, Digits d → ',' ∉ d := fun hd => no_comma fun c hc => word_of_digit (hd.2 c hc)
  induction e generalizing n k with
  | word t => exact plain_chrs (ww h) hk
  | dec t u =>
    simp only [segsC, List.append_assoc, List.cons_append]
    exact plain_chrs (dw h.1) ⟨by decide, plain_chrs (dw h.2) hk⟩
  | pow w d =>
    simp only [segsC, List.append_assoc, List.cons_append]
    exact plain_chrs (ww h.1) ⟨by decide, by decide, plain_chrs (dw h.2.1) hk⟩
  | powCall w s d => exact ⟨⟨w, s, d, rfl, word_iff.1 h.1, h.2.2.1, digits_iff.1 h.2.2.2.1⟩, hk⟩
  | par e ih =>
    simp only [segsC, List.append_assoc, List.cons_append, List.nil_append]
    exact ⟨by decide, ih (n := 2) h ⟨by decide, hk⟩⟩
  | parPow e d ih =>
    simp only [segsC, List.append_assoc, List.cons_append]
    exact ⟨by decide, ih h.1 ⟨by decide, by decide, by decide, plain_chrs (dw h.2) hk⟩⟩
  | call f e ih =>
    simp only [segsC, List.append_assoc, List.cons_append, List.nil_append]
    exact plain_chrs (ww h.1) ⟨by decide, ih h.2 ⟨by decide, hk⟩⟩
  | mul a b iha ihb =>
    simp only [segsC, List.append_assoc, List.cons_append]
    exact iha h.2.1 ⟨by decide, ihb h.2.2 hk⟩
  | div a b iha ihb =>
    simp only [segsC, List.append_assoc, List.cons_append]
    exact iha h.2.1 ⟨by decide, ihb h.2.2 hk⟩
  | neg a iha => exact ⟨by decide, iha h.2 hk⟩
  | add a b iha ihb =>
    simp only [segsC, List.append_assoc, List.cons_append]
    exact iha h.2.1 ⟨by decide, by decide, by decide, ihb h.2.2 hk⟩
  | sub a b iha ihb =>
    simp only [segsC, List.append_assoc, List.cons_append]
    exact iha h.2.1 ⟨by decide, by decide, by decide, ihb h.2.2 hk⟩

theorem plain {e : Ex} {n : ℕ} (h : Reads n e) : Plain (segsC e) := by
  simpa using plain_segs h (k := []) trivial

/-! ## The two passes -/

theorem pairs_eq {e : Ex} {n : ℕ} (h : Reads n e) :
    (findPows (text e)).map powPair = (pats (segs e)).map fun p => (p, prod p) := by
  rw [← ren_segs, findPows_good (good h), List.map_map]
  refine List.map_congr_left fun p hp => ?_
  obtain ⟨w, d, rfl, hw, -⟩ := good_pats (good h) p hp
  simp [powPair, prod, parts_pow hw.2]

/-- Longer texts first. -/
theorem longFirst_sorted (l : List (Text × Text)) :
    (longFirst l).Pairwise fun p q => q.1.length ≤ p.1.length := by
  unfold longFirst
  rw [List.pairwise_reverse]
  have := List.pairwise_mergeSort (le := fun p q : Text × Text => decide (p.1.length ≤ q.1.length))
    (by simp only [decide_eq_true_eq]; intro a b c h1 h2; omega)
    (by simp only [Bool.or_eq_true, decide_eq_true_eq]; intro a b; omega) l
  simpa using this

theorem first {e : Ex} {n : ℕ} (h : Reads n e) :
    replaceAll (longFirst ((findPows (text e)).map powPair)) (text e) = text (expand e) := by
  rw [pairs_eq h]
  obtain ⟨X, hX⟩ : ∃ X, (pats (segs e)).map (fun p => (p, prod p)) = X := ⟨_, rfl⟩
  rw [hX]
  have mem : ∀ x, x ∈ longFirst X ↔ x ∈ X := fun x => by simp [longFirst]
  have hL : longFirst X = ((longFirst X).map Prod.fst).map fun p => (p, prod p) := by
    rw [List.map_map]
    refine (List.map_id _).symm.trans (List.map_congr_left fun x hx => ?_)
    rw [mem, ← hX, List.mem_map] at hx
    obtain ⟨p, -, rfl⟩ := hx
    rfl
  rw [hL, ← ren_expand h]
  conv_lhs => rw [← ren_segs]
  refine powers_written (good h) (fun p => ?_) ?_
  · simp only [List.mem_map, mem]
    rw [← hX]
    simp only [List.mem_map]
    constructor
    · rintro ⟨x, ⟨q, hq, rfl⟩, rfl⟩
      exact hq
    · exact fun hp => ⟨_, ⟨p, hp, rfl⟩, rfl⟩
  · rw [List.pairwise_map]
    exact (longFirst_sorted X).imp fun {p q} hpq hi => (hi.eq_of_length_le hpq).symm

theorem calls_reads {e : Ex} {n : ℕ} (h : Reads n e) : ∀ q ∈ calls e, Reads 0 (.powCall q.1 q.2.1 q.2.2) := by
  induction e generalizing n with
  | word t => simp [calls]
  | dec t u => simp [calls]
  | pow w d => simp [calls]
  | powCall w s d => intro q hq; rw [calls, List.mem_singleton] at hq; subst hq; exact h
  | par e ih => exact ih (n := 2) h
  | parPow e d ih => exact ih h.1
  | call f e ih => exact ih h.2
  | mul a b iha ihb => intro q hq; exact (List.mem_append.1 hq).elim (iha h.2.1 q) (ihb h.2.2 q)
  | div a b iha ihb => intro q hq; exact (List.mem_append.1 hq).elim (iha h.2.1 q) (ihb h.2.2 q)
  | neg a iha => exact iha h.2
  | add a b iha ihb => intro q hq; exact (List.mem_append.1 hq).elim (iha h.2.1 q) (ihb h.2.2 q)
  | sub a b iha ihb => intro q hq; exact (List.mem_append.1 hq).elim (iha h.2.1 q) (ihb h.2.2 q)

theorem second {e : Ex} {n : ℕ} (h : Reads n e) :
    (findCalls (text e)).mapM callPair = .ok ((pats (segsC e)).map fun p => (p, prodC p)) := by
  rw [← ren_segsC, findCalls_plain (plain h)]
  have hc := calls_reads h
  rw [pats_segsC]
  generalize calls e = l at hc
  induction l with
  | nil => rfl
  | cons q l ih =>
    have h1 := prodC_eq (hc q (by simp))
    rw [List.map_cons, List.mapM_cons, h1.1, List.map_cons, h1.2]
    rw [ih fun x hx => hc x (List.mem_cons_of_mem _ hx)]
    rfl

theorem prodC_comma {e : Ex} {n : ℕ} (h : Reads n e) : ∀ p ∈ pats (segsC e), ',' ∉ prodC p := by
  intro p hp
  rw [pats_segsC, List.mem_map] at hp
  obtain ⟨⟨w, t, d⟩, hq, rfl⟩ := hp
  have hr := calls_reads h _ hq
  rw [(prodC_eq hr).2]
  have hw := no_comma (word_iff.1 hr.1).2
  have key : ∀ n, ',' ∉ List.intercalate ['*'] (List.replicate n w) := by
    intro n
    induction n with
    | zero => simp [List.intercalate]
    | succ n ih =>
      cases n with
      | zero => simpa [List.intercalate] using hw
      | succ n => rw [inter_cons]; simp [hw, ih]
  simp [product, key]

/-- **C96.**  The text returned is that of an expression without powers of words, with the same value whatever
the words, the decimals and the functions mean. -/
theorem pow2mult_value {e : Ex} (h : Reads 2 e) : ∃ e', pow2mult (text e) = .ok (text e') ∧ Reads 2 e' ∧
    powers e' = [] ∧ calls e' = [] ∧ ∀ {K : Type} [Field K] (ν : Meaning K), eval ν e' = eval ν e := by
  have h' := reads_expand h
  refine ⟨expandC (expand e), ?_, reads_expandC h', ?_, (powers_expandC _).2, fun ν => ?_⟩
  · have hp : pats (segsC e) = pats (segsC (expand e)) := by rw [pats_segsC, pats_segsC, (powers_expand e).2]
    have e1 := calls_written (plain h') (prodC_comma h') fun p => Iff.rfl
    rw [ren_segsC, ren_expandC h', ← hp] at e1
    simp only [pow2mult, first h, second h, bind, Except.bind, pure, Except.pure, e1]
  · rw [(powers_expandC _).1, (powers_expand e).1]
  · rw [eval_expandC ν h', eval_expand ν h]

/-- The powers in `mprint_as_array`: replaced in the order found.  It works when none of them is a part of a
later one. -/
theorem array_value_partial {e : Ex} (h : Reads 2 e)
    (ho : (powers e).Pairwise fun p q => powText p <:+: powText q → powText q = powText p) :
    ∃ e', arrayPows (text e) = text e' ∧ Reads 2 e' ∧ powers e' = [] ∧
      ∀ {K : Type} [Field K] (ν : Meaning K), eval ν e' = eval ν e := by
  refine ⟨expand e, ?_, reads_expand h, (powers_expand e).1, fun ν => eval_expand ν h⟩
  rw [arrayPows, pairs_eq h, ← ren_expand h]
  conv_lhs => rw [← ren_segs]
  refine powers_written (good h) (fun p => Iff.rfl) ?_
  rw [pats_segs, List.pairwise_map]
  exact ho

/-! ## Examples -/

/-- `-x**12*ax**1 + pow(x, 3)/(x**2 - 1.5)**2`. -/
def ex : Ex :=
  .add (.neg (.mul (.pow ['x'] ['1', '2']) (.pow ['a', 'x'] ['1'])))
    (.div (.powCall ['x'] [' '] ['3']) (.parPow (.sub (.pow ['x'] ['2']) (.dec ['1'] ['5'])) ['2']))

theorem ex_reads : Reads 2 ex := by
  simp [ex, Reads, Word, Digits, Spaces, number]
  decide

example : ∃ e', pow2mult "-x**12*ax**1 + pow(x, 3)/(x**2 - 1.5)**2".toList = .ok (text e') ∧ Reads 2 e' ∧
    powers e' = [] ∧ calls e' = [] ∧ ∀ {K : Type} [Field K] (ν : Meaning K), eval ν e' = eval ν ex :=
  pow2mult_value ex_reads

/-- `ax**2*x**2`. -/
def right : Ex := .mul (.pow ['a', 'x'] ['2']) (.pow ['x'] ['2'])

example : ∃ e', arrayPows "ax**2*x**2".toList = text e' ∧ Reads 2 e' ∧ powers e' = [] ∧
    ∀ {K : Type} [Field K] (ν : Meaning K), eval ν e' = eval ν right :=
  array_value_partial (e := right) (by simp [right, Reads, Word, Digits, number])
    (by simp [right, powers, powText, List.infix_cons_iff])

/-! ## Where it goes wrong -/

/-- `x**2*ax**2`. -/
def wrong : Ex := .mul (.pow ['x'] ['2']) (.pow ['a', 'x'] ['2'])

/-- What `mprint_as_array` makes of it: `(x*x)*a(x*x)`. -/
def spoiled : Ex := .mul (.par (times ['x'] 1)) (.call ['a'] (times ['x'] 1))

theorem wrong_reads : Reads 2 wrong := by
  simp [wrong, Reads, Word, Digits, number]

/-- **A power that is a part of a later one spoils it** in `mprint_as_array`: the text returned is another
expression. -/
theorem array_spoils : Reads 2 wrong ∧ Reads 2 spoiled ∧ arrayPows (text wrong) = text spoiled ∧
    ∃ ν : Meaning ℚ, eval ν spoiled ≠ eval ν wrong := by
  refine ⟨wrong_reads, ?_, ?_, ⟨fun _ => 1, fun _ _ => 0, fun _ _ => 0⟩, ?_⟩
  · simp [spoiled, Reads, times, Word]
  · rw [arrayPows, pairs_eq wrong_reads]
    simp [wrong, spoiled, segs, pats, text, times, replaceAll, replace, prod, parts, powText, product, value,
      isWord, List.intercalate]
  · simp [spoiled, wrong, eval, times]

/-- `1.5**2` becomes `1.(5*5)`: the base of a power has to be a word. -/
theorem decimal_spoiled : pow2mult "1.5**2".toList = .ok "1.(5*5)".toList := by
  show pow2mult ['1', '.', '5', '*', '*', '2'] = .ok ['1', '.', '(', '5', '*', '5', ')']
  decide +kernel

/-- `x**0` becomes `()`. -/
theorem zero_spoiled : pow2mult "x**0".toList = .ok "()".toList := by
  show pow2mult ['x', '*', '*', '0'] = .ok ['(', ')']
  decide +kernel

/-- `pow` in the name of the base: an exception. -/
theorem name_refused : pow2mult "pow(xpow, 2)".toList = .error .valueError := by
  show pow2mult ['p', 'o', 'w', '(', 'x', 'p', 'o', 'w', ',', ' ', '2', ')'] = .error .valueError
  decide +kernel

/-- Exponents that are not numbers: an exception. -/
theorem symbol_refused : pow2mult "pow(x, n)".toList = .error .valueError := by
  show pow2mult ['p', 'o', 'w', '(', 'x', ',', ' ', 'n', ')'] = .error .valueError
  decide +kernel

end Verif.C96
