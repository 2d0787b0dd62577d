import Verif.Model.Bay
import Verif.Spec.Near
import Verif.Basic.Exc
import Verif.Props.C46

/-!
# C51: panels of a new stiffener

What is found for every station is `search` and `search_fails`.  The claim holds for stations that
`np.isclose` separates from both edges of the bay (`interior_partial`, `interior_fails_partial`).  It is violated at the edges, where a stiffener is
attached twice to one panel, and near them, where it is attached twice to one panel although a pair
exists.
-/

set_option linter.unusedSectionVars false

namespace Verif.C51

open Model Spec

variable {K : Type} [Field K] [LinearOrder K]

/-- Panel number `i` ends at `y` and is the last one in the list that does. -/
def LastEnd (B : Bay K) (y : K) (i : ℕ) : Prop :=
  (∃ p, B.panels[i]? = some p ∧ p.pan.y2 = y) ∧
    ∀ k p, i < k → B.panels[k]? = some p → p.pan.y2 ≠ y

/-- Panel number `j` starts at `y` and is the last one in the list that does. -/
def LastStart (B : Bay K) (y : K) (j : ℕ) : Prop :=
  (∃ p, B.panels[j]? = some p ∧ p.pan.y1 = y) ∧
    ∀ k p, j < k → B.panels[k]? = some p → p.pan.y1 ≠ y

/-- Last position in a list with a property, counted from `i`; `st` if there is none. -/
def lastIdx (P : Shell K → Prop) [DecidablePred P] : ℕ → List (Shell K) → Option ℕ → Option ℕ
  | _, [], st => st
  | i, p :: ps, st => lastIdx P (i + 1) ps (if P p then some i else st)

theorem isclose_iff (x y : K) : isclose x y = true ↔ Near x y := by
  simp only [isclose, Near, decide_eq_true_eq]

/-- The station is at an edge of the bay, and the panel is there, too. -/
def AtEdge (B : Bay K) (ys : K) (p : Shell K) : Prop :=
  Near ys 0 ∧ Near p.pan.y1 ys ∨ Near ys B.skin.b ∧ Near p.pan.y2 ys

/-- Panel number `i` is the last one in the list with a property. -/
def Last (B : Bay K) (P : Shell K → Prop) (i : ℕ) : Prop :=
  (∃ p, B.panels[i]? = some p ∧ P p) ∧ ∀ k p, i < k → B.panels[k]? = some p → ¬ P p

theorem chain {a b c d e : Prop} [Decidable a] [Decidable b] [Decidable c] [Decidable d] [Decidable e]
    (he : e ↔ c ∨ d) (i : ℕ) (x : Option ℕ × Option ℕ) :
    (if d then (some i, some i) else if c then (some i, some i) else
      if b then ((if a then (some i, x.2) else x).1, some i) else if a then (some i, x.2) else x)
      = (if a ∨ e then some i else x.1, if b ∨ e then some i else x.2) := by
  by_cases h1 : a <;> by_cases h2 : b <;> by_cases h3 : c <;> by_cases h4 : d <;> simp [h1, h2, h3, h4, he]

open Classical in
theorem findLoop_eq (B : Bay K) (ys : K) (l : List (Shell K)) (i : ℕ) (st : Option ℕ × Option ℕ) :
    findLoop ys B.skin.b i l st = (lastIdx (fun p => p.pan.y2 = ys ∨ AtEdge B ys p) i l st.1,
      lastIdx (fun p => p.pan.y1 = ys ∨ AtEdge B ys p) i l st.2) := by
  induction l generalizing i st with
  | nil => rfl
  | cons p l ih =>
    unfold findLoop lastIdx
    rw [ih]
    have e : (findStep ys B.skin.b st i p)
        = (if p.pan.y2 = ys ∨ AtEdge B ys p then some i else st.1,
          if p.pan.y1 = ys ∨ AtEdge B ys p then some i else st.2) := by
      simp only [findStep, Bool.and_eq_true, isclose_iff]
      exact chain (e := AtEdge B ys p) Iff.rfl i st
    rw [e]

theorem lastIdx_some (P : Shell K → Prop) [DecidablePred P] (l : List (Shell K)) (i k : ℕ)
    (st : Option ℕ) (h : lastIdx P i l st = some k) :
    (∃ d p, k = i + d ∧ l[d]? = some p ∧ P p ∧ ∀ d' p', d < d' → l[d']? = some p' → ¬ P p') ∨
      (st = some k ∧ ∀ p ∈ l, ¬ P p) := by
  induction l generalizing i st with
  | nil => exact .inr ⟨h, fun p hp => by cases hp⟩
  | cons p l ih =>
    unfold lastIdx at h
    rcases ih _ _ h with ⟨d, q, hk, hd, hq, hlast⟩ | ⟨hst, hno⟩
    · refine .inl ⟨d + 1, q, by omega, by simpa using hd, hq, fun d' p' hd' hp' => ?_⟩
      obtain ⟨e, rfl⟩ : ∃ e, d' = e + 1 := ⟨d' - 1, by omega⟩
      exact hlast e p' (by omega) (by simpa using hp')
    · by_cases hP : P p
      · rw [if_pos hP, Option.some.injEq] at hst
        refine .inl ⟨0, p, by omega, rfl, hP, fun d' p' hd' hp' => ?_⟩
        obtain ⟨e, rfl⟩ : ∃ e, d' = e + 1 := ⟨d' - 1, by omega⟩
        exact hno p' (List.mem_of_getElem? (by simpa using hp'))
      · rw [if_neg hP] at hst
        refine .inr ⟨hst, fun q hq => ?_⟩
        rcases List.mem_cons.1 hq with rfl | hq
        exacts [hP, hno q hq]

theorem lastIdx_none (P : Shell K → Prop) [DecidablePred P] (l : List (Shell K)) (i : ℕ)
    (st : Option ℕ) : lastIdx P i l st = none ↔ st = none ∧ ∀ p ∈ l, ¬ P p := by
  induction l generalizing i st with
  | nil => simp [lastIdx]
  | cons p l ih =>
    unfold lastIdx
    rw [ih]
    by_cases hP : P p <;> simp [hP]

theorem lastIdx_last (B : Bay K) (P : Shell K → Prop) [DecidablePred P] (i : ℕ) :
    lastIdx P 0 B.panels none = some i ↔ Last B P i := by
  constructor
  · intro h
    rcases lastIdx_some _ _ _ _ _ h with ⟨d, p, hk, hd, hp, hl⟩ | ⟨h, -⟩
    · rw [Nat.zero_add] at hk
      subst hk
      exact ⟨⟨p, hd, hp⟩, hl⟩
    · cases h
  · rintro ⟨⟨p, hp, hf⟩, hl⟩
    cases h : lastIdx P 0 B.panels none with
    | none => exact absurd hf (((lastIdx_none _ _ _ _).1 h).2 p (List.mem_of_getElem? hp))
    | some k =>
      rcases lastIdx_some _ _ _ _ _ h with ⟨d, q, hk, hd, hq, hl'⟩ | ⟨h, -⟩
      · rw [Nat.zero_add] at hk
        subst hk
        rcases Nat.lt_trichotomy i k with hlt | rfl | hlt
        · exact absurd hq (hl k q hlt hd)
        · rfl
        · exact absurd hf (hl' i p hlt hp)
      · cases h

open Classical in
/-- Every station: the first panel is the last one that ends there, the second one the last that starts
there, where a panel at an edge counts as both for a station at that edge. -/
theorem search (B : Bay K) (ys : K) (i j : ℕ) :
    B.findPanels ys = .ok (i, j) ↔ Last B (fun p => p.pan.y2 = ys ∨ AtEdge B ys p) i ∧
      Last B (fun p => p.pan.y1 = ys ∨ AtEdge B ys p) j := by
  unfold Bay.findPanels
  rw [findLoop_eq, ← lastIdx_last, ← lastIdx_last]
  split
  · rename_i he
    rw [List.isEmpty_iff] at he
    simp [he, lastIdx]
  · cases h1 : lastIdx (fun p => p.pan.y2 = ys ∨ AtEdge B ys p) 0 B.panels none <;>
      cases h2 : lastIdx (fun p => p.pan.y1 = ys ∨ AtEdge B ys p) 0 B.panels none <;> simp

open Classical in
/-- Every station: the only failure is a `RuntimeError`, when one of the two is missing. -/
theorem search_fails (B : Bay K) (ys : K) (e : Fail) :
    B.findPanels ys = .error e ↔ e = .raised .runtimeError ∧
      ((∀ p ∈ B.panels, ¬ (p.pan.y2 = ys ∨ AtEdge B ys p)) ∨
        ∀ p ∈ B.panels, ¬ (p.pan.y1 = ys ∨ AtEdge B ys p)) := by
  have e1 := lastIdx_none (fun p : Shell K => p.pan.y2 = ys ∨ AtEdge B ys p) B.panels 0 none
  have e2 := lastIdx_none (fun p : Shell K => p.pan.y1 = ys ∨ AtEdge B ys p) B.panels 0 none
  simp only [true_and] at e1 e2
  unfold Bay.findPanels
  rw [findLoop_eq, ← e1, ← e2]
  split
  · rename_i he
    rw [List.isEmpty_iff] at he
    simp [he, lastIdx, eq_comm]
  · cases h1 : lastIdx (fun p => p.pan.y2 = ys ∨ AtEdge B ys p) 0 B.panels none <;>
      cases h2 : lastIdx (fun p => p.pan.y1 = ys ∨ AtEdge B ys p) 0 B.panels none <;> simp [eq_comm]

theorem not_atEdge {B : Bay K} {ys : K} (h0 : ¬ Near ys 0) (hb : ¬ Near ys B.skin.b) (p : Shell K) :
    ¬ AtEdge B ys p := by
  rintro (h | h)
  · exact h0 h.1
  · exact hb h.1

/-- A station away from both edges: the stiffener is attached to the panel that ends there and the
panel that starts there (the last ones added, if several do). -/
theorem interior_partial (B : Bay K) (ys : K) (h0 : ¬ Near ys 0) (hb : ¬ Near ys B.skin.b) (i j : ℕ) :
    B.findPanels ys = .ok (i, j) ↔ LastEnd B ys i ∧ LastStart B ys j := by
  rw [search]
  simp only [not_atEdge h0 hb, or_false]
  rfl

/-- A station away from both edges: the call fails, with `RuntimeError`, exactly when no panel ends
there or no panel starts there. -/
theorem interior_fails_partial (B : Bay K) (ys : K) (h0 : ¬ Near ys 0) (hb : ¬ Near ys B.skin.b) :
    B.findPanels ys = .error (.raised .runtimeError) ↔
      (∀ p ∈ B.panels, p.pan.y2 ≠ ys) ∨ ∀ p ∈ B.panels, p.pan.y1 ≠ ys := by
  rw [search_fails]
  simp only [not_atEdge h0 hb, or_false, true_and, ne_eq]

/-- The two panels found at an interior station are different panels that meet there. -/
theorem interior_two_partial (B : Bay K) (ys : K) (h0 : ¬ Near ys 0) (hb : ¬ Near ys B.skin.b)
    (hy : ∀ p ∈ B.panels, p.pan.y1 ≠ p.pan.y2) (i j : ℕ)
    (h : B.findPanels ys = .ok (i, j)) :
    i ≠ j ∧ ∃ p q, B.panels[i]? = some p ∧ B.panels[j]? = some q ∧ p.pan.y2 = q.pan.y1 := by
  obtain ⟨⟨⟨p, hp, h1⟩, -⟩, ⟨⟨q, hq, h2⟩, -⟩⟩ := (interior_partial B ys h0 hb i j).1 h
  refine ⟨?_, p, q, hp, hq, by rw [h1, h2]⟩
  rintro rfl
  rw [hp, Option.some.injEq] at hq
  subst hq
  exact hy p (List.mem_of_getElem? hp) (by rw [h1, h2])

/-- A 1D stiffener that was added refers to the panels found, and the panels are unchanged. -/
theorem added1 (E : BayEnv K) (B B' : Bay K) (ys : K) (rho bb bf : Option K)
    (base flange : LamArgs K) (h : B.addBlade1 E ys rho bb bf base flange = .ok B') :
    B'.panels = B.panels ∧ B'.blade2 = B.blade2 ∧ ∃ s, B'.blade1 = B.blade1 ++ [s] ∧ s.ys = ys ∧
      B.findPanels ys = .ok (s.panel1, s.panel2) := by
  unfold Bay.addBlade1 at h
  split at h
  · cases h
  obtain ⟨b, hb, h⟩ := bind_ok.1 h
  obtain ⟨f, hf, h⟩ := bind_ok.1 h
  obtain ⟨ij, hij, h⟩ := bind_ok.1 h
  obtain ⟨s, hs, h⟩ := bind_ok.1 h
  cases h
  refine ⟨rfl, rfl, s, rfl, ?_⟩
  unfold Blade1.rebuild at hs
  obtain ⟨_, -, hs⟩ := bind_ok.1 hs
  obtain ⟨_, -, hs⟩ := bind_ok.1 hs
  obtain ⟨_, -, hs⟩ := bind_ok.1 hs
  obtain ⟨_, -, hs⟩ := bind_ok.1 hs
  obtain ⟨_, -, hs⟩ := bind_ok.1 hs
  cases hs
  exact ⟨rfl, hij⟩

/-- A 2D stiffener that was added refers to the panels found, and the panels are unchanged. -/
theorem added2 (E : BayEnv K) (B B' : Bay K) (ys : K) (rho bb bf : Option K)
    (base flange : LamArgs K) (mf nf : ℕ)
    (h : B.addBlade2 E ys rho bb bf base flange mf nf = .ok B') :
    B'.panels = B.panels ∧ B'.blade1 = B.blade1 ∧ ∃ s, B'.blade2 = B.blade2 ++ [s] ∧ s.ys = ys ∧
      B.findPanels ys = .ok (s.panel1, s.panel2) := by
  unfold Bay.addBlade2 at h
  split at h
  · cases h
  obtain ⟨b, hb, h⟩ := bind_ok.1 h
  obtain ⟨f, hf, h⟩ := bind_ok.1 h
  obtain ⟨ij, hij, h⟩ := bind_ok.1 h
  obtain ⟨_, -, h⟩ := bind_ok.1 h
  obtain ⟨_, -, h⟩ := bind_ok.1 h
  obtain ⟨s, hs, h⟩ := bind_ok.1 h
  cases h
  refine ⟨rfl, rfl, s, rfl, ?_⟩
  unfold Blade2.rebuild at hs
  obtain ⟨_, -, hs⟩ := bind_ok.1 hs
  obtain ⟨_, -, hs⟩ := bind_ok.1 hs
  obtain ⟨_, -, hs⟩ := bind_ok.1 hs
  cases hs
  exact ⟨rfl, hij⟩

/-- No stiffener is added where no pair is found. -/
theorem not_added (E : BayEnv K) (B : Bay K) (ys : K) (rho bb bf : Option K) (base flange : LamArgs K)
    (mf nf : ℕ) (e : Fail) (h : B.findPanels ys = .error e) :
    (∀ B', B.addBlade1 E ys rho bb bf base flange ≠ .ok B') ∧
      ∀ B', B.addBlade2 E ys rho bb bf base flange mf nf ≠ .ok B' := by
  constructor
  · intro B' h'
    obtain ⟨-, -, s, -, -, hs⟩ := added1 E B B' ys rho bb bf base flange h'
    rw [h] at hs; cases hs
  · intro B' h'
    obtain ⟨-, -, s, -, -, hs⟩ := added2 E B B' ys rho bb bf base flange mf nf h'
    rw [h] at hs; cases hs

section edges

variable [IsStrictOrderedRing K]

theorem isclose_self (y : K) : isclose y y = true := by
  simp only [isclose, sub_self, abs_zero, decide_eq_true_eq]
  positivity

/-- A bay with one panel over its whole width accepts a stiffener at both edges, attached twice to
that panel, although no panel ends at `0` and none starts at `b`. -/
theorem edges (B : Bay K) (p : Shell K) (hp : B.panels = [p]) (h1 : p.pan.y1 = 0)
    (h2 : p.pan.y2 = B.skin.b) (hb : B.skin.b ≠ 0) :
    B.findPanels 0 = .ok (0, 0) ∧ B.findPanels B.skin.b = .ok (0, 0) ∧
      (∀ q ∈ B.panels, q.pan.y2 ≠ 0) ∧ ∀ q ∈ B.panels, q.pan.y1 ≠ B.skin.b := by
  refine ⟨?_, ?_, ?_, ?_⟩
  · simp only [Bay.findPanels, hp, findLoop, findStep, h1, h2, isclose_self, hb, if_false,
      List.isEmpty_cons, Bool.and_self, if_true, Bool.false_eq_true]
    by_cases h : isclose 0 B.skin.b = true <;> simp [h]
  · simp only [Bay.findPanels, hp, findLoop, findStep, h2, isclose_self,
      List.isEmpty_cons, Bool.and_self, if_true, Bool.false_eq_true]
    simp
  · intro q hq
    rw [hp, List.mem_singleton] at hq
    rw [hq, h2]; exact hb
  · intro q hq
    rw [hp, List.mem_singleton] at hq
    rw [hq, h1]; exact fun h => hb h.symm

end edges

/-! ## Concrete cases -/

/-- Two panels meeting at `1/2`, the width of the bay being `1`. -/
def halves : Bay ℚ :=
  (C46.bay.addPanel 0 (1 / 2) none none none none none none none).addPanel (1 / 2) 1
    none none none none none none none

/-- Two panels meeting close to the edge. -/
def near : Bay ℚ :=
  (C46.bay.addPanel 0 (1 / 1000000000) none none none none none none none).addPanel
    (1 / 1000000000) 1 none none none none none none none

/-- Near an edge the pair that meets at the station is not the one taken. -/
theorem near_violated : LastEnd near (1 / 1000000000) 0 ∧ LastStart near (1 / 1000000000) 1 ∧
    near.findPanels (1 / 1000000000) = .ok (1, 1) := by
  refine ⟨⟨⟨_, rfl, rfl⟩, ?_⟩, ⟨⟨_, rfl, rfl⟩, ?_⟩, by decide +kernel⟩
  · intro k p hk hp
    match k, hk with
    | 1, _ => cases hp; decide +kernel
    | k + 2, _ => cases hp
  · intro k p hk hp
    match k, hk with
    | k + 2, _ => cases hp

example : ¬ Near (1 / 2 : ℚ) 0 ∧ ¬ Near (1 / 2 : ℚ) halves.skin.b ∧
    halves.findPanels (1 / 2) = .ok (0, 1) ∧
    halves.findPanels (1 / 3) = .error (.raised .runtimeError) ∧
    ∀ p ∈ halves.panels, p.pan.y1 ≠ p.pan.y2 := by
  unfold Near
  decide +kernel

example : ∃ B', halves.addBlade1 C46.benv (1 / 2) none (some (1 / 10)) (some (1 / 5))
    { stack := some [0], plyt := some 1, laminaprop := some [1] }
    { stack := some [0], plyt := some 1, laminaprop := some [1] } = .ok B' := exists_ok (by decide +kernel)

example : ∃ B', halves.addBlade2 C46.benv (1 / 2) none (some (1 / 10)) (some (1 / 5))
    { stack := some [0], plyt := some 1, laminaprop := some [1] }
    { stack := some [0], plyt := some 1, laminaprop := some [1] } 3 2 = .ok B' := exists_ok (by decide +kernel)

example : (C46.bay.addPanel 0 C46.bay.skin.b none none none none none none none).skin.b ≠ 0 := by
  decide +kernel

end Verif.C51
