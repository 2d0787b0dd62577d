import Verif.Spec.Accept
import Verif.Props.C94

/-!
# C104: a stiffener is accepted exactly when its description is complete

`outcome1`, `outcome2`: every call ends in one of five ways, and the exception tells what is missing.
`accepted1_partial`, `accepted2`: with a flange, or with any 2D stiffener, the stiffener is added exactly
when the description is complete.  `base_only_violated`: a beam that is only a base is refused with a
`TypeError` unless the width of the flange that it does not have is given.  `plate_base_only_violated`: a
plate that is only a base is accepted, but the bay has no matrices then.
-/

set_option linter.unusedSectionVars false

namespace Verif.C104

open Model Spec

section
variable {K : Type} [Field K] [LinearOrder K]

theorem told_iff (A : LamArgs K) : Told A ↔ ¬ Unspecified A := by
  unfold Told Unspecified
  constructor
  · rintro h ⟨h0, h1⟩
    obtain ⟨h2, h3⟩ := h h0
    rcases h1 with ⟨a, b⟩ | ⟨a, b⟩
    · exact h2.elim (· a) (· b)
    · exact h3.elim (· a) (· b)
  · intro h h0
    constructor
    · by_contra c
      push Not at c
      exact h ⟨h0, .inl c⟩
    · by_contra c
      push Not at c
      exact h ⟨h0, .inr c⟩

/-- What is made of complete arguments. -/
theorem resolve_cases (A : LamArgs K) :
    (A.resolve = .error (.raised .valueError) ∧ ¬ Told A) ∨ ∃ r, A.resolve = .ok r ∧ Told A ∧
      (A.stack = none → r.1 = none) ∧ (∀ st, A.stack = some st → r.1 = some st ∧ Layers A st r.2.1 r.2.2) := by
  by_cases h : Told A
  · right
    rcases hr : A.resolve with e | r
    · exfalso
      rw [told_iff] at h
      unfold LamArgs.resolve at hr
      rcases hA : A.stack with _ | st
      · rw [hA] at hr
        cases hr
      · rw [hA] at hr
        refine h ⟨by simp [hA], ?_⟩
        rcases h1 : A.plyts with _ | ts <;> rcases h2 : A.plyt with _ | t <;>
          rcases h3 : A.laminaprops with _ | ps <;> rcases h4 : A.laminaprop with _ | p <;>
          simp [h1, h2, h3, h4] at hr ⊢
    · exact ⟨r, rfl, h, fun hA => C94.resolve_none hA hr, fun st hA => (C94.resolve_iff hA r).1 hr⟩
  · rw [told_iff, not_not] at h
    exact .inl ⟨C94.resolve_missing h, fun h' => (told_iff A).1 h' h⟩

theorem pair_cases {B : Bay K} {ys : K} {i j : ℕ} (h : B.findPanels ys = .ok (i, j)) :
    ∃ p q, Place B ys p q ∧ ((Akin p q ∧ B.pair i j = .ok (p, q)) ∨
      (¬ Akin p q ∧ B.pair i j = .error (.raised .assertionError))) ∧ B.panels[i]? = some p ∧
        B.panels[j]? = some q := by
  obtain ⟨h1, h2⟩ := (C51.search B ys i j).1 h
  obtain ⟨⟨p, hp, -⟩, -⟩ := id h1
  obtain ⟨⟨q, hq, -⟩, -⟩ := id h2
  refine ⟨p, q, ⟨i, j, h1, h2, hp, hq⟩, ?_, hp, hq⟩
  unfold Bay.pair Akin
  rw [hp, hq]
  by_cases h : p.model = q.model ∧ p.pan.m = q.pan.m ∧ p.pan.n = q.pan.n ∧ p.r = q.r
  · exact .inl ⟨h, if_pos h⟩
  · exact .inr ⟨h, if_neg h⟩

theorem place_find {B : Bay K} {ys : K} {p q : Shell K} (h : Place B ys p q) :
    ∃ i j, B.findPanels ys = .ok (i, j) ∧ B.panels[i]? = some p ∧ B.panels[j]? = some q := by
  obtain ⟨i, j, h1, h2, hp, hq⟩ := h
  exact ⟨i, j, (C51.search B ys i j).2 ⟨h1, h2⟩, hp, hq⟩

/-- There is one pair of panels at most. -/
theorem place_unique {B : Bay K} {ys : K} {p q p' q' : Shell K} (h : Place B ys p q) (h' : Place B ys p' q') :
    p = p' ∧ q = q' := by
  obtain ⟨i, j, e, hp, hq⟩ := place_find h
  obtain ⟨i', j', e', hp', hq'⟩ := place_find h'
  rw [e] at e'
  cases e'
  rw [hp] at hp'
  rw [hq] at hq'
  cases hp'
  cases hq'
  exact ⟨rfl, rfl⟩

theorem plySums_ok {l : List (Ply K)} (h : l ≠ []) : ∃ x, plySums l = .ok x := by
  cases l with
  | nil => exact absurd rfl h
  | cons p ps => exact ⟨_, rfl⟩

theorem rebuild1 {E : BayEnv K} {B : Bay K} {s : Blade1 K} {p q : Shell K}
    (hp : B.pair s.panel1 s.panel2 = .ok (p, q))
    (hm : ∀ st, s.fstack = some st → ∃ l, E.plies st s.fplyts s.flaminaprops = .ok l ∧ l ≠ []) :
    ((∃ t, s.rebuild E B = .ok t) ∧ (s.bstack ≠ none → s.bb ≠ none) ∧ s.bf ≠ none) ∨
      (s.rebuild E B = .error (.raised .typeError) ∧ (¬ (s.bstack ≠ none → s.bb ≠ none) ∨ s.bf = none)) := by
  unfold Blade1.rebuild
  rw [hp]
  show _ ∨ (((s.flangePlies E >>= fun plies => s.freshBase B (skinThick p q) >>= fun base => _) = _) ∧ _)
  have h1 : (∃ l, s.flangePlies E = .ok l ∧ l ≠ some []) ∨
      (s.flangePlies E = .error (.raised .typeError) ∧ s.bf = none) := by
    unfold Blade1.flangePlies
    rcases hs : s.fstack with _ | st
    · exact .inl ⟨_, rfl, by simp⟩
    · rcases hb : s.bf with _ | w
      · exact .inr ⟨rfl, rfl⟩
      · obtain ⟨l, e, hl⟩ := hm st hs
        refine .inl ⟨some l, ?_, by simpa using hl⟩
        show (lift (E.plies st s.fplyts s.flaminaprops) >>= _) = _
        rw [e]
        rfl
  have h2 : (∃ x, s.freshBase B (skinThick p q) = .ok x ∧ (s.bstack ≠ none → s.bb ≠ none)) ∨
      (s.freshBase B (skinThick p q) = .error (.raised .typeError) ∧ ¬ (s.bstack ≠ none → s.bb ≠ none)) := by
    unfold Blade1.freshBase
    rcases hs : s.bstack with _ | st
    · exact .inl ⟨_, rfl, fun h => absurd rfl h⟩
    · rcases hb : s.bb with _ | w
      · exact .inr ⟨rfl, fun h => h (by simp) rfl⟩
      · exact .inl ⟨_, rfl, fun _ => by simp⟩
  rcases h1 with ⟨l, e1, hl⟩ | ⟨e1, h1⟩
  swap
  · right
    rw [e1]
    exact ⟨rfl, .inr h1⟩
  rcases h2 with ⟨x, e2, hx⟩ | ⟨e2, h2⟩
  swap
  · right
    rw [e1]
    refine ⟨?_, .inl h2⟩
    show (s.freshBase B (skinThick p q) >>= _) = _
    rw [e2]
    rfl
  rcases hb : s.bf with _ | w
  · right
    rw [e1]
    refine ⟨?_, .inr rfl⟩
    show (s.freshBase B (skinThick p q) >>= _) = _
    rw [e2]
    rfl
  · left
    refine ⟨?_, hx, by simp⟩
    have h3 : ∃ y, sectionOf s.hf w l = .ok y := by
      cases l with
      | none => exact ⟨_, rfl⟩
      | some l =>
        obtain ⟨z, hz⟩ := plySums_ok (l := l) (by rintro rfl; exact hl rfl)
        show ∃ y, (plySums l >>= _) = _
        rw [hz]
        exact ⟨_, rfl⟩
    obtain ⟨y, hy⟩ := h3
    refine ⟨{ s with
      bf := some w
      base := x.1
      sec := y
      dbf := w / 2 + x.2 + skinThick p q / 2
      Jxx := s.hf * w ^ 3 / 12 + w * s.hf ^ 3 / 12 }, ?_⟩
    rw [e1]
    show (s.freshBase B (skinThick p q) >>= _) = _
    rw [e2]
    show (sectionOf s.hf w l >>= _) = _
    rw [hy]
    rfl

/-- The ways in which a stiffener is refused, and what is missing then. -/
inductive Refused (B : Bay K) (ys : K) (bb bf : Option K) (b f : LamArgs K) (need : Prop) : Fail → Prop
  | value : (b.stack = none ∧ f.stack = none) ∨ ¬ Told b ∨ ¬ Told f →
      Refused B ys bb bf b f need (.raised .valueError)
  | runtime : (∀ p q, ¬ Place B ys p q) → Refused B ys bb bf b f need (.raised .runtimeError)
  | assertion (p q : Shell K) : Place B ys p q → ¬ Akin p q →
      Refused B ys bb bf b f need (.raised .assertionError)
  | type : ¬ Wide b bb ∨ need → Refused B ys bb bf b f need (.raised .typeError)

theorem Refused.not_complete {B : Bay K} {ys : K} {bb bf : Option K} {b f : LamArgs K} {need : Prop} {e : Fail}
    (h : Refused B ys bb bf b f need e) (hn : ¬ need) : ¬ Complete B ys bb bf b f := by
  intro c
  cases h with
  | value h =>
    rcases h with h | h | h
    · exact c.any.elim (· h.1) (· h.2)
    · exact h c.base.1
    · exact h c.flange.1
  | runtime h =>
    obtain ⟨p, q, hp, -⟩ := c.place
    exact h p q hp
  | assertion p q hp hk =>
    obtain ⟨p', q', hp', hk'⟩ := c.place
    obtain ⟨rfl, rfl⟩ := place_unique hp hp'
    exact hk hk'
  | type h => exact h.elim (· c.base.2) hn

/-- **C104, a 1D stiffener.** -/
theorem outcome1 (E : BayEnv K) (B : Bay K) (ys : K) (rho bb bf : Option K) (b f : LamArgs K) (hf : Made E f) :
    (∃ B', B.addBlade1 E ys rho bb bf b f = .ok B' ∧ Complete B ys bb bf b f ∧ bf ≠ none) ∨
      ∃ e, B.addBlade1 E ys rho bb bf b f = .error e ∧ Refused B ys bb bf b f (bf = none) e := by
  unfold Bay.addBlade1
  by_cases h0 : b.stack = none ∧ f.stack = none
  · exact .inr ⟨_, by simp [h0], .value (.inl h0)⟩
  have hc : ¬ (b.stack.isNone && f.stack.isNone) = true := by
    simpa only [Bool.and_eq_true, Option.isNone_iff_eq_none] using h0
  rw [if_neg hc]
  rcases resolve_cases b with ⟨e, hb⟩ | ⟨rb, e, hb, hb0, hb1⟩
  · rw [e]
    exact .inr ⟨_, rfl, .value (.inr (.inl hb))⟩
  rw [e]
  rcases resolve_cases f with ⟨e, hf'⟩ | ⟨rf, e, hf', hf0, hf1⟩
  · rw [e]
    exact .inr ⟨_, rfl, .value (.inr (.inr hf'))⟩
  rw [e]
  rcases e : B.findPanels ys with x | ⟨i, j⟩
  · refine .inr ⟨x, rfl, ?_⟩
    rw [((C51.search_fails B ys x).1 e).1]
    refine .runtime fun p q h => ?_
    obtain ⟨i, j, e', -⟩ := place_find h
    rw [e] at e'
    cases e'
  obtain ⟨p, q, hpl, hpq, -⟩ := pair_cases e
  rcases hpq with ⟨hk, e⟩ | ⟨hk, e⟩
  swap
  · refine .inr ⟨_, ?_, .assertion p q hpl hk⟩
    show (Blade1.rebuild E B _ >>= _) = _
    unfold Blade1.rebuild
    show ((B.pair i j >>= _) >>= _) = _
    rw [e]
    rfl
  have hst : rb.1 ≠ none ↔ b.stack ≠ none := by
    rcases hs : b.stack with _ | st
    · simp [hb0 hs]
    · simp [(hb1 st hs).1]
  have hm : ∀ st, rf.1 = some st → ∃ l, E.plies st rf.2.1 rf.2.2 = .ok l ∧ l ≠ [] := by
    intro st hst
    rcases hs : f.stack with _ | st'
    · rw [hf0 hs] at hst
      cases hst
    · obtain ⟨e1, hl⟩ := hf1 st' hs
      rw [e1] at hst
      cases hst
      exact hf st _ _ hl
  rcases rebuild1 (E := E) (B := B) (p := p) (q := q) (s :=
      { panel1 := i, panel2 := j, rho := rho.getD B.rho, ys := ys, bb := bb, bf := bf,
        bstack := rb.1, bplyts := rb.2.1, blaminaprops := rb.2.2, fstack := rf.1, fplyts := rf.2.1,
        flaminaprops := rf.2.2, Fx := none, base := none, sec := none, dbf := 0, Jxx := 0 }) e hm with
    ⟨⟨t, ht⟩, hw, hbf⟩ | ⟨ht, hw⟩
  · refine .inl ⟨{ B with blade1 := B.blade1 ++ [t] }, ?_, ⟨?_, ⟨hb, fun h => hw (hst.2 h)⟩, ⟨hf', fun _ => hbf⟩, p, q, hpl, hk⟩, hbf⟩
    · show (Blade1.rebuild E B _ >>= _) = _
      rw [ht]
      rfl
    · by_contra c
      push Not at c
      exact h0 c
  · refine .inr ⟨_, ?_, .type (hw.imp_left fun h hb => h fun h' => hb (hst.1 h'))⟩
    show (Blade1.rebuild E B _ >>= _) = _
    rw [ht]
    rfl

/-- **C104, a 2D stiffener.** -/
theorem outcome2 (E : BayEnv K) (B : Bay K) (ys : K) (rho bb bf : Option K) (b f : LamArgs K) (mf nf : ℕ)
    (hbl : Laminable E b) (hfl : Laminable E f) (hbf : Wide f bf) :
    (∃ B', B.addBlade2 E ys rho bb bf b f mf nf = .ok B' ∧ Complete B ys bb bf b f) ∨
      ∃ e, B.addBlade2 E ys rho bb bf b f mf nf = .error e ∧ Refused B ys bb bf b f False e := by
  unfold Bay.addBlade2
  by_cases h0 : b.stack = none ∧ f.stack = none
  · exact .inr ⟨_, by simp [h0], .value (.inl h0)⟩
  have hc : ¬ (b.stack.isNone && f.stack.isNone) = true := by
    simpa only [Bool.and_eq_true, Option.isNone_iff_eq_none] using h0
  rw [if_neg hc]
  rcases resolve_cases b with ⟨e, hb⟩ | ⟨rb, e, hb, hb0, hb1⟩
  · rw [e]
    exact .inr ⟨_, rfl, .value (.inr (.inl hb))⟩
  rw [e]
  rcases resolve_cases f with ⟨e, hf'⟩ | ⟨rf, e, hf', hf0, hf1⟩
  · rw [e]
    exact .inr ⟨_, rfl, .value (.inr (.inr hf'))⟩
  rw [e]
  rcases e : B.findPanels ys with x | ⟨i, j⟩
  · refine .inr ⟨x, rfl, ?_⟩
    rw [((C51.search_fails B ys x).1 e).1]
    refine .runtime fun p q h => ?_
    obtain ⟨i, j, e', -⟩ := place_find h
    rw [e] at e'
    cases e'
  obtain ⟨p, q, hpl, hpq, ep, eq⟩ := pair_cases e
  have h1 : (∃ x, B.baseOf (i, j) ys bb (rho.getD B.rho) rb = .ok x ∧ Wide b bb ∧ (x = none ∨ b.stack ≠ none)) ∨
      (B.baseOf (i, j) ys bb (rho.getD B.rho) rb = .error (.raised .typeError) ∧ ¬ Wide b bb) := by
    unfold Bay.baseOf Wide
    rcases hs : b.stack with _ | st
    · rw [hb0 hs]
      exact .inl ⟨_, rfl, fun h => absurd rfl h, .inl rfl⟩
    · rw [(hb1 st hs).1]
      rcases hw : bb with _ | w
      · exact .inr ⟨rfl, fun h => h (by simp) rfl⟩
      · refine .inl ⟨some (B.newBase ys w (rho.getD B.rho) st rb.2.1 rb.2.2 (skinThick p q)), ?_, fun _ => by simp,
          .inr (by simp)⟩
        show (match B.panels[i]?, B.panels[j]? with
          | some p, some q => _
          | _, _ => _) = _
        rw [ep, eq]
  have h2 : ∃ x, B.flangeOf mf nf bf (rho.getD B.rho) rf = .ok x ∧ ∀ sh, x = some sh →
      Layers f sh.stack sh.plyts sh.laminaprops := by
    unfold Bay.flangeOf
    rcases hs : f.stack with _ | st
    · rw [hf0 hs]
      exact ⟨_, rfl, fun sh h => by cases h⟩
    · obtain ⟨w, hw⟩ := Option.ne_none_iff_exists'.1 (hbf (by simp [hs]))
      rw [(hf1 st hs).1, hw]
      refine ⟨_, rfl, fun sh h => ?_⟩
      cases h
      exact (hf1 st hs).2
  rcases h1 with ⟨x, e1, hw, hx⟩ | ⟨e1, hw⟩
  swap
  · refine .inr ⟨_, ?_, .type (.inl hw)⟩
    show (B.baseOf (i, j) ys bb (rho.getD B.rho) rb >>= _) = _
    rw [e1]
    rfl
  obtain ⟨y, e2, hy⟩ := h2
  have h3 : ∃ z, optLam (fun f => E.mkLam f.stack f.plyts f.laminaprops [] 0) y = .ok z := by
    cases y with
    | none => exact ⟨_, rfl⟩
    | some sh =>
      obtain ⟨l, hl⟩ := hfl _ _ _ 0 (hy sh rfl)
      show ∃ z, (lift (E.mkLam sh.stack sh.plyts sh.laminaprops [] 0) >>= _) = _
      rw [hl]
      exact ⟨_, rfl⟩
  have h4 : ∃ z, optLam (fun _ => E.mkLam (rb.1.getD []) rb.2.1 rb.2.2 []
      (-skinThick p q / 2 - rb.2.1.sum / 2)) x = .ok z := by
    cases x with
    | none => exact ⟨_, rfl⟩
    | some sh =>
      obtain ⟨st, hs⟩ := Option.ne_none_iff_exists'.1 (hx.resolve_left (by simp))
      obtain ⟨l, hl⟩ := hbl _ _ _ (-skinThick p q / 2 - rb.2.1.sum / 2) (hb1 st hs).2
      show ∃ z, (lift (E.mkLam (rb.1.getD []) rb.2.1 rb.2.2 [] (-skinThick p q / 2 - rb.2.1.sum / 2)) >>= _) = _
      rw [(hb1 st hs).1]
      show ∃ z, (lift (E.mkLam st rb.2.1 rb.2.2 [] (-skinThick p q / 2 - rb.2.1.sum / 2)) >>= _) = _
      rw [hl]
      exact ⟨_, rfl⟩
  obtain ⟨y', h3⟩ := h3
  obtain ⟨x', h4⟩ := h4
  have key : ∀ {α : Type} (g : Blade2 K → Except Fail α), (do
        let b ← (Except.ok rb : Except Fail _)
        let f ← Except.ok rf
        let ij ← Except.ok (i, j)
        let base ← B.baseOf ij ys bb (rho.getD B.rho) b
        let flange ← B.flangeOf mf nf bf (rho.getD B.rho) f
        let s ← Blade2.rebuild E B
          { panel1 := ij.1, panel2 := ij.2, rho := rho.getD B.rho, ys := ys, bstack := b.1.getD [],
            bplyts := b.2.1, blaminaprops := b.2.2, base := base, flange := flange }
        g s) = Blade2.rebuild E B
          { panel1 := i, panel2 := j, rho := rho.getD B.rho, ys := ys, bstack := rb.1.getD [],
            bplyts := rb.2.1, blaminaprops := rb.2.2, base := x, flange := y } >>= g := by
    intro α g
    show (B.baseOf (i, j) ys bb (rho.getD B.rho) rb >>= _) = _
    rw [e1]
    show (B.flangeOf mf nf bf (rho.getD B.rho) rf >>= _) = _
    rw [e2]
    rfl
  rw [key]
  unfold Blade2.rebuild
  rcases hpq with ⟨hk, e⟩ | ⟨hk, e⟩
  · refine .inl ⟨{ B with blade2 := B.blade2 ++
      [{ panel1 := i, panel2 := j, rho := rho.getD B.rho, ys := ys, bstack := rb.1.getD [],
         bplyts := rb.2.1, blaminaprops := rb.2.2, base := x', flange := y' }] }, ?_,
      ⟨?_, ⟨hb, hw⟩, ⟨hf', hbf⟩, p, q, hpl, hk⟩⟩
    · show ((B.pair i j >>= _) >>= _) = _
      rw [e]
      show ((optLam (fun f => E.mkLam f.stack f.plyts f.laminaprops [] 0) y >>= _) >>= _) = _
      rw [h3]
      show ((optLam (fun _ => E.mkLam (rb.1.getD []) rb.2.1 rb.2.2 []
        (-skinThick p q / 2 - rb.2.1.sum / 2)) x >>= _) >>= _) = _
      rw [h4]
      rfl
    · by_contra c
      push Not at c
      exact h0 c
  · refine .inr ⟨_, ?_, .assertion p q hpl hk⟩
    show ((B.pair i j >>= _) >>= _) = _
    rw [e]
    rfl

/-- **C104, a beam with a flange.** -/
theorem accepted1_partial (E : BayEnv K) (B : Bay K) (ys : K) (rho bb bf : Option K) (b f : LamArgs K)
    (hf : Made E f) (h : f.stack ≠ none) :
    (∃ B', B.addBlade1 E ys rho bb bf b f = .ok B') ↔ Complete B ys bb bf b f := by
  rcases outcome1 E B ys rho bb bf b f hf with ⟨B', e, hc, -⟩ | ⟨x, e, hr⟩
  · exact ⟨fun _ => hc, fun _ => ⟨B', e⟩⟩
  · constructor
    · rintro ⟨B', e'⟩
      rw [e] at e'
      cases e'
    · intro hc
      exact absurd hc (hr.not_complete (hc.flange.2 h))

/-- **C104, a plate.** -/
theorem accepted2 (E : BayEnv K) (B : Bay K) (ys : K) (rho bb bf : Option K) (b f : LamArgs K) (mf nf : ℕ)
    (hbl : Laminable E b) (hfl : Laminable E f) (hbf : Wide f bf) :
    (∃ B', B.addBlade2 E ys rho bb bf b f mf nf = .ok B') ↔ Complete B ys bb bf b f := by
  rcases outcome2 E B ys rho bb bf b f mf nf hbl hfl hbf with ⟨B', e, hc⟩ | ⟨x, e, hr⟩
  · exact ⟨fun _ => hc, fun _ => ⟨B', e⟩⟩
  · constructor
    · rintro ⟨B', e'⟩
      rw [e] at e'
      cases e'
    · intro hc
      exact absurd hc (hr.not_complete id)

/-- **C104 does not hold** for a beam that is a base only: it is complete without the width of a flange, and
refused. -/
theorem base_only_violated (E : BayEnv K) (B : Bay K) (ys : K) (rho bb : Option K) (b f : LamArgs K)
    (hf : f.stack = none) (hc : Complete B ys bb none b f) :
    B.addBlade1 E ys rho bb none b f = .error (.raised .typeError) := by
  have hm : Made E f := fun st ts ps h => by
    rw [h.1] at hf
    cases hf
  rcases outcome1 E B ys rho bb none b f hm with ⟨B', -, -, h⟩ | ⟨x, e, hr⟩
  · exact absurd rfl h
  · rw [e]
    cases hr with
    | type h => rfl
    | value h => exact absurd hc ((Refused.value (need := False) h).not_complete id)
    | runtime h => exact absurd hc ((Refused.runtime (need := False) h).not_complete id)
    | assertion p q h h' => exact absurd hc ((Refused.assertion (need := False) p q h h').not_complete id)

/-- Any width serves: the flange that is not there does not have it. -/
theorem base_only_partial (E : BayEnv K) (B : Bay K) (ys : K) (rho bb : Option K) (w : K) (b f : LamArgs K)
    (hf : f.stack = none) :
    (∃ B', B.addBlade1 E ys rho bb (some w) b f = .ok B') ↔ Complete B ys bb none b f := by
  have hm : Made E f := fun st ts ps h => by
    rw [h.1] at hf
    cases hf
  have hi : Complete B ys bb (some w) b f ↔ Complete B ys bb none b f :=
    ⟨fun h => ⟨h.any, h.base, ⟨h.flange.1, fun h => absurd hf h⟩, h.place⟩,
      fun h => ⟨h.any, h.base, ⟨h.flange.1, fun h => absurd hf h⟩, h.place⟩⟩
  rw [← hi]
  rcases outcome1 E B ys rho bb (some w) b f hm with ⟨B', e, hc, -⟩ | ⟨x, e, hr⟩
  · exact ⟨fun _ => hc, fun _ => ⟨B', e⟩⟩
  · constructor
    · rintro ⟨B', e'⟩
      rw [e] at e'
      cases e'
    · intro hc
      exact absurd hc (hr.not_complete (by simp))

theorem flangeSizes_none {l : List (Blade2 K)} {n : ℕ} (h : flangeSizes l = .ok n) : ∀ s ∈ l, s.flange ≠ none := by
  induction l generalizing n with
  | nil => simp
  | cons a l ih =>
    rcases ha : a.flange with _ | f
    · simp only [flangeSizes, ha] at h
      cases h
    · simp only [flangeSizes, ha] at h
      obtain ⟨d, -, h⟩ := bind_ok.1 h
      obtain ⟨m, h, -⟩ := bind_ok.1 h
      intro s hs
      rcases List.mem_cons.1 hs with rfl | hs
      · simp [ha]
      · exact ih h s hs

theorem rebuild2_flange {E : BayEnv K} {B : Bay K} {s t : Blade2 K} (h : s.rebuild E B = .ok t)
    (hs : s.flange = none) : t.flange = none := by
  unfold Blade2.rebuild at h
  rw [hs] at h
  obtain ⟨pq, -, h⟩ := bind_ok.1 h
  obtain ⟨f, hf, h⟩ := bind_ok.1 h
  obtain ⟨x, -, h⟩ := bind_ok.1 h
  cases hf
  cases h
  rfl

theorem mapE_none {E : BayEnv K} {B : Bay K} {l l' : List (Blade2 K)}
    (h : mapE (Blade2.rebuild E B) l = .ok l') (hs : ∃ s ∈ l, s.flange = none) : ∃ s ∈ l', s.flange = none := by
  induction l generalizing l' with
  | nil => simp at hs
  | cons a l ih =>
    obtain ⟨b, hb, h⟩ := bind_ok.1 h
    obtain ⟨bs, hbs, h⟩ := bind_ok.1 h
    cases h
    obtain ⟨s, hm, hs⟩ := hs
    rcases List.mem_cons.1 hm with rfl | hm
    · exact ⟨b, List.mem_cons_self, rebuild2_flange hb hs⟩
    · obtain ⟨t, ht, ht'⟩ := ih hbs ⟨s, hm, hs⟩
      exact ⟨t, List.mem_cons_of_mem _ ht, ht'⟩

theorem assemble_none (E : BayEnv K) (B : Bay K) (hs : ∃ s ∈ B.blade2, s.flange = none)
    (fp : ℕ → Shell K → Except Fail (Coo K × Shell K))
    (f1 : Bay K → ℕ → Blade1 K → Except Fail (Coo K × Blade1 K))
    (f2 : ℕ → Bay K → ℕ → Blade2 K → Except Fail (Coo K × Blade2 K × Bay K)) (x : Coo K × Bay K) :
    B.assemble E fp f1 f2 ≠ .ok x := by
  intro h
  unfold Bay.assemble at h
  obtain ⟨R, hR, h⟩ := bind_ok.1 h
  obtain ⟨n, hn, -⟩ := bind_ok.1 h
  unfold Bay.rebuild at hR
  obtain ⟨mp, -, hR⟩ := bind_ok.1 hR
  obtain ⟨b1, -, hR⟩ := bind_ok.1 hR
  obtain ⟨b2, h2, hR⟩ := bind_ok.1 hR
  cases hR
  obtain ⟨s, hm, hs⟩ := mapE_none h2 hs
  unfold Bay.getSize at hn
  obtain ⟨d, -, hn⟩ := bind_ok.1 hn
  obtain ⟨k, hk, -⟩ := bind_ok.1 hn
  exact flangeSizes_none hk s hm hs

/-- **C104, what is accepted cannot always be used**: with a 2D stiffener that is a base only, which is
accepted, no matrix of the bay can be calculated. -/
theorem plate_base_only_violated (E : BayEnv K) (B B' : Bay K) (ys : K) (rho bb bf : Option K) (b f : LamArgs K)
    (mf nf : ℕ) (hf : f.stack = none) (h : B.addBlade2 E ys rho bb bf b f mf nf = .ok B') :
    (∀ x, B'.calcKC E ≠ .ok x) ∧ (∀ c x, B'.calcKG E c ≠ .ok x) ∧ ∀ x, B'.calcKM E ≠ .ok x := by
  obtain ⟨s, hs, -, -, hn, -⟩ := C94.parts2 E B B' ys rho bb bf b f mf nf h
  have h0 : ∃ s ∈ B'.blade2, s.flange = none := ⟨s, by simp [hs], hn.2 hf⟩
  exact ⟨fun x => assemble_none E B' h0 _ _ _ x, fun _ x => assemble_none E B' h0 _ _ _ x,
    fun x => assemble_none E B' h0 _ _ _ x⟩

end

/-! ## Concrete cases -/

theorem laid (A : LamArgs ℝ) : Laminable C81.env A := fun _ _ _ _ _ => ⟨_, rfl⟩

theorem made : Made C81.env C81.ply := by
  rintro st ts ps ⟨h, h1, -⟩
  cases h
  refine ⟨_, rfl, ?_⟩
  rcases h1 with h1 | ⟨-, t, h1, rfl⟩
  · cases h1
  · simp

theorem bare_place : ∃ p q, Place C81.bare (1 / 2) p q ∧ Akin p q := by
  have h := C81.found C81.bare rfl rfl
  obtain ⟨p, q, hp, hk, e1, e2⟩ := pair_cases h
  refine ⟨p, q, hp, hk.elim (·.1) fun h => ?_⟩
  obtain ⟨pq, e⟩ := C81.paired C81.bare rfl
  rw [e] at h
  cases h.2

theorem told_ply : Told C81.ply := fun _ => ⟨.inr (by simp [C81.ply]), .inr (by simp [C81.ply])⟩

theorem told_none : Told ({} : LamArgs ℝ) := fun h => absurd rfl h

/-- A base only. -/
theorem base_only : Complete C81.bare (1 / 2) (some (1 / 2)) none C81.ply {} :=
  ⟨.inl (by simp [C81.ply]), ⟨told_ply, fun _ => by simp⟩, ⟨told_none, fun h => absurd rfl h⟩, bare_place⟩

/-- It is refused as a beam, and accepted with a width of nothing and as a plate. -/
example : C81.bare.addBlade1 C81.env (1 / 2) none (some (1 / 2)) none C81.ply {} = .error (.raised .typeError) ∧
    (∃ B, C81.bare.addBlade1 C81.env (1 / 2) none (some (1 / 2)) (some 0) C81.ply {} = .ok B) ∧
    ∃ B, C81.bare.addBlade2 C81.env (1 / 2) none (some (1 / 2)) none C81.ply {} 4 4 = .ok B :=
  ⟨base_only_violated _ _ _ _ _ _ _ rfl base_only, (base_only_partial _ _ _ _ _ _ _ _ rfl).2 base_only,
    (accepted2 _ _ _ _ _ _ _ _ 4 4 (laid _) (laid _) (fun h => absurd rfl h)).2 base_only⟩

/-- As a plate it is accepted and makes the bay useless. -/
example : ∃ B, C81.bare.addBlade2 C81.env (1 / 2) none (some (1 / 2)) none C81.ply {} 4 4 = .ok B ∧
    ∀ x, B.calcKC C81.env ≠ .ok x := by
  obtain ⟨B, h⟩ := (accepted2 C81.env C81.bare (1 / 2) none (some (1 / 2)) none C81.ply {} 4 4 (laid _) (laid _)
    (fun h => absurd rfl h)).2 base_only
  exact ⟨B, h, (plate_base_only_violated _ _ _ _ _ _ _ _ _ _ _ rfl h).1⟩

/-- A flange is accepted with its width, and refused without. -/
example : (∃ B, C81.bare.addBlade1 C81.env (1 / 2) none none (some (1 / 3)) {} C81.ply = .ok B) ∧
    ¬ ∃ B, C81.bare.addBlade1 C81.env (1 / 2) none none none {} C81.ply = .ok B :=
  ⟨(accepted1_partial _ _ _ _ _ _ _ _ made (by simp [C81.ply])).2
    ⟨.inr (by simp [C81.ply]), ⟨told_none, fun h => absurd rfl h⟩, ⟨told_ply, fun _ => by simp⟩, bare_place⟩,
   fun h => ((accepted1_partial _ _ _ _ _ _ _ _ made (by simp [C81.ply])).1 h).flange.2 (by simp [C81.ply]) rfl⟩

/-- No panel begins or ends at a third of the width. -/
example : ∃ e, C81.bare.addBlade1 C81.env (1 / 3) none none (some 1) {} C81.ply = .error e ∧
    Refused C81.bare (1 / 3) none (some 1) {} C81.ply ((some 1 : Option ℝ) = none) e := by
  refine (outcome1 C81.env C81.bare (1 / 3) none none (some 1) {} C81.ply made).resolve_left ?_
  rintro ⟨B', -, hc, -⟩
  obtain ⟨p, q, hp, -⟩ := hc.place
  obtain ⟨i, j, e, -⟩ := place_find hp
  have : findLoop (1 / 3) C81.bare.skin.b 0 C81.bare.panels (none, none) = (none, none) := by
    simp only [C81.bare, Bay.addPanel, Shell.new, List.nil_append, List.singleton_append, findLoop, findStep,
      isclose, C81.loose, Witness.panel]
    norm_num
  unfold Bay.findPanels at e
  rw [this] at e
  split at e <;> cases e

end Verif.C104
