import Verif.Proofs.BayLoop

/-!
# The parts of a stiffened bay

A bay whose panels and stiffeners are rebuilt is not changed by a further rebuild; the contribution of
a part at an offset is the part's own matrix on its slice.
-/

set_option linter.unusedSectionVars false

namespace Verif

open Model

variable {K : Type} [Field K] [LinearOrder K]

/-- Bays with the same skin, radius and panels apart from `r` being made a number. -/
structure SameSkin (B B' : Bay K) : Prop where
  skin : B'.skin = B.skin
  r : B'.r = B.r
  panels : B'.panels = B.panels.map Shell.fixR

theorem pair_fixR {B B' : Bay K} (hs : SameSkin B B') {i j : ℕ} {pq : Shell K × Shell K}
    (h : B.pair i j = .ok pq) : B'.pair i j = .ok (pq.1.fixR, pq.2.fixR) := by
  unfold Bay.pair at h ⊢
  rw [hs.panels, List.getElem?_map, List.getElem?_map]
  cases hi : B.panels[i]? with
  | none => simp [hi] at h
  | some p =>
    cases hj : B.panels[j]? with
    | none => simp [hi, hj] at h
    | some q =>
      simp only [hi, hj] at h
      split at h
      · rename_i hc
        cases h
        simp only [Option.map_some]
        rw [if_pos]
        exact ⟨hc.1, hc.2.1, hc.2.2.1, by simp [Shell.fixR, hc.2.2.2]⟩
      · cases h

theorem skinThick_fixR (p q : Shell K) : skinThick p.fixR q.fixR = skinThick p q := rfl

/-- A rebuilt 1D stiffener is not changed by a rebuild. -/
theorem blade1_fixed {E : BayEnv K} {B B' : Bay K} (hs : SameSkin B B') {s t : Blade1 K}
    (h : s.rebuild E B = .ok t) : t.rebuild E B' = .ok t := by
  unfold Blade1.rebuild at h ⊢
  obtain ⟨pq, h1, h⟩ := bind_ok.1 h
  obtain ⟨pl, h2, h⟩ := bind_ok.1 h
  obtain ⟨ba, h3, h⟩ := bind_ok.1 h
  obtain ⟨bf, h4, h⟩ := bind_ok.1 h
  obtain ⟨se, h5, h⟩ := bind_ok.1 h
  cases h
  refine bind_ok.2 ⟨_, pair_fixR hs h1, bind_ok.2 ⟨pl, h2, bind_ok.2 ⟨ba, ?_, bind_ok.2 ⟨bf, h4,
    bind_ok.2 ⟨se, h5, rfl⟩⟩⟩⟩⟩
  rw [skinThick_fixR]
  unfold Blade1.freshBase at h3 ⊢
  cases hb : s.bstack with
  | none =>
    simp only [hb] at h3 ⊢
    cases h3
    rfl
  | some st =>
    simp only [hb] at h3 ⊢
    obtain ⟨bb, g1, g2⟩ := bind_ok.1 h3
    cases g2
    refine bind_ok.2 ⟨bb, g1, ?_⟩
    unfold Bay.newBase
    rw [hs.skin, hs.r]
    rfl

theorem optLam_fixed {l : Shell K → Except Err (LamObj K)} (hl : ∀ s x, l { s with lam := x } = l s)
    {o o' : Option (Shell K)} (h : optLam l o = .ok o') : optLam l o' = .ok o' := by
  cases o with
  | none => cases h; rfl
  | some f =>
    unfold optLam at h
    obtain ⟨x, hx, h⟩ := bind_ok.1 h
    cases h
    unfold optLam
    refine bind_ok.2 ⟨x, ?_, rfl⟩
    rw [hl]
    exact hx

/-- A rebuilt 2D stiffener is not changed by a rebuild. -/
theorem blade2_fixed {E : BayEnv K} {B B' : Bay K} (hs : SameSkin B B') {s t : Blade2 K}
    (h : s.rebuild E B = .ok t) : t.rebuild E B' = .ok t := by
  unfold Blade2.rebuild at h ⊢
  obtain ⟨pq, h1, h⟩ := bind_ok.1 h
  obtain ⟨fl, h2, h⟩ := bind_ok.1 h
  obtain ⟨ba, h3, h⟩ := bind_ok.1 h
  cases h
  refine bind_ok.2 ⟨_, pair_fixR hs h1, bind_ok.2 ⟨fl, optLam_fixed (fun _ _ => rfl) h2,
    bind_ok.2 ⟨ba, ?_, rfl⟩⟩⟩
  exact optLam_fixed (fun _ _ => rfl) h3

theorem optLam_shape {l : Shell K → Except Err (LamObj K)} {o o' : Option (Shell K)}
    (h : optLam l o = .ok o') : (o = none ∧ o' = none) ∨
      ∃ f x, o = some f ∧ o' = some { f with lam := some x } := by
  cases o with
  | none => cases h; exact .inl ⟨rfl, rfl⟩
  | some f =>
    unfold optLam at h
    obtain ⟨x, hx, h⟩ := bind_ok.1 h
    cases h
    exact .inr ⟨f, x, rfl, rfl⟩

/-- What `BladeStiff2D._rebuild` leaves. -/
theorem blade2_kept {E : BayEnv K} {B : Bay K} {s t : Blade2 K} (h : s.rebuild E B = .ok t) :
    ((s.flange = none ∧ t.flange = none) ∨
      ∃ f x, s.flange = some f ∧ t.flange = some { f with lam := some x }) ∧
    ((s.base = none ∧ t.base = none) ∨
      ∃ f x, s.base = some f ∧ t.base = some { f with lam := some x }) ∧
    t.ys = s.ys ∧ t.panel1 = s.panel1 ∧ t.panel2 = s.panel2 ∧
    ∃ pq, B.pair s.panel1 s.panel2 = .ok pq := by
  unfold Blade2.rebuild at h
  obtain ⟨pq, h1, h⟩ := bind_ok.1 h
  obtain ⟨fl, h2, h⟩ := bind_ok.1 h
  obtain ⟨ba, h3, h⟩ := bind_ok.1 h
  cases h
  exact ⟨optLam_shape h2, optLam_shape h3, rfl, rfl, rfl, pq, h1⟩

/-- The base that `BladeStiff1D._rebuild` leaves. -/
theorem blade1_base {E : BayEnv K} {B : Bay K} {s t : Blade1 K} (h : s.rebuild E B = .ok t) :
    (t.base = s.base ∧ s.bstack = none) ∨
      ∃ st bb hh, s.bstack = some st ∧ s.bb = some bb ∧
        t.base = some (B.newBase s.ys bb s.rho st s.bplyts s.blaminaprops hh) := by
  unfold Blade1.rebuild at h
  obtain ⟨pq, h1, h⟩ := bind_ok.1 h
  obtain ⟨pl, h2, h⟩ := bind_ok.1 h
  obtain ⟨ba, h3, h⟩ := bind_ok.1 h
  obtain ⟨bf, h4, h⟩ := bind_ok.1 h
  obtain ⟨se, h5, h⟩ := bind_ok.1 h
  cases h
  unfold Blade1.freshBase at h3
  cases hb : s.bstack with
  | none =>
    simp only [hb] at h3
    cases h3
    exact .inl ⟨rfl, rfl⟩
  | some st =>
    simp only [hb] at h3
    obtain ⟨bb, g1, g2⟩ := bind_ok.1 h3
    cases g2
    refine .inr ⟨st, bb, _, rfl, ?_, rfl⟩
    unfold number at g1
    cases hbb : s.bb with
    | none => simp [hbb] at g1
    | some x => simp [hbb] at g1; rw [g1]

/-! ## Parts at an offset and alone -/

theorem calcKG_part {E : Env K} {s t : Shell K} {N s0 : ℕ} {L : Coo K}
    (h : s.calcKG E { row0 := s0, col0 := s0, size := .num N, finalize := false } = .ok (L, t))
    (hN : s0 + 3 * s.pan.m * s.pan.n ≤ N) :
    ∃ r L0, s.rebuild E = .ok r ∧ t = r.fixR ∧ s.calcKG E {} = .ok (L0, t) ∧
      ∀ v, Coo.quad (Coo.finalizeSym L) v = Coo.quad L0 fun k => v (s0 + k) := by
  have h' := h
  unfold Shell.calcKG at h'
  obtain ⟨r, hr, -⟩ := bind_ok.1 h'
  obtain ⟨L1, L0, e1, e2, e3⟩ := kG_slice E s r hr none N s0 hN (fun x hx => by cases hx)
  rw [h] at e1
  cases e1
  exact ⟨r, L0, hr, rfl, e2, e3⟩

theorem calcKM_part {E : Env K} {s t : Shell K} {N s0 : ℕ} {L : Coo K}
    (h : s.calcKM E (.num N) s0 s0 none none none none false = .ok (L, t))
    (hN : s0 + 3 * s.pan.m * s.pan.n ≤ N) :
    ∃ L0, t = s.fixR ∧ s.calcKM E .none 0 0 none none none none true = .ok (L0, t) ∧
      ∀ v, Coo.quad (Coo.finalizeSym L) v = Coo.quad L0 fun k => v (s0 + k) := by
  have h' := h
  cases hk : s.model.bind kindOf with
  | none =>
    unfold Shell.calcKM at h'
    simp only [hk] at h'
    cases h'
  | some k =>
    cases hl : s.lam with
    | none =>
      unfold Shell.calcKM at h'
      have hl' : s.fixR.lam = none := hl
      simp only [hk, hl', bind, Except.bind] at h'
      cases h'
    | some lam =>
      obtain ⟨L1, L0, e1, e2, e3⟩ := kM_slice E s hk hl N s0 hN
      rw [h] at e1
      cases e1
      exact ⟨L0, rfl, e2, e3⟩

theorem toSparse_inv {n : ℕ} {L L' : Coo K} (h : toSparse n L = .ok L') : L' = L := by
  unfold toSparse at h
  split at h
  · cases h; rfl
  · cases h

/-- What an optional part amounts to. -/
theorem optPart_ok {f : Shell K → Except Fail (Coo K × Shell K)} {o o' : Option (Shell K)} {L : Coo K}
    (h : optPart f o = .ok (L, o')) : (o = none ∧ o' = none ∧ L = []) ∨
      ∃ s t, o = some s ∧ o' = some t ∧ f s = .ok (L, t) := by
  cases o with
  | none => cases h; exact .inl ⟨rfl, rfl, rfl⟩
  | some s =>
    unfold optPart at h
    obtain ⟨⟨L', t⟩, h1, h⟩ := bind_ok.1 h
    cases h
    exact .inr ⟨s, t, rfl, rfl, h1⟩

end Verif
