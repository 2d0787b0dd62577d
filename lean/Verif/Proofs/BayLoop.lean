import Verif.Model.Bay
import Verif.Basic.Exc
import Verif.Proofs.ShellSlice
import Verif.Proofs.ConnTotal

/-!
# The loops of `StiffPanelBay`
-/

set_option linter.unusedSectionVars false

namespace Verif

open Model

variable {K : Type} [Field K] [LinearOrder K]

theorem quad_nil (v : ℕ → K) : Coo.quad (Coo.finalizeSym ([] : Coo K)) v = 0 := by
  simp [Coo.finalizeSym, Coo.quad]

theorem mapE_ok {α β : Type} {f : α → Except Fail β} {l : List α} {l' : List β}
    (h : mapE f l = .ok l') : List.Forall₂ (fun a b => f a = .ok b) l l' := by
  induction l generalizing l' with
  | nil => cases h; exact .nil
  | cons a l ih =>
    unfold mapE at h
    obtain ⟨b, hb, h⟩ := bind_ok.1 h
    obtain ⟨bs, hbs, h⟩ := bind_ok.1 h
    cases h
    exact .cons hb (ih hbs)

theorem sumLoop_ok {α : Type} {f : α → Except Fail (Coo K × α)} {l l' : List α} {L : Coo K}
    (h : sumLoop f l = .ok (L, l')) :
    ∃ X : List (Coo K × α), List.Forall₂ (fun a x => f a = .ok x) l X ∧ l' = X.map Prod.snd ∧
      L = (X.map Prod.fst).flatten := by
  induction l generalizing l' L with
  | nil => cases h; exact ⟨[], .nil, rfl, rfl⟩
  | cons a l ih =>
    unfold sumLoop at h
    obtain ⟨x, hx, h⟩ := bind_ok.1 h
    obtain ⟨y, hy, h⟩ := bind_ok.1 h
    cases h
    obtain ⟨X, h1, h2, h3⟩ := ih hy
    exact ⟨x :: X, .cons hx h1, by rw [h2]; rfl, by rw [h3]; rfl⟩

/-- The steps of the loop over the 2D stiffeners: offset, matrix and stiffener afterwards of each. -/
inductive Steps (f : Bay K → ℕ → Blade2 K → Except Fail (Coo K × Blade2 K × Bay K)) :
    Bay K → ℕ → List (Blade2 K) → List (ℕ × Coo K × Blade2 K) → Bay K → Prop
  | nil (B : Bay K) (off : ℕ) : Steps f B off [] [] B
  | cons {B B1 B2 : Bay K} {off d : ℕ} {s s' : Blade2 K} {L : Coo K} {l : List (Blade2 K)}
      {X : List (ℕ × Coo K × Blade2 K)} (h : f B off s = .ok (L, s', B1))
      (hd : flangeSize s' = .ok d) (ht : Steps f B1 (off + d) l X B2) :
      Steps f B off (s :: l) ((off, L, s') :: X) B2

theorem blade2Loop_ok {f : Bay K → ℕ → Blade2 K → Except Fail (Coo K × Blade2 K × Bay K)}
    {l l' : List (Blade2 K)} {B B' : Bay K} {off : ℕ} {L : Coo K}
    (h : blade2Loop f B off l = .ok (L, l', B')) :
    ∃ X, Steps f B off l X B' ∧ l' = X.map (fun x => x.2.2) ∧ L = (X.map fun x => x.2.1).flatten := by
  induction l generalizing l' B off L with
  | nil => cases h; exact ⟨[], .nil _ _, rfl, rfl⟩
  | cons s l ih =>
    unfold blade2Loop at h
    obtain ⟨⟨L1, s1, B1⟩, h1, h⟩ := bind_ok.1 h
    obtain ⟨d, h2, h⟩ := bind_ok.1 h
    obtain ⟨⟨L2, l2, B2⟩, h3, h⟩ := bind_ok.1 h
    cases h
    obtain ⟨X, g1, g2, g3⟩ := ih h3
    exact ⟨_, .cons h1 h2 g1, by rw [g2]; rfl, by rw [g3]; rfl⟩

/-- What a successful assembly consists of. -/
theorem assemble_ok {E : BayEnv K} {B B' : Bay K} {k : Coo K}
    {fp : ℕ → Shell K → Except Fail (Coo K × Shell K)}
    {f1 : Bay K → ℕ → Blade1 K → Except Fail (Coo K × Blade1 K)}
    {f2 : ℕ → Bay K → ℕ → Blade2 K → Except Fail (Coo K × Blade2 K × Bay K)}
    (h : B.assemble E fp f1 f2 = .ok (k, B')) :
    ∃ R N kd, B.rebuild E = .ok R ∧ R.getSize = .ok N ∧ R.model.bind kindOf = some kd ∧
    ∃ XP X1 X2 B2, List.Forall₂ (fun a x => fp N a = .ok x) R.panels XP ∧
      List.Forall₂ (fun a x => f1 { R with panels := XP.map Prod.snd } N a = .ok x) R.blade1 X1 ∧
      Steps (f2 N) { R with panels := XP.map Prod.snd, blade1 := X1.map Prod.snd }
        (3 * R.skin.m * R.skin.n) R.blade2 X2 B2 ∧
      k = Coo.finalizeSym ((XP.map Prod.fst).flatten ++ (X1.map Prod.fst).flatten ++
        (X2.map fun x => x.2.1).flatten) := by
  unfold Bay.assemble at h
  obtain ⟨R, hR, h⟩ := bind_ok.1 h
  obtain ⟨N, hN, h⟩ := bind_ok.1 h
  obtain ⟨⟨Lp, ps⟩, hp, h⟩ := bind_ok.1 h
  obtain ⟨⟨L1, b1⟩, h1, h⟩ := bind_ok.1 h
  obtain ⟨off, ho, h⟩ := bind_ok.1 h
  obtain ⟨⟨L2, b2, B2⟩, h2, h⟩ := bind_ok.1 h
  obtain ⟨k', hk, h⟩ := bind_ok.1 h
  cases h
  obtain ⟨XP, p1, p2, p3⟩ := sumLoop_ok hp
  obtain ⟨X1, q1, q2, q3⟩ := sumLoop_ok h1
  obtain ⟨X2, r1, r2, r3⟩ := blade2Loop_ok h2
  have hs : ∃ kd, R.model.bind kindOf = some kd ∧ off = 3 * R.skin.m * R.skin.n := by
    unfold Bay.skinSize at ho
    split at ho
    · cases ho
    · rename_i kd hkd
      cases ho
      exact ⟨kd, hkd, rfl⟩
  obtain ⟨kd, hkd, rfl⟩ := hs
  refine ⟨R, N, kd, hR, hN, hkd, XP, X1, X2, B2, p1, ?_, ?_, ?_⟩
  · rw [p2] at q1; exact q1
  · rw [p2, q2] at r1; exact r1
  · unfold finSum at hk
    split at hk
    · cases hk
    · cases hk
      rw [p3, q3, r3]
      rfl

/-- The rebuild of a bay. -/
theorem bay_rebuild_ok {E : BayEnv K} {B R : Bay K} (h : B.rebuild E = .ok R) :
    ∃ m ps, rebuildPanels E.toEnv B.model B.panels = .ok (m, ps) ∧ R.panels = ps ∧ R.model = m ∧
      R.skin = B.skin ∧ R.r = B.r ∧
      List.Forall₂ (fun s t => Blade1.rebuild E { B with model := m, panels := ps } s = .ok t)
        B.blade1 R.blade1 ∧
      List.Forall₂ (fun s t => Blade2.rebuild E { B with model := m, panels := ps, blade1 := R.blade1 } s
        = .ok t) B.blade2 R.blade2 := by
  unfold Bay.rebuild at h
  obtain ⟨⟨m, ps⟩, hp, h⟩ := bind_ok.1 h
  obtain ⟨b1, h1, h⟩ := bind_ok.1 h
  obtain ⟨b2, h2, h⟩ := bind_ok.1 h
  cases h
  exact ⟨m, ps, hp, rfl, rfl, rfl, rfl, mapE_ok h1, mapE_ok h2⟩

/-- The panels after a rebuild: each rebuilt, all of one model. -/
theorem rebuildPanels_ok {E : Env K} {m m' : Option String} {l l' : List (Shell K)}
    (h : rebuildPanels E m l = .ok (m', l')) :
    List.Forall₂ (fun s t => s.rebuild E = .ok t) l l' ∧ (∀ t ∈ l', t.model = m') ∧
      (l = [] → m' = m) ∧ (m ≠ none → m' = m) := by
  induction l generalizing m m' l' with
  | nil =>
    cases h
    refine ⟨.nil, ?_, ?_, ?_⟩ <;> simp
  | cons p l ih =>
    unfold rebuildPanels at h
    obtain ⟨q, hq, h⟩ := bind_ok.1 h
    cases m with
    | some x =>
      simp only at h
      split at h
      · cases h
      · rename_i hm
        obtain ⟨⟨m1, l1⟩, h1, h⟩ := bind_ok.1 h
        cases h
        obtain ⟨g1, g2, g3, g4⟩ := ih h1
        have e : m1 = some x := g4 (by simp)
        refine ⟨.cons hq g1, ?_, ?_, ?_⟩
        · intro t ht
          rcases List.mem_cons.1 ht with rfl | ht
          · show _ = m1
            rw [e]
            first | exact (not_not.1 hm).symm | exact not_not.1 hm
          · exact g2 t ht
        · intro h; simp at h
        · intro _; exact e
    | none =>
      obtain ⟨⟨m1, l1⟩, h1, h⟩ := bind_ok.1 h
      cases h
      obtain ⟨g1, g2, g3, g4⟩ := ih h1
      have hq' : q.model ≠ none := by
        obtain ⟨-, -, -, -, lam, -, rfl⟩ := (C54.rebuild_ok_iff E p q).1 hq
        simp
      refine ⟨.cons hq g1, ?_, ?_, ?_⟩
      · intro t ht
        rcases List.mem_cons.1 ht with rfl | ht
        · exact (g4 hq').symm
        · exact g2 t ht
      · intro h; simp at h
      · intro h; exact absurd rfl h

/-- A rebuilt panel with `r` made a number is still unchanged by a rebuild. -/
theorem fixR_fixed {E : Env K} {p : Shell K} (h : p.rebuild E = .ok p) :
    p.fixR.rebuild E = .ok p.fixR := by
  obtain ⟨⟨k, hk⟩, h2, h3, h4, lam, hl, e⟩ := (C54.rebuild_ok_iff E p p).1 h
  have hm : p.model = some (p.model.getD (defaultModel p.r)) := by
    have := congrArg Shell.model e
    exact this
  have hm' : ∃ x, p.model = some x := ⟨_, hm⟩
  obtain ⟨x, hx⟩ := hm'
  rw [C54.rebuild_ok_iff]
  refine ⟨⟨k, ?_⟩, h2, h3, h4, lam, hl, ?_⟩
  · show kindOf (p.model.getD _) = _
    rw [hx] at hk ⊢
    exact hk
  · have e' := congrArg Shell.fixR e
    refine e'.trans ?_
    unfold Shell.fixR
    simp [hx]

/-- `calc_kC` succeeded inside a larger matrix: so it does alone. -/
theorem calcKC_part {E : Env K} {s t : Shell K} {N s0 : ℕ} {L : Coo K}
    (h : s.calcKC E { row0 := s0, col0 := s0, size := .num N, finalize := false } = .ok (L, t))
    (hN : s0 + 3 * s.pan.m * s.pan.n ≤ N) :
    ∃ r L0, s.rebuild E = .ok r ∧ t = r.fixR ∧ s.calcKC E {} = .ok (L0, t) ∧
      ∀ v, Coo.quad (Coo.finalizeSym L) v = Coo.quad L0 fun k => v (s0 + k) := by
  have h' := h
  unfold Shell.calcKC at h'
  obtain ⟨r, hr, -⟩ := bind_ok.1 h'
  obtain ⟨L1, L0, e1, e2, e3⟩ := kC_slice E s r hr none N s0 hN (fun x hx => by cases hx)
  rw [h] at e1
  cases e1
  exact ⟨r, L0, hr, rfl, e2, e3⟩

/-- `rebuild` does not read the laminate it replaces. -/
theorem rebuild_lam (E : Env K) (s : Shell K) (l : Option (LamObj K)) :
    Shell.rebuild E { s with lam := l } = s.rebuild E := rfl

theorem calcKC_lam (E : Env K) (s : Shell K) (l : Option (LamObj K)) (A : KArgs K) :
    Shell.calcKC E { s with lam := l } A = s.calcKC E A := rfl

theorem calcKG_lam (E : Env K) (s : Shell K) (l : Option (LamObj K)) (A : KArgs K) :
    Shell.calcKG E { s with lam := l } A = s.calcKG E A := rfl

end Verif
