import Verif.Proofs.BayParts
import Verif.Props.C46

/-!
# C52: every 2D stiffener of a bay has its own block

`width s` is what a 2D stiffener adds, `start B i` where the `i`-th begins: after the skin and the
stiffeners before it.  The blocks are disjoint and fill the matrix (`disjoint`, `inside`, `filled`).
`kC_energy`, `kG_energy`, `kM_energy`: the matrix of a bay has the quadratic form of the sum over its
panels and stiffeners, each skin part on the amplitudes of the skin, and each flange on its own block.
A stiffener without flange, which the class allows, makes all of them fail (`no_flange`).
-/

set_option linter.unusedSectionVars false

namespace Verif.C52

open Model

variable {K : Type} [Field K] [LinearOrder K]

/-- Number of amplitudes of the flange of a stiffener. -/
def width (s : Blade2 K) : ℕ :=
  match s.flange with
  | none => 0
  | some f => 3 * f.pan.m * f.pan.n

/-- First amplitude of the `i`-th 2D stiffener. -/
def start (B : Bay K) (i : ℕ) : ℕ := 3 * B.skin.m * B.skin.n + ((B.blade2.take i).map width).sum

theorem flangeSizes_ok {l : List (Blade2 K)} {n : ℕ} : flangeSizes l = .ok n ↔
    (∀ s ∈ l, ∃ f, s.flange = some f ∧ f.model.bind kindOf ≠ none) ∧ n = (l.map width).sum := by
  induction l generalizing n with
  | nil => simp [flangeSizes, eq_comm]
  | cons s l ih =>
    unfold flangeSizes
    cases hf : s.flange with
    | none => simp [hf]
    | some f =>
      have hw : width s = 3 * f.pan.m * f.pan.n := by unfold width; rw [hf]
      simp only [bind_ok, List.forall_mem_cons, List.map_cons, List.sum_cons, hf]
      unfold Shell.getSize
      constructor
      · rintro ⟨d, hd, n', hn', h⟩
        cases h
        obtain ⟨h1, rfl⟩ := ih.1 hn'
        split at hd
        · cases hd
        · rename_i k hk
          cases hd
          exact ⟨⟨⟨f, rfl, by simp [hk]⟩, h1⟩, by rw [hw]⟩
      · rintro ⟨⟨⟨g, hg, hk⟩, h1⟩, rfl⟩
        cases hg
        refine ⟨width s, ?_, _, ih.2 ⟨h1, rfl⟩, rfl⟩
        cases hk' : f.model.bind kindOf with
        | none => exact absurd hk' hk
        | some k => rw [hw]

/-- `get_size`: when it succeeds, and its value. -/
theorem size_iff (B : Bay K) (N : ℕ) : B.getSize = .ok N ↔
    B.model.bind kindOf ≠ none ∧
      (∀ s ∈ B.blade2, ∃ f, s.flange = some f ∧ f.model.bind kindOf ≠ none) ∧
      N = 3 * B.skin.m * B.skin.n + (B.blade2.map width).sum := by
  unfold Bay.getSize Bay.skinSize
  cases hk : B.model.bind kindOf with
  | none => simp [bind, Except.bind]
  | some k =>
    simp only [bind_ok]
    constructor
    · rintro ⟨d, hd, n, hn, h⟩
      cases hd
      cases h
      obtain ⟨h1, rfl⟩ := flangeSizes_ok.1 hn
      exact ⟨by simp, h1, rfl⟩
    · rintro ⟨-, h1, rfl⟩
      exact ⟨_, rfl, _, flangeSizes_ok.2 ⟨h1, rfl⟩, rfl⟩

theorem start_succ (B : Bay K) {i : ℕ} {s : Blade2 K} (h : B.blade2[i]? = some s) :
    start B (i + 1) = start B i + width s := by
  unfold start
  rw [List.take_add_one, h]
  simp [add_assoc]

theorem start_mono (B : Bay K) {i j : ℕ} (h : i ≤ j) : start B i ≤ start B j := by
  induction j, h using Nat.le_induction with
  | base => exact le_refl _
  | succ j _ ih =>
    refine ih.trans ?_
    cases hs : B.blade2[j]? with
    | none =>
      rw [List.getElem?_eq_none_iff] at hs
      unfold start
      rw [List.take_of_length_le hs, List.take_of_length_le (by omega)]
    | some s => rw [start_succ B hs]; exact Nat.le_add_right _ _

/-- The first block begins after the skin. -/
theorem start_zero (B : Bay K) : start B 0 = 3 * B.skin.m * B.skin.n := by simp [start]

/-- Blocks of different stiffeners do not meet. -/
theorem disjoint (B : Bay K) {i j : ℕ} {s : Blade2 K} (hi : B.blade2[i]? = some s) (hij : i < j) :
    start B i + width s ≤ start B j := by
  rw [← start_succ B hi]
  exact start_mono B hij

/-- The blocks end where the matrix ends. -/
theorem filled (B : Bay K) {N : ℕ} (hN : B.getSize = .ok N) : start B B.blade2.length = N := by
  obtain ⟨-, -, rfl⟩ := (size_iff B N).1 hN
  simp [start]

/-- Every block is inside the matrix. -/
theorem inside (B : Bay K) {N : ℕ} (hN : B.getSize = .ok N) {i : ℕ} {s : Blade2 K}
    (hi : B.blade2[i]? = some s) : start B i + width s ≤ N := by
  rw [← filled B hN]
  exact disjoint B hi (List.getElem?_eq_some_iff.1 hi).1

/-- The skin and bases of a bay have the terms of the bay: so `add_panel` and `add_bladestiff*d` make
them. -/
structure Terms (B : Bay K) : Prop where
  panels : ∀ p ∈ B.panels, p.pan.m = B.skin.m ∧ p.pan.n = B.skin.n
  base1 : ∀ s ∈ B.blade1, ∀ b, s.base = some b → b.pan.m = B.skin.m ∧ b.pan.n = B.skin.n
  base2 : ∀ s ∈ B.blade2, ∀ b, s.base = some b → b.pan.m = B.skin.m ∧ b.pan.n = B.skin.n

/-- The quadratic form of a part calculated alone, on the amplitudes from `off` on. -/
def Own (g : Shell K → Except Fail (Coo K × Shell K)) (off : ℕ) (o : Option (Shell K))
    (q : (ℕ → K) → K) : Prop :=
  match o with
  | none => ∀ v, q v = 0
  | some b => ∃ L t, g b = .ok (L, t) ∧ ∀ v, q v = Coo.quad L fun k => v (off + k)

/-- The beam of a 1D stiffener. -/
def Beam (E : BayEnv K) (B : Bay K) (s : Blade1 K) (q : (ℕ → K) → K) : Prop :=
  match s.sec with
  | none => ∀ v, q v = 0
  | some c => ∃ bf, s.bf = some bf ∧ ∀ v, q v = Coo.quad (Coo.finalizeSym
      (fkCf E.S E.I B.skin s.ys bf s.dbf c.E1 c.F1 c.S1 s.Jxx 0 0)) v

/-- The joint between the flange of a 2D stiffener and the skin.  The penalty constants are those of
the flange and the base, or without base those of the flange and the first panel. -/
def Joint (E : BayEnv K) (B : Bay K) (off : ℕ) (s : Blade2 K) (q : (ℕ → K) → K) : Prop :=
  match s.flange with
  | none => ∀ v, q v = 0
  | some f => ∃ p p' f' l1 l2 kt kr,
      (match s.base with
        | some b => p = b
        | none => B.panels[s.panel1]? = some p) ∧
      p.rebuild E.toEnv = .ok p' ∧ f.rebuild E.toEnv = .ok f' ∧ p'.lam = some l1 ∧ f'.lam = some l2 ∧
      calcKtKr (penOf p' l1) (penOf f' l2) "ycte" = some (kt, some kr) ∧
      ∀ v, q v = Coo.quad (Coo.finalizeSym
        (bladeConn E.S E.I B.skin f.panel kt kr s.ys 0 off)) v

/-! ## The parts of a rebuilt bay -/

theorem forall₂_mem_right {α β : Type} {P : α → β → Prop} {l : List α} {l' : List β}
    (h : List.Forall₂ P l l') : ∀ b ∈ l', ∃ a ∈ l, P a b := by
  induction h with
  | nil => simp
  | cons hab _ ih =>
    intro b hb
    rcases List.mem_cons.1 hb with rfl | hb
    · exact ⟨_, List.mem_cons_self, hab⟩
    · obtain ⟨a, ha, h⟩ := ih b hb
      exact ⟨a, List.mem_cons_of_mem _ ha, h⟩

/-- A rebuilt bay: panels and stiffeners that a rebuild leaves as they are. -/
structure Built (E : BayEnv K) (R : Bay K) : Prop where
  terms : Terms R
  panels : ∀ p ∈ R.panels, p.rebuild E.toEnv = .ok p
  blade1 : ∀ s ∈ R.blade1, ∀ B', SameSkin R B' → s.rebuild E B' = .ok s
  blade2 : ∀ s ∈ R.blade2, ∀ B', SameSkin R B' → s.rebuild E B' = .ok s

theorem built {E : BayEnv K} {B R : Bay K} (hT : Terms B) (h : B.rebuild E = .ok R) : Built E R := by
  obtain ⟨m, ps, hp, e1, e2, e3, e4, h1, h2⟩ := bay_rebuild_ok h
  obtain ⟨g1, -, -, -⟩ := rebuildPanels_ok hp
  have same : ∀ (B' : Bay K) (b1 : List (Blade1 K)), SameSkin R B' →
      SameSkin { B with model := m, panels := ps, blade1 := b1 } B' := fun B' b1 hs =>
    ⟨hs.skin.trans e3, hs.r.trans e4, by rw [hs.panels, e1]⟩
  refine ⟨⟨?_, ?_, ?_⟩, ?_, ?_, ?_⟩
  · intro p hp'
    rw [e1] at hp'
    obtain ⟨a, ha, hr⟩ := forall₂_mem_right g1 p hp'
    rw [(rebuild_kept E.toEnv hr).1, e3]
    exact hT.panels a ha
  · intro s hs b hb
    obtain ⟨a, ha, hr⟩ := forall₂_mem_right h1 s hs
    rw [e3]
    rcases blade1_base hr with ⟨e, -⟩ | ⟨st, bb, hh, -, -, e⟩
    · exact hT.base1 a ha b (by rw [← e, hb])
    · rw [hb] at e
      cases e
      exact ⟨rfl, rfl⟩
  · intro s hs b hb
    obtain ⟨a, ha, hr⟩ := forall₂_mem_right h2 s hs
    rw [e3]
    rcases (blade2_kept hr).2.1 with ⟨-, e⟩ | ⟨f, x, e, e'⟩
    · rw [hb] at e; cases e
    · rw [hb] at e'
      cases e'
      exact hT.base2 a ha f e
  · intro p hp'
    rw [e1] at hp'
    obtain ⟨a, ha, hr⟩ := forall₂_mem_right g1 p hp'
    exact C54.idempotent E.toEnv _ _ hr
  · intro s hs B' hB'
    obtain ⟨a, ha, hr⟩ := forall₂_mem_right h1 s hs
    exact blade1_fixed (same B' B.blade1 hB') hr
  · intro s hs B' hB'
    obtain ⟨a, ha, hr⟩ := forall₂_mem_right h2 s hs
    exact blade2_fixed (same B' R.blade1 hB') hr

theorem forall₂_of_imp {α β γ : Type} {P : α → β → Prop} {Q : α → γ → Prop} {f : β → γ}
    {l : List α} {l' : List β} (h : List.Forall₂ P l l') (hf : ∀ a b, a ∈ l → P a b → Q a (f b)) :
    List.Forall₂ Q l (l'.map f) := by
  induction h with
  | nil => exact .nil
  | cons hab _ ih =>
    exact .cons (hf _ _ List.mem_cons_self hab)
      (ih fun a b ha h => hf a b (List.mem_cons_of_mem _ ha) h)

theorem forall₂_map_eq {α β γ : Type} {P : α → β → Prop} {f : β → γ} {g : α → γ}
    {l : List α} {l' : List β} (h : List.Forall₂ P l l') (hf : ∀ a b, a ∈ l → P a b → f b = g a) :
    l'.map f = l.map g := by
  induction h with
  | nil => rfl
  | cons hab _ ih =>
    rw [List.map_cons, List.map_cons, hf _ _ List.mem_cons_self hab,
      ih fun a b ha h => hf a b (List.mem_cons_of_mem _ ha) h]

theorem flangeSize_width {s : Blade2 K} {d : ℕ} (h : flangeSize s = .ok d) : d = width s := by
  unfold flangeSize at h
  unfold width
  cases hf : s.flange with
  | none => simp [hf] at h; exact h.symm
  | some f =>
    simp only [hf] at h ⊢
    unfold Shell.getSize at h
    split at h <;> cases h
    rfl

/-- The loop over the 2D stiffeners gives each the offset after those before it. -/
theorem steps_offsets {f : Bay K → ℕ → Blade2 K → Except Fail (Coo K × Blade2 K × Bay K)}
    {B B2 : Bay K} {off : ℕ} {l : List (Blade2 K)} {X : List (ℕ × Coo K × Blade2 K)}
    (h : Steps f B off l X B2) {P : Blade2 K → ℕ → Coo K → Prop}
    (hf : ∀ i s L s' B1, l[i]? = some s → f B (off + ((l.take i).map width).sum) s = .ok (L, s', B1) →
      B1 = B ∧ width s' = width s ∧ P s (off + ((l.take i).map width).sum) L) :
    X.length = l.length ∧ ∀ i s x, l[i]? = some s → X[i]? = some x →
      P s (off + ((l.take i).map width).sum) x.2.1 := by
  induction h with
  | nil B off => simp
  | cons hs hd _ ih =>
    obtain ⟨rfl, hw, hP⟩ := hf 0 _ _ _ _ rfl hs
    have hd' := (flangeSize_width hd).trans hw
    have := ih (fun i s L s' B1 hi hfi => by
      have := hf (i + 1) s L s' B1 (by simpa using hi)
      simp only [List.take_succ_cons, List.map_cons, List.sum_cons, ← add_assoc, ← hd'] at this
      exact this hfi)
    refine ⟨by simp [this.1], ?_⟩
    intro i s x hi hx
    cases i with
    | zero =>
      simp only [List.getElem?_cons_zero, Option.some.injEq] at hi hx
      subst hi hx
      exact hP
    | succ i =>
      simp only [List.getElem?_cons_succ] at hi hx
      simp only [List.take_succ_cons, List.map_cons, List.sum_cons, ← add_assoc, ← hd']
      exact this.2 i s x hi hx

/-- The general form: what is known of the parts of panels and stiffeners gives the matrix of the bay. -/
theorem assemble_energy {E : BayEnv K} {B B' : Bay K} {k : Coo K}
    {fp : ℕ → Shell K → Except Fail (Coo K × Shell K)}
    {f1 : Bay K → ℕ → Blade1 K → Except Fail (Coo K × Blade1 K)}
    {f2 : ℕ → Bay K → ℕ → Blade2 K → Except Fail (Coo K × Blade2 K × Bay K)}
    (hT : Terms B) (h : B.assemble E fp f1 f2 = .ok (k, B'))
    (Pp : Shell K → ((ℕ → K) → K) → Prop) (P1 : Bay K → Blade1 K → ((ℕ → K) → K) → Prop)
    (P2 : Bay K → ℕ → Blade2 K → ((ℕ → K) → K) → Prop)
    (hp : ∀ (R : Bay K) N p L t, Built E R → p ∈ R.panels → 3 * p.pan.m * p.pan.n ≤ N →
      fp N p = .ok (L, t) → t = p.fixR ∧ Pp p fun v => Coo.quad (Coo.finalizeSym L) v)
    (h1 : ∀ (R C : Bay K) N s L t, Built E R → SameSkin R C → 3 * R.skin.m * R.skin.n ≤ N →
      s ∈ R.blade1 → f1 C N s = .ok (L, t) → P1 R s fun v => Coo.quad (Coo.finalizeSym L) v)
    (h2 : ∀ (R C : Bay K) N off s L t C', Built E R → SameSkin R C → 3 * R.skin.m * R.skin.n ≤ N →
      off + width s ≤ N → s ∈ R.blade2 → f2 N C off s = .ok (L, t, C') →
      C' = C ∧ width t = width s ∧ P2 R off s fun v => Coo.quad (Coo.finalizeSym L) v) :
    ∃ R N, B.rebuild E = .ok R ∧ R.getSize = .ok N ∧ ∃ Qp Q1 Q2 : List ((ℕ → K) → K),
      List.Forall₂ Pp R.panels Qp ∧ List.Forall₂ (P1 R) R.blade1 Q1 ∧
      Q2.length = R.blade2.length ∧
      (∀ i s q, R.blade2[i]? = some s → Q2[i]? = some q → P2 R (start R i) s q) ∧
      ∀ v, Coo.quad k v
        = (Qp.map fun q => q v).sum + (Q1.map fun q => q v).sum + (Q2.map fun q => q v).sum := by
  obtain ⟨R, N, kd, hR, hN, hkd, XP, X1, X2, B2, gp, g1, g2, rfl⟩ := assemble_ok h
  have hb := built hT hR
  have hsk : 3 * R.skin.m * R.skin.n ≤ N := by
    rw [← filled R hN, ← start_zero R]
    exact start_mono R (Nat.zero_le _)
  have hpN : ∀ p ∈ R.panels, 3 * p.pan.m * p.pan.n ≤ N := by
    intro p hp'
    rw [(hb.terms.panels p hp').1, (hb.terms.panels p hp').2]
    exact hsk
  have hps : XP.map Prod.snd = R.panels.map Shell.fixR :=
    forall₂_map_eq gp fun p x hp' hx => (hp R N p x.1 x.2 hb hp' (hpN p hp') hx).1
  obtain ⟨hl, hst⟩ := steps_offsets g2
    (P := fun s off L => P2 R off s fun v => Coo.quad (Coo.finalizeSym L) v)
    (fun i s L s' B1 hi hfi => h2 R _ N _ s L s' B1 hb ⟨rfl, rfl, hps⟩ hsk (inside R hN hi)
      (List.mem_of_getElem? hi) hfi)
  refine ⟨R, N, hR, hN, XP.map fun x v => Coo.quad (Coo.finalizeSym x.1) v,
    X1.map fun x v => Coo.quad (Coo.finalizeSym x.1) v,
    X2.map fun x v => Coo.quad (Coo.finalizeSym x.2.1) v, ?_, ?_, by simpa using hl, ?_, ?_⟩
  · exact forall₂_of_imp gp fun p x hp' hx => (hp R N p x.1 x.2 hb hp' (hpN p hp') hx).2
  · exact forall₂_of_imp g1 fun s x hs hx => h1 R { R with panels := XP.map Prod.snd } N s x.1 x.2 hb
      ⟨rfl, rfl, hps⟩ hsk hs hx
  · intro i s q hi hq
    rw [List.getElem?_map] at hq
    cases hx : X2[i]? with
    | none => simp [hx] at hq
    | some x =>
      simp only [hx, Option.map_some, Option.some.injEq] at hq
      subst hq
      exact hst i s x hi hx
  · intro v
    rw [Coo.finalizeSym_append_quad, Coo.finalizeSym_append_quad, quad_flatten, quad_flatten,
      quad_flatten]
    simp only [List.map_map, Function.comp_def]

/-! ## Stiffness -/

theorem own_part {g : Shell K → Except Fail (Coo K × Shell K)}
    {f : Shell K → Except Fail (Coo K × Shell K)} {off : ℕ} {o o' : Option (Shell K)} {L : Coo K}
    (h : optPart f o = .ok (L, o'))
    (hf : ∀ b t, o = some b → f b = .ok (L, t) → ∃ L0 t', g b = .ok (L0, t') ∧
      ∀ v, Coo.quad (Coo.finalizeSym L) v = Coo.quad L0 fun k => v (off + k)) :
    Own g off o fun v => Coo.quad (Coo.finalizeSym L) v := by
  rcases optPart_ok h with ⟨rfl, -, rfl⟩ | ⟨b, t, rfl, -, hb⟩
  · exact quad_nil
  · exact hf b t rfl hb

/-- The penalty constants of a 2D stiffener, whose base and flange have been calculated. -/
theorem ktkrY_ok {E : Env K} {p f p1 f1 : Shell K} {k : K × K}
    (h : ktkrY E p f = .ok (k, p1, f1)) : ∃ l1 l2, p.rebuild E = .ok p1 ∧ f.rebuild E = .ok f1 ∧
      p1.lam = some l1 ∧ f1.lam = some l2 ∧
      calcKtKr (penOf p1 l1) (penOf f1 l2) "ycte" = some (k.1, some k.2) := by
  unfold ktkrY at h
  obtain ⟨a, ha, h⟩ := bind_ok.1 h
  obtain ⟨b, hb, h⟩ := bind_ok.1 h
  split at h
  · rename_i l1 l2 e1 e2
    split at h
    · rename_i kt kr hk
      cases h
      exact ⟨l1, l2, ha, hb, e1, e2, hk⟩
    · cases h
  · cases h

theorem set_same {α : Type} {l : List α} {i : ℕ} {a : α} (h : l[i]? = some a) : l.set i a = l := by
  obtain ⟨hi, rfl⟩ := List.getElem?_eq_some_iff.1 h
  exact List.set_getElem_self hi

/-- What a 2D stiffener adds to the stiffness matrix. -/
def Blade2C (E : BayEnv K) (R : Bay K) (off : ℕ) (s : Blade2 K) (q : (ℕ → K) → K) : Prop :=
  ∃ qb qf qj, Own (fun b => b.calcKC E.toEnv {}) 0 s.base qb ∧
    Own (fun b => b.calcKC E.toEnv {}) off s.flange qf ∧ Joint E R off s qj ∧
    ∀ v, q v = qb v + qf v + qj v

/-- What a 1D stiffener adds to the stiffness matrix. -/
def Blade1C (E : BayEnv K) (R : Bay K) (s : Blade1 K) (q : (ℕ → K) → K) : Prop :=
  ∃ qb qf, Own (fun b => b.calcKC E.toEnv {}) 0 s.base qb ∧ Beam E R s qf ∧ ∀ v, q v = qb v + qf v

theorem blade1C {E : BayEnv K} {R C : Bay K} {N : ℕ} {s t : Blade1 K} {L : Coo K} (hb : Built E R)
    (hC : SameSkin R C) (hN : 3 * R.skin.m * R.skin.n ≤ N) (hs : s ∈ R.blade1)
    (h : s.calcKC E C N 0 0 = .ok (L, t)) :
    Blade1C E R s fun v => Coo.quad (Coo.finalizeSym L) v := by
  unfold Blade1.calcKC at h
  obtain ⟨s', hr, h⟩ := bind_ok.1 h
  rw [hb.blade1 s hs C hC] at hr
  cases hr
  obtain ⟨⟨Lb, b⟩, h1, h⟩ := bind_ok.1 h
  obtain ⟨Lf, h2, h⟩ := bind_ok.1 h
  cases h
  refine ⟨_, _, own_part h1 fun b t e hbt => ?_, ?_, fun v => Coo.finalizeSym_append_quad Lb Lf v⟩
  · have ht := hb.terms.base1 s hs b e
    obtain ⟨r, L0, -, -, e1, e2⟩ := calcKC_part hbt (by rw [ht.1, ht.2]; omega)
    exact ⟨L0, t, e1, e2⟩
  · unfold Blade1.partC at h2
    unfold Beam
    cases hsec : s.sec with
    | none =>
      simp only [hsec] at h2 ⊢
      cases h2
      exact quad_nil
    | some c =>
      simp only [hsec] at h2 ⊢
      obtain ⟨bf, h3, h2⟩ := bind_ok.1 h2
      rw [toSparse_inv h2, hC.skin]
      refine ⟨bf, ?_, fun v => rfl⟩
      unfold number at h3
      cases hbf : s.bf with
      | none => simp [hbf] at h3
      | some x => simp [hbf] at h3; rw [h3]

theorem blade2C {E : BayEnv K} {R C C' : Bay K} {N off : ℕ} {s t : Blade2 K} {L : Coo K}
    (hb : Built E R) (hC : SameSkin R C) (hN : 3 * R.skin.m * R.skin.n ≤ N) (hw : off + width s ≤ N)
    (hs : s ∈ R.blade2) (h : s.calcKC E C N off = .ok (L, t, C')) :
    C' = C ∧ width t = width s ∧ Blade2C E R off s fun v => Coo.quad (Coo.finalizeSym L) v := by
  unfold Blade2.calcKC at h
  obtain ⟨s', hr, h⟩ := bind_ok.1 h
  rw [hb.blade2 s hs C hC] at hr
  cases hr
  obtain ⟨⟨Lb, ob⟩, h1, h⟩ := bind_ok.1 h
  obtain ⟨⟨Lf, t', C''⟩, h2, h⟩ := bind_ok.1 h
  cases h
  have hown : Own (fun b => b.calcKC E.toEnv {}) 0 s.base
      fun v => Coo.quad (Coo.finalizeSym Lb) v := by
    refine own_part h1 fun b t e hbt => ?_
    have ht := hb.terms.base2 s hs b e
    obtain ⟨r, L0, -, -, e1, e2⟩ := calcKC_part (s0 := 0) hbt (by rw [ht.1, ht.2]; omega)
    exact ⟨L0, t, e1, e2⟩
  unfold Blade2.flangeC at h2
  cases hf : s.flange with
  | none =>
    simp only [hf] at h2
    cases h2
    refine ⟨rfl, by simp [width, hf], _, fun _ => 0, fun _ => 0, hown, ?_, ?_, ?_⟩
    · rw [hf]; exact fun v => rfl
    · unfold Joint; rw [hf]; exact fun v => rfl
    · intro v; simp
  | some f =>
    simp only [hf] at h2
    have hwf : width s = 3 * f.pan.m * f.pan.n := by unfold width; rw [hf]
    obtain ⟨⟨Lc, f1⟩, h3, h2⟩ := bind_ok.1 h2
    obtain ⟨⟨k, ob', f2, C2⟩, h4, h2⟩ := bind_ok.1 h2
    obtain ⟨Lj, h5, h2⟩ := bind_ok.1 h2
    cases h2
    obtain ⟨r, L0, hr, rfl, e1, e2⟩ := calcKC_part h3 (by rw [← hwf]; exact hw)
    have hrf := fixR_fixed (C54.idempotent E.toEnv _ _ hr)
    -- the constants
    have key : C2 = C ∧ f2 = r.fixR ∧ ∃ p p' l1 l2,
        (match s.base with
          | some b => p = b
          | none => R.panels[s.panel1]? = some p) ∧
        p.rebuild E.toEnv = .ok p' ∧ p'.lam = some l1 ∧ r.lam = some l2 ∧
        calcKtKr (penOf p' l1) (penOf r l2) "ycte" = some (k.1, some k.2) := by
      unfold Blade2.ktkr at h4
      rcases optPart_ok h1 with ⟨eb, eo, -⟩ | ⟨b, b1, eb, eo, hb1⟩
      · simp only [eo] at h4
        obtain ⟨pq, g1, h4⟩ := bind_ok.1 h4
        obtain ⟨⟨k', p1, f1⟩, g2, h4⟩ := bind_ok.1 h4
        cases h4
        obtain ⟨l1, l2, a1, a2, a3, a4, a5⟩ := ktkrY_ok g2
        rw [hrf] at a2
        cases a2
        -- the panel of the bay
        have hp1 : C.panels[s.panel1]? = some pq.1 := by
          unfold Bay.pair at g1
          split at g1
          · rename_i p q ep eq
            split at g1
            · cases g1; exact ep
            · cases g1
          · cases g1
        have hp2 : ∃ p, R.panels[s.panel1]? = some p ∧ pq.1 = p.fixR := by
          rw [hC.panels, List.getElem?_map] at hp1
          cases hp : R.panels[s.panel1]? with
          | none => simp [hp] at hp1
          | some p => simp [hp] at hp1; exact ⟨p, rfl, hp1.symm⟩
        obtain ⟨p, hp, ep⟩ := hp2
        have hpr := hb.panels p (List.mem_of_getElem? hp)
        rw [ep, fixR_fixed hpr] at a1
        cases a1
        refine ⟨?_, rfl, p, p, l1, l2, by rw [eb]; exact hp, hpr, a3, a4, a5⟩
        unfold Bay.setPanel
        rw [← ep, set_same hp1]
      · simp only [eo] at h4
        obtain ⟨⟨k', p1, f1⟩, g2, h4⟩ := bind_ok.1 h4
        cases h4
        obtain ⟨l1, l2, a1, a2, a3, a4, a5⟩ := ktkrY_ok g2
        rw [hrf] at a2
        cases a2
        have ht := hb.terms.base2 s hs b eb
        obtain ⟨rb, Lb0, hrb, rfl, -, -⟩ := calcKC_part (s0 := 0) hb1 (by rw [ht.1, ht.2]; omega)
        rw [fixR_fixed (C54.idempotent E.toEnv _ _ hrb)] at a1
        cases a1
        exact ⟨rfl, rfl, b, rb, l1, l2, by rw [eb], hrb, a3, a4, a5⟩
    obtain ⟨rfl, rfl, p, p', l1, l2, k1, k2, k3, k4, k5⟩ := key
    have hk := rebuild_kept E.toEnv hr
    refine ⟨rfl, ?_, _, fun v => Coo.quad (Coo.finalizeSym Lc) v,
      fun v => Coo.quad (Coo.finalizeSym Lj) v, hown, ?_, ?_, fun v => ?_⟩
    · rw [hwf]
      show 3 * r.pan.m * r.pan.n = _
      rw [hk.1]
    · rw [hf]
      exact ⟨L0, _, e1, e2⟩
    · unfold Joint
      rw [hf]
      refine ⟨p, p', r, l1, l2, k.1, k.2, k1, k2, hr, k3, k4, k5, fun v => ?_⟩
      have hpan : r.fixR.panel = f.panel := by
        rw [← hk.2.2.1]
        unfold Shell.panel Shell.fixR
        simp
      rw [toSparse_inv h5, hC.skin, hpan]
    · simp only [Coo.finalizeSym_append_quad, add_assoc]

/-- Energy of a bay: panels, 1D stiffeners and 2D stiffeners. -/
theorem kC_energy (E : BayEnv K) (B B' : Bay K) (k : Coo K) (hT : Terms B)
    (h : B.calcKC E = .ok (k, B')) :
    ∃ R N, B.rebuild E = .ok R ∧ R.getSize = .ok N ∧ ∃ Qp Q1 Q2 : List ((ℕ → K) → K),
      List.Forall₂ (fun p => Own (fun b => b.calcKC E.toEnv {}) 0 (some p)) R.panels Qp ∧
      List.Forall₂ (Blade1C E R) R.blade1 Q1 ∧ Q2.length = R.blade2.length ∧
      (∀ i s q, R.blade2[i]? = some s → Q2[i]? = some q → Blade2C E R (start R i) s q) ∧
      ∀ v, Coo.quad k v
        = (Qp.map fun q => q v).sum + (Q1.map fun q => q v).sum + (Q2.map fun q => q v).sum := by
  refine assemble_energy hT h _ (Blade1C E) (Blade2C E) ?_ ?_ ?_
  · intro R N p L t hb hp hN hf
    obtain ⟨r, L0, hr, rfl, e1, e2⟩ := calcKC_part (s0 := 0) hf (by omega)
    rw [hb.panels p hp] at hr
    cases hr
    exact ⟨rfl, L0, _, e1, e2⟩
  · intro R C N s L t hb hC hN hs hf
    exact blade1C hb hC hN hs hf
  · intro R C N off s L t C' hb hC hN hw hs hf
    exact blade2C hb hC hN hw hs hf

/-! ## Geometric stiffness -/

/-- The beam of a 1D stiffener in the geometric stiffness. -/
def BeamG (E : BayEnv K) (B : Bay K) (s : Blade1 K) (q : (ℕ → K) → K) : Prop :=
  match s.sec with
  | none => ∀ v, q v = 0
  | some _ => ∀ v, q v = Coo.quad (Coo.finalizeSym (fkGf E.S E.I B.skin s.ys (s.Fx.getD 0) 0 0)) v

/-- Geometric stiffness of a bay: panels, beams of the 1D stiffeners and flanges of the 2D ones.  The
bases of the stiffeners have no part. -/
theorem kG_energy (E : BayEnv K) (B B' : Bay K) (k : Coo K) (hT : Terms B)
    (h : B.calcKG E none = .ok (k, B')) :
    ∃ R N, B.rebuild E = .ok R ∧ R.getSize = .ok N ∧ ∃ Qp Q1 Q2 : List ((ℕ → K) → K),
      List.Forall₂ (fun p => Own (fun b => b.calcKG E.toEnv {}) 0 (some p)) R.panels Qp ∧
      List.Forall₂ (BeamG E R) R.blade1 Q1 ∧ Q2.length = R.blade2.length ∧
      (∀ i s q, R.blade2[i]? = some s → Q2[i]? = some q →
        Own (fun b => b.calcKG E.toEnv {}) (start R i) s.flange q) ∧
      ∀ v, Coo.quad k v
        = (Qp.map fun q => q v).sum + (Q1.map fun q => q v).sum + (Q2.map fun q => q v).sum := by
  refine assemble_energy hT h _ (BeamG E)
    (fun _ off s q => Own (fun b => b.calcKG E.toEnv {}) off s.flange q) ?_ ?_ ?_
  · intro R N p L t hb hp hN hf
    obtain ⟨r, L0, hr, rfl, e1, e2⟩ := calcKG_part (s0 := 0) hf (by omega)
    rw [hb.panels p hp] at hr
    cases hr
    exact ⟨rfl, L0, _, e1, e2⟩
  · intro R C N s L t hb hC hN hs hf
    unfold Blade1.calcKG at hf
    rw [if_neg (by simp)] at hf
    obtain ⟨s', hr, hf⟩ := bind_ok.1 hf
    rw [hb.blade1 s hs C hC] at hr
    cases hr
    obtain ⟨L', h1, hf⟩ := bind_ok.1 hf
    cases hf
    unfold Blade1.partG at h1
    unfold BeamG
    cases hsec : s.sec with
    | none =>
      simp only [hsec] at h1 ⊢
      cases h1
      exact quad_nil
    | some c =>
      simp only [hsec] at h1 ⊢
      rw [toSparse_inv h1, hC.skin]
      exact fun v => rfl
  · intro R C N off s L t C' hb hC hN hw hs hf
    unfold Blade2.calcKG at hf
    obtain ⟨s', hr, hf⟩ := bind_ok.1 hf
    rw [hb.blade2 s hs C hC] at hr
    cases hr
    obtain ⟨⟨L', f'⟩, h1, hf⟩ := bind_ok.1 hf
    cases hf
    refine ⟨rfl, ?_, own_part h1 fun b t e hbt => ?_⟩
    · rcases optPart_ok h1 with ⟨e, e', -⟩ | ⟨b, t, e, e', hbt⟩
      · simp [width, e, e']
      · have hwf : width s = 3 * b.pan.m * b.pan.n := by unfold width; rw [e]
        obtain ⟨r, L0, hr, rfl, -, -⟩ := calcKG_part hbt (by rw [← hwf]; exact hw)
        rw [hwf]
        simp only [width, e']
        show 3 * r.pan.m * r.pan.n = _
        rw [(rebuild_kept E.toEnv hr).1]
    · have hwf : width s = 3 * b.pan.m * b.pan.n := by unfold width; rw [e]
      obtain ⟨r, L0, -, -, e1, e2⟩ := calcKG_part hbt (by rw [← hwf]; exact hw)
      exact ⟨L0, t, e1, e2⟩

/-! ## Mass -/

/-- `calc_kM()` of a part. -/
def massOf (E : BayEnv K) (s : Shell K) : Except Fail (Coo K × Shell K) :=
  s.calcKM E.toEnv .none 0 0 none none none none true

/-- The beam of a 1D stiffener in the mass matrix; `h` is the thickness of the skin, and that of the
base is taken as `0`. -/
def BeamM (E : BayEnv K) (B : Bay K) (s : Blade1 K) (q : (ℕ → K) → K) : Prop :=
  match s.sec with
  | none => ∀ v, q v = 0
  | some c => ∃ p1 p2 bf, B.panels[s.panel1]? = some p1 ∧ B.panels[s.panel2]? = some p2 ∧
      s.bf = some bf ∧ ∀ v, q v = Coo.quad (Coo.finalizeSym (fkMf E.S E.I B.skin s.ys s.rho
        (1 / 2 * p1.plyts.sum + 1 / 2 * p2.plyts.sum) 0 c.hf bf s.dbf 0 0)) v

/-- What a 1D stiffener adds to the mass matrix. -/
def Blade1M (E : BayEnv K) (R : Bay K) (s : Blade1 K) (q : (ℕ → K) → K) : Prop :=
  ∃ qb qf, Own (massOf E) 0 s.base qb ∧ BeamM E R s qf ∧ ∀ v, q v = qb v + qf v

/-- What a 2D stiffener adds to the mass matrix. -/
def Blade2M (E : BayEnv K) (off : ℕ) (s : Blade2 K) (q : (ℕ → K) → K) : Prop :=
  ∃ qb qf, Own (massOf E) 0 s.base qb ∧ Own (massOf E) off s.flange qf ∧ ∀ v, q v = qb v + qf v

theorem pair_panels {B : Bay K} {i j : ℕ} {pq : Shell K × Shell K} (h : B.pair i j = .ok pq) :
    B.panels[i]? = some pq.1 ∧ B.panels[j]? = some pq.2 := by
  unfold Bay.pair at h
  split at h
  · rename_i p q ep eq
    split at h
    · cases h; exact ⟨ep, eq⟩
    · cases h
  · cases h

/-- Mass of a bay: panels, 1D stiffeners and 2D stiffeners. -/
theorem kM_energy (E : BayEnv K) (B B' : Bay K) (k : Coo K) (hT : Terms B)
    (h : B.calcKM E = .ok (k, B')) :
    ∃ R N, B.rebuild E = .ok R ∧ R.getSize = .ok N ∧ ∃ Qp Q1 Q2 : List ((ℕ → K) → K),
      List.Forall₂ (fun p => Own (massOf E) 0 (some p)) R.panels Qp ∧
      List.Forall₂ (Blade1M E R) R.blade1 Q1 ∧ Q2.length = R.blade2.length ∧
      (∀ i s q, R.blade2[i]? = some s → Q2[i]? = some q → Blade2M E (start R i) s q) ∧
      ∀ v, Coo.quad k v
        = (Qp.map fun q => q v).sum + (Q1.map fun q => q v).sum + (Q2.map fun q => q v).sum := by
  refine assemble_energy hT h _ (Blade1M E) (fun _ => Blade2M E) ?_ ?_ ?_
  · intro R N p L t hb hp hN hf
    obtain ⟨L0, rfl, e1, e2⟩ := calcKM_part (s0 := 0) hf (by omega)
    exact ⟨rfl, L0, _, e1, e2⟩
  · intro R C N s L t hb hC hN hs hf
    unfold Blade1.calcKM at hf
    obtain ⟨s', hr, hf⟩ := bind_ok.1 hf
    rw [hb.blade1 s hs C hC] at hr
    cases hr
    obtain ⟨⟨Lb, b⟩, h1, hf⟩ := bind_ok.1 hf
    obtain ⟨Lf, h2, hf⟩ := bind_ok.1 hf
    cases hf
    refine ⟨_, _, own_part h1 fun b t e hbt => ?_, ?_, fun v => Coo.finalizeSym_append_quad Lb Lf v⟩
    · have ht := hb.terms.base1 s hs b e
      obtain ⟨L0, -, e1, e2⟩ := calcKM_part (s0 := 0) hbt (by rw [ht.1, ht.2]; omega)
      exact ⟨L0, t, e1, e2⟩
    · unfold Blade1.partM at h2
      unfold BeamM
      cases hsec : s.sec with
      | none =>
        simp only [hsec] at h2 ⊢
        cases h2
        exact quad_nil
      | some c =>
        simp only [hsec] at h2 ⊢
        obtain ⟨pq, h4, h2⟩ := bind_ok.1 h2
        obtain ⟨bf, h3, h2⟩ := bind_ok.1 h2
        obtain ⟨q1, q2⟩ := pair_panels h4
        rw [hC.panels, List.getElem?_map] at q1 q2
        cases e1 : R.panels[s.panel1]? with
        | none => simp [e1] at q1
        | some p1 =>
          cases e2 : R.panels[s.panel2]? with
          | none => simp [e2] at q2
          | some p2 =>
            simp only [e1, e2, Option.map_some, Option.some.injEq] at q1 q2
            refine ⟨p1, p2, bf, rfl, rfl, ?_, fun v => ?_⟩
            · unfold number at h3
              cases hbf : s.bf with
              | none => simp [hbf] at h3
              | some x => simp [hbf] at h3; rw [h3]
            · rw [toSparse_inv h2, hC.skin, ← q1, ← q2]
              rfl
  · intro R C N off s L t C' hb hC hN hw hs hf
    unfold Blade2.calcKM at hf
    obtain ⟨s', hr, hf⟩ := bind_ok.1 hf
    rw [hb.blade2 s hs C hC] at hr
    cases hr
    obtain ⟨⟨Lb, ob⟩, h1, hf⟩ := bind_ok.1 hf
    obtain ⟨⟨Lf, of⟩, h2, hf⟩ := bind_ok.1 hf
    cases hf
    refine ⟨rfl, ?_, _, _, own_part h1 fun b t e hbt => ?_, own_part h2 fun b t e hbt => ?_,
      fun v => Coo.finalizeSym_append_quad Lb Lf v⟩
    · rcases optPart_ok h2 with ⟨e, e', -⟩ | ⟨b, t, e, e', hbt⟩
      · simp [width, e, e']
      · have hwf : width s = 3 * b.pan.m * b.pan.n := by unfold width; rw [e]
        obtain ⟨L0, rfl, -, -⟩ := calcKM_part hbt (by rw [← hwf]; exact hw)
        rw [hwf]
        simp only [width, e']
        rfl
    · have ht := hb.terms.base2 s hs b e
      obtain ⟨L0, -, e1, e2⟩ := calcKM_part (s0 := 0) hbt (by rw [ht.1, ht.2]; omega)
      exact ⟨L0, t, e1, e2⟩
    · have hwf : width s = 3 * b.pan.m * b.pan.n := by unfold width; rw [e]
      obtain ⟨L0, -, e1, e2⟩ := calcKM_part hbt (by rw [← hwf]; exact hw)
      exact ⟨L0, t, e1, e2⟩

/-! ## Stiffeners without flange -/

/-- A 2D stiffener with only a base: no size, so no matrix. -/
theorem no_flange (E : BayEnv K) (B : Bay K) (s : Blade2 K) (hs : s ∈ B.blade2)
    (hf : s.flange = none) (k : Coo K × Bay K) :
    (∀ N, B.getSize ≠ .ok N) ∧ B.calcKC E ≠ .ok k ∧ (∀ c, B.calcKG E c ≠ .ok k) ∧
      B.calcKM E ≠ .ok k := by
  have key : ∀ (C : Bay K), (∃ s ∈ C.blade2, s.flange = none) → ∀ N, C.getSize ≠ .ok N := by
    rintro C ⟨s, hs, hf⟩ N h
    obtain ⟨-, h, -⟩ := (size_iff C N).1 h
    obtain ⟨f, e, -⟩ := h s hs
    rw [hf] at e
    cases e
  have reb : ∀ R, B.rebuild E = .ok R → ∃ s ∈ R.blade2, s.flange = none := by
    intro R hR
    obtain ⟨m, ps, -, -, -, -, -, -, h2⟩ := bay_rebuild_ok hR
    have : ∀ {l l' : List (Blade2 K)} {P : Blade2 K → Blade2 K → Prop}, List.Forall₂ P l l' →
        s ∈ l → ∃ t ∈ l', P s t := by
      intro l l' P h
      induction h with
      | nil => intro h; cases h
      | cons hab _ ih =>
        intro hm
        rcases List.mem_cons.1 hm with rfl | hm
        · exact ⟨_, List.mem_cons_self, hab⟩
        · obtain ⟨t, ht, h⟩ := ih hm
          exact ⟨t, List.mem_cons_of_mem _ ht, h⟩
    obtain ⟨t, ht, hr⟩ := this h2 hs
    rcases (blade2_kept hr).1 with ⟨-, e⟩ | ⟨f, x, e, -⟩
    · exact ⟨t, ht, e⟩
    · rw [hf] at e; cases e
  obtain ⟨k, B'⟩ := k
  refine ⟨key B ⟨s, hs, hf⟩, ?_, fun c => ?_, ?_⟩ <;> intro h <;>
    obtain ⟨R, N, -, hR, hN, -⟩ := assemble_ok h <;> exact key R (reb R hR) N hN

/-! ## Bays made by the methods of the class -/

theorem terms_empty (B : Bay K) (h1 : B.panels = []) (h2 : B.blade1 = []) (h3 : B.blade2 = []) :
    Terms B := ⟨by simp [h1], by simp [h2], by simp [h3]⟩

theorem terms_addPanel (B : Bay K) (h : Terms B) (y1 y2 : K) (stack plyts : Option (List K))
    (plyt : Option K) (lps : Option (List (List K))) (lp : Option (List K)) (model : Option String)
    (rho : Option K) : Terms (B.addPanel y1 y2 stack plyts plyt lps lp model rho) := by
  refine ⟨fun p hp => ?_, h.base1, h.base2⟩
  rcases List.mem_append.1 hp with hp | hp
  · exact h.panels p hp
  · rw [List.mem_singleton.1 hp]
    exact ⟨rfl, rfl⟩

theorem terms_addBlade1 (E : BayEnv K) (B B' : Bay K) (h : Terms B) (ys : K) (rho bb bf : Option K)
    (b f : LamArgs K) (hB : B.addBlade1 E ys rho bb bf b f = .ok B') : Terms B' := by
  unfold Bay.addBlade1 at hB
  split at hB
  · cases hB
  · obtain ⟨x, -, hB⟩ := bind_ok.1 hB
    obtain ⟨y, -, hB⟩ := bind_ok.1 hB
    obtain ⟨z, -, hB⟩ := bind_ok.1 hB
    obtain ⟨s, hs, hB⟩ := bind_ok.1 hB
    cases hB
    refine ⟨h.panels, fun t ht c hc => ?_, h.base2⟩
    rcases List.mem_append.1 ht with ht | ht
    · exact h.base1 t ht c hc
    · rw [List.mem_singleton.1 ht] at hc
      rcases blade1_base hs with ⟨e, -⟩ | ⟨st, w, hh, -, -, e⟩
      · rw [hc] at e; cases e
      · rw [hc] at e
        cases e
        exact ⟨rfl, rfl⟩

theorem terms_addBlade2 (E : BayEnv K) (B B' : Bay K) (h : Terms B) (ys : K) (rho bb bf : Option K)
    (b f : LamArgs K) (mf nf : ℕ) (hB : B.addBlade2 E ys rho bb bf b f mf nf = .ok B') :
    Terms B' := by
  unfold Bay.addBlade2 at hB
  split at hB
  · cases hB
  · obtain ⟨x, -, hB⟩ := bind_ok.1 hB
    obtain ⟨y, -, hB⟩ := bind_ok.1 hB
    obtain ⟨z, -, hB⟩ := bind_ok.1 hB
    obtain ⟨ob, hob, hB⟩ := bind_ok.1 hB
    obtain ⟨of, -, hB⟩ := bind_ok.1 hB
    obtain ⟨s, hs, hB⟩ := bind_ok.1 hB
    cases hB
    refine ⟨h.panels, h.base1, fun t ht c hc => ?_⟩
    rcases List.mem_append.1 ht with ht | ht
    · exact h.base2 t ht c hc
    · rw [List.mem_singleton.1 ht] at hc
      rcases (blade2_kept hs).2.1 with ⟨-, e⟩ | ⟨g, w, e, e'⟩
      · rw [hc] at e; cases e
      · rw [hc] at e'
        cases e'
        have e : ob = some g := e
        unfold Bay.baseOf at hob
        split at hob
        · cases hob; cases e
        · obtain ⟨v, -, hob⟩ := bind_ok.1 hob
          split at hob
          · cases hob
            cases e
            exact ⟨rfl, rfl⟩
          · cases hob

/-! ## A bay with one stiffener of each kind -/

/-- Surroundings with integrals that are not all zero. -/
def env : BayEnv ℚ where
  toEnv := { C54.env with I := ⟨fun i j _ _ => i + j + 1, fun _ _ _ _ => 2, fun _ _ _ _ => 3,
    fun _ _ _ _ => 5, fun _ _ _ _ => 7, fun _ _ _ _ => 11⟩ }
  plies := C46.benv.plies

/-- A bay with two panels, a beam on `y = 1/2`, and two flanges, the second with a base. -/
def stiffened (base1 base2 : LamArgs ℚ) : Except Fail (Bay ℚ) := do
  let B := { C46.bay with skin := { Witness.panel with m := 1, n := 2 } }
  let B := B.addPanel 0 (1 / 2) none none none none none none none
  let B := B.addPanel (1 / 2) 1 none none none none none none none
  let B ← B.addBlade1 env (1 / 2) none (some (1 / 2)) (some (1 / 3)) base1
    { stack := some [0, 0], plyt := some (1 / 4), laminaprop := some [1] }
  let B ← B.addBlade2 env (1 / 2) none none (some (1 / 3)) {}
    { stack := some [0], plyt := some (1 / 2), laminaprop := some [1] } 1 2
  B.addBlade2 env (1 / 2) none (some (1 / 2)) (some (1 / 3)) base2
    { stack := some [0], plyt := some (1 / 2), laminaprop := some [1] } 2 1

/-- One ply. -/
def ply : LamArgs ℚ := { stack := some [0], plyt := some (1 / 2), laminaprop := some [1] }

theorem stiffened_terms {b1 b2 : LamArgs ℚ} {B : Bay ℚ} (h : stiffened b1 b2 = .ok B) : Terms B := by
  unfold stiffened at h
  obtain ⟨B1, h1, h⟩ := bind_ok.1 h
  obtain ⟨B2, h2, h⟩ := bind_ok.1 h
  exact terms_addBlade2 _ _ _ (terms_addBlade2 _ _ _ (terms_addBlade1 _ _ _ (terms_addPanel _
    (terms_addPanel _ (terms_empty _ rfl rfl rfl) _ _ _ _ _ _ _ _ _) _ _ _ _ _ _ _ _ _) _ _ _ _ _ _
    h1) _ _ _ _ _ _ _ _ h2) _ _ _ _ _ _ _ _ h

example : ∃ B, stiffened ply ply = .ok B ∧ Terms B ∧ B.blade1.length = 1 ∧ B.blade2.length = 2 ∧
    (∃ k, B.calcKC env = .ok k) ∧ (∃ k, B.calcKG env none = .ok k) := by
  obtain ⟨B, hB⟩ := exists_ok (x := stiffened ply ply) (by decide +kernel)
  have h : ∀ f : Bay ℚ → Bool, ((stiffened ply ply).map f).toOption = (.ok (f B) : Except Fail Bool).toOption := by
    intro f; rw [hB]; rfl
  refine ⟨B, hB, stiffened_terms hB, ?_, ?_, ?_, ?_⟩
  · have := h fun B => decide (B.blade1.length = 1)
    have e : ((stiffened ply ply).map fun B => decide (B.blade1.length = 1)).toOption = some true := by
      decide +kernel
    rw [e] at this
    simpa [Except.toOption] using this
  · have := h fun B => decide (B.blade2.length = 2)
    have e : ((stiffened ply ply).map fun B => decide (B.blade2.length = 2)).toOption = some true := by
      decide +kernel
    rw [e] at this
    simpa [Except.toOption] using this
  · refine exists_ok ?_
    have := h fun B => (B.calcKC env).isOk
    have e : ((stiffened ply ply).map fun B => (B.calcKC env).isOk).toOption = some true := by
      decide +kernel
    rw [e] at this
    simpa [Except.toOption] using this
  · refine exists_ok ?_
    have := h fun B => (B.calcKG env none).isOk
    have e : ((stiffened ply ply).map fun B => (B.calcKG env none).isOk).toOption = some true := by
      decide +kernel
    rw [e] at this
    simpa [Except.toOption] using this

example : ((stiffened {} {}).map fun B => (B.calcKM env).isOk).toOption = some true := by
  decide +kernel

end Verif.C52
