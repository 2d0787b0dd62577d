import Verif.Proofs.Freer
import Verif.Proofs.MirBay
import Verif.Spec.FreerBay

/-!
# Lemmas on bays that admit more motions
-/

set_option linter.unusedSectionVars false

namespace Verif

open Finset Spec Model

/-! ## Shells -/

theorem Spec.FreerShell.panel {s s' : Shell ℝ} (h : FreerShell s s') :
    Freer s.panel s'.panel ∧ s'.panel.r = s.panel.r := by
  obtain ⟨P, nx, ny, size, hP, rfl⟩ := h
  exact ⟨⟨hP.m, hP.n, hP.a, hP.b, hP.x, hP.y⟩, rfl⟩

/-- The laminate is the same. -/
theorem Spec.FreerShell.lam {E : Env ℝ} {s s' t t' : Shell ℝ} {l l' : LamObj ℝ} (h : FreerShell s s')
    (ht : s.rebuild E = .ok t) (ht' : s'.rebuild E = .ok t') (hl : t.lam = some l) (hl' : t'.lam = some l') :
    l' = l := by
  obtain ⟨P, nx, ny, size, hP, rfl⟩ := h
  obtain ⟨-, -, -, -, m, hm, rfl⟩ := (C54.rebuild_ok_iff E _ _).1 ht
  obtain ⟨-, -, -, -, m', hm', rfl⟩ := (C54.rebuild_ok_iff E _ _).1 ht'
  cases hl
  cases hl'
  cases hm.symm.trans hm'
  rfl

theorem Spec.FreerShell.pen {E : Env ℝ} {s s' t t' : Shell ℝ} {l l' : LamObj ℝ} (h : FreerShell s s')
    (ht : s.rebuild E = .ok t) (ht' : s'.rebuild E = .ok t') (hl : t.lam = some l) (hl' : t'.lam = some l') :
    penOf t' l' = penOf t l := by
  have e := h.lam ht ht' hl hl'
  have e0 : t'.pan = s'.pan := (rebuild_kept E ht').1
  have e1 : t.pan = s.pan := (rebuild_kept E ht).1
  have e2 : s'.pan.a = s.pan.a := h.panel.1.a
  have e3 : s'.pan.b = s.pan.b := h.panel.1.b
  simp only [penOf, e, e0, e1, e2, e3]

section
variable {E : Env ℝ} {P P' : Panel ℝ} {s s' t t' : Shell ℝ} {lam lam' : LamObj ℝ}
  (hI : E.I.Exact E.S Mean.integral) (hC : E.S.C2) (hm : FreerShell s s') (ha : s.pan.a ≠ 0) (hb : s.pan.b ≠ 0)
  {q q' : (ℕ → ℝ) → ℝ} {off off' : ℕ} {v w : ℕ → ℝ}
  (hu : ∀ α < 3, u E.S s'.panel 0 (fun i => w (off' + i)) α = u E.S s.panel 0 (fun i => v (off + i)) α)
include hI hC hm ha hb hu

theorem more_kC (h : Sheet E P s t lam) (h' : Sheet E P' s' t' lam')
    (hq : C52.Own (fun b => b.calcKC E {}) off (some s) q) (hq' : C52.Own (fun b => b.calcKC E {}) off' (some s') q') :
    q' w = q v := by
  obtain ⟨L, _, c, e⟩ := hq
  obtain ⟨L', _, c', e'⟩ := hq'
  obtain ⟨hF, hr⟩ := hm.panel
  have e3 : s'.pan.a = s.pan.a := hF.a
  have e4 : s'.pan.b = s.pan.b := hF.b
  rw [e, e', shell_kC_strain hI hC h.built ha hb h.shape h.unloaded h.hlam h.sym c,
    shell_kC_strain hI hC h'.built (e3 ▸ ha) (e4 ▸ hb) h'.shape h'.unloaded h'.hlam h'.sym c',
    hm.lam h.built h'.built h.hlam h'.hlam]
  exact strainWork_same hF.a hF.b hr hu _

theorem more_kG (h : Sheet E P s t lam) (h' : Sheet E P' s' t' lam')
    (hq : C52.Own (fun b => b.calcKG E {}) off (some s) q)
    (hq' : C52.Own (fun b => b.calcKG E {}) off' (some s') q') : q' w = q v := by
  obtain ⟨L, _, c, e⟩ := hq
  obtain ⟨L', _, c', e'⟩ := hq'
  obtain ⟨hF, hr⟩ := hm.panel
  have e3 : s'.pan.a = s.pan.a := hF.a
  have e4 : s'.pan.b = s.pan.b := hF.b
  have n1 : s'.Nxx = s.Nxx ∧ s'.Nyy = s.Nyy ∧ s'.Nxy = s.Nxy := by
    obtain ⟨P, nx, ny, size, hP, rfl⟩ := hm
    exact ⟨rfl, rfl, rfl⟩
  rw [e, e', shell_kG_slope hI hC h.built ha hb c, shell_kG_slope hI hC h'.built (e3 ▸ ha) (e4 ▸ hb) c', n1.1, n1.2.1,
    n1.2.2]
  exact slopeWork_same hF.a hF.b hu _ _ _

end

section
variable {E : BayEnv ℝ} {s s' : Shell ℝ}

theorem more_kM (hI : E.I.Exact E.S Mean.integral) (hC : E.S.C2) (hm : FreerShell s s') (ha : s.pan.a ≠ 0)
    (hb : s.pan.b ≠ 0) {q q' : (ℕ → ℝ) → ℝ} {off off' : ℕ} {v w : ℕ → ℝ}
    (hu : ∀ α < 3, u E.S s'.panel 0 (fun i => w (off' + i)) α = u E.S s.panel 0 (fun i => v (off + i)) α)
    (hq : C52.Own (C52.massOf E) off (some s) q) (hq' : C52.Own (C52.massOf E) off' (some s') q') : q' w = q v := by
  obtain ⟨L, _, c, e⟩ := hq
  obtain ⟨L', _, c', e'⟩ := hq'
  obtain ⟨hF, hr⟩ := hm.panel
  have e3 : s'.pan.a = s.pan.a := hF.a
  have e4 : s'.pan.b = s.pan.b := hF.b
  obtain ⟨k, l, k1, l1⟩ := kM_ready c
  obtain ⟨k', l', k1', l1'⟩ := kM_ready c'
  have n1 : s'.rho = s.rho ∧ s'.plyts.sum = s.plyts.sum ∧ s'.offset = s.offset := by
    obtain ⟨P, nx, ny, size, hP, rfl⟩ := hm
    exact ⟨rfl, rfl, rfl⟩
  rw [e, e', shell_kM_kinetic hI hC k1 l1 ha hb c, shell_kM_kinetic hI hC k1' l1' (e3 ▸ ha) (e4 ▸ hb) c', n1.1, n1.2.1,
    n1.2.2]
  exact kineticWork_same hF.a hF.b hu _ _ _

end

/-! ## Beams and joints -/

section
variable {E : BayEnv ℝ} {R R' : Bay ℝ} {q q' : (ℕ → ℝ) → ℝ} {v w : ℕ → ℝ}
  (hI : E.I.Exact E.S Mean.integral) (hC : E.S.C2) (hT : Freer (bayPanel R 0) (bayPanel R' 0))
  (ha : R.skin.a ≠ 0) (hb : R.skin.b ≠ 0) (hu : ∀ α < 3, u E.S R'.skin 0 w α = u E.S R.skin 0 v α)
include hT hu hC ha hb hI

theorem beam_more {s s' : Blade1 ℝ} (hs : FreerBlade1 s s') (h : C52.Beam E R s q) (h' : C52.Beam E R' s' q') :
    q' w = q v := by
  have ea : R'.skin.a = R.skin.a := hT.a
  have eb : R'.skin.b = R.skin.b := hT.b
  obtain ⟨o, -, rfl⟩ := hs
  unfold C52.Beam at h h'
  cases hc : s.sec with
  | none =>
    simp only [hc] at h h'
    rw [h, h']
  | some c =>
    simp only [hc] at h h'
    obtain ⟨bf, b1, h⟩ := h
    obtain ⟨bf', b1', h'⟩ := h'
    cases b1.symm.trans b1'
    rw [h, h', C48.stiffness_energy hI hC R.skin ha hb, C48.stiffness_energy hI hC R'.skin (ea ▸ ha) (eb ▸ hb), ea,
      hu 0 (by omega), hu 2 (by omega)]

theorem beamG_more {s s' : Blade1 ℝ} (hs : FreerBlade1 s s') (h : C52.BeamG E R s q) (h' : C52.BeamG E R' s' q') :
    q' w = q v := by
  have ea : R'.skin.a = R.skin.a := hT.a
  obtain ⟨o, -, rfl⟩ := hs
  unfold C52.BeamG at h h'
  cases hc : s.sec with
  | none =>
    simp only [hc] at h h'
    rw [h, h']
  | some c =>
    simp only [hc] at h h'
    rw [h, h', C48.geometric_energy hI hC R.skin ha, C48.geometric_energy hI hC R'.skin (ea ▸ ha), ea, hu 2 (by omega)]

theorem beamM_more {s s' : Blade1 ℝ} (hp : List.Forall₂ FreerShell R.panels R'.panels) (hs : FreerBlade1 s s')
    (h : C52.BeamM E R s q) (h' : C52.BeamM E R' s' q') : q' w = q v := by
  have ea : R'.skin.a = R.skin.a := hT.a
  have eb : R'.skin.b = R.skin.b := hT.b
  have thick : ∀ {i : ℕ} {p p' : Shell ℝ}, R.panels[i]? = some p → R'.panels[i]? = some p' →
      p'.plyts.sum = p.plyts.sum := fun {i p p'} a a' => by
    obtain ⟨b, hb, P, nx, ny, size, -, rfl⟩ := forall₂_at hp a
    cases hb.symm.trans a'
    rfl
  obtain ⟨o, -, rfl⟩ := hs
  unfold C52.BeamM at h h'
  cases hc : s.sec with
  | none =>
    simp only [hc] at h h'
    rw [h, h']
  | some c =>
    simp only [hc] at h h'
    obtain ⟨p1, p2, bf, a1, a2, b1, h⟩ := h
    obtain ⟨p1', p2', bf', a1', a2', b1', h'⟩ := h'
    cases b1.symm.trans b1'
    rw [h, h', C49.mass_form hI hC R.skin ha hb, C49.mass_form hI hC R'.skin (ea ▸ ha) (eb ▸ hb), thick a1 a1',
      thick a2 a2', ea, hu 0 (by omega), hu 1 (by omega), hu 2 (by omega)]

/-- The joint of a flange: its springs are the same. -/
theorem joint_more {s s' : Blade2 ℝ} {f f' : Shell ℝ} {off off' : ℕ}
    (hp : List.Forall₂ FreerShell R.panels R'.panels) (hs : FreerBlade2 s s')
    (hf : s.flange = some f) (hf' : s'.flange = some f') (hff : FreerShell f f')
    (fa : f.pan.a ≠ 0) (fb : f.pan.b ≠ 0) (ho : 3 * R.skin.m * R.skin.n ≤ off) (ho' : 3 * R'.skin.m * R'.skin.n ≤ off')
    (hfu : ∀ α < 3, u E.S f'.panel off' w α = u E.S f.panel off v α)
    (h : C52.Joint E R off s q) (h' : C52.Joint E R' off' s' q') : q' w = q v := by
  have ea : R'.skin.a = R.skin.a := hT.a
  have eb : R'.skin.b = R.skin.b := hT.b
  have fa' : f'.pan.a = f.pan.a := hff.panel.1.a
  have fb' : f'.pan.b = f.pan.b := hff.panel.1.b
  have ys : s'.ys = s.ys := by
    obtain ⟨o, o', -, -, rfl⟩ := hs
    rfl
  unfold C52.Joint at h h'
  simp only [hf] at h
  simp only [hf'] at h'
  obtain ⟨p, p1, f1, l1, l2, kt, kr, a1, a2, a3, a4, a5, a6, h⟩ := h
  obtain ⟨p', p1', f1', l1', l2', kt', kr', b1, b2, b3, b4, b5, b6, h'⟩ := h'
  have under : FreerShell p p' := by
    obtain ⟨o, o', hr, -, rfl⟩ := hs
    cases e : s.base with
    | none =>
      rw [e] at hr
      cases hr
      simp only [e] at a1 b1
      obtain ⟨b, hb, r⟩ := forall₂_at hp a1
      cases hb.symm.trans b1
      exact r
    | some b =>
      rw [e] at hr
      cases hr with
      | some r =>
        simp only [e] at a1 b1
        rw [a1, b1]
        exact r
  rw [under.pen a2 b2 a4 b4, hff.pen a3 b3 a5 b5, a6] at b6
  obtain ⟨rfl, rfl⟩ : kt = kt' ∧ kr = kr' := by simpa using b6
  rw [h, h', C50.blade_joint hI hC R.skin f.panel ha hb fa fb kt kr s.ys 0 off
      (by rw [Nat.zero_add, ← mul_assoc]; exact ho),
    C50.blade_joint hI hC R'.skin f'.panel (ea ▸ ha) (eb ▸ hb) (show f'.pan.a ≠ 0 from fa' ▸ fa)
      (show f'.pan.b ≠ 0 from fb' ▸ fb) kt kr s'.ys 0 off' (by rw [Nat.zero_add, ← mul_assoc]; exact ho'), ys]
  have key := springs_other (S := E.S) (P1 := R.skin) (P1' := R'.skin) (P2 := f.panel) (P2' := f'.panel)
    (a := 0) (a' := 0) (b := off) (b' := off') (v := v) (v' := w) ⟨ea, eb⟩ ⟨fa', fb'⟩ hu hfu "BFycte" kt kr s.ys 0
  simp only [C40.springs, String.reduceEq, if_false, if_true, or_self] at key
  exact key

end

/-! ## Rebuilding -/

section
variable {s s' t t' : Shell ℝ}

theorem Spec.FreerShell.rebuild {E : Env ℝ} (h : FreerShell s s') (ht : s.rebuild E = .ok t)
    (ht' : s'.rebuild E = .ok t') : FreerShell t t' := by
  obtain ⟨P, nx, ny, size, hP, rfl⟩ := h
  obtain ⟨-, -, -, -, m, hm, rfl⟩ := (C54.rebuild_ok_iff E _ _).1 ht
  obtain ⟨-, -, -, -, m', hm', rfl⟩ := (C54.rebuild_ok_iff E _ _).1 ht'
  cases hm.symm.trans hm'
  exact ⟨P, _, _, _, hP, rfl⟩

theorem forall₂_step {α : Type} {C : α → α → Prop} {f f' : α → α → Prop} {l l' m m' : List α}
    (hC : List.Forall₂ C l l') (h : List.Forall₂ f l m) (h' : List.Forall₂ f' l' m')
    (hq : ∀ a a' b b', C a a' → f a b → f' a' b' → C b b') : List.Forall₂ C m m' := by
  induction hC generalizing m m' with
  | nil =>
    cases h
    cases h'
    exact .nil
  | cons hab _ ih =>
    cases h with
    | cons h1 h2 =>
      cases h' with
      | cons h1' h2' => exact .cons (hq _ _ _ _ hab h1 h1') (ih h2 h2')

end

section
variable {E : BayEnv ℝ} {B B' : Bay ℝ}

theorem pair_thick (hp : List.Forall₂ FreerShell B.panels B'.panels) {i j : ℕ} {pq pq' : Shell ℝ × Shell ℝ}
    (h : B.pair i j = .ok pq) (h' : B'.pair i j = .ok pq') : skinThick pq'.1 pq'.2 = skinThick pq.1 pq.2 := by
  have get : ∀ {B : Bay ℝ} {pq : Shell ℝ × Shell ℝ}, B.pair i j = .ok pq →
      B.panels[i]? = some pq.1 ∧ B.panels[j]? = some pq.2 := by
    intro B pq h
    unfold Bay.pair at h
    split at h
    · rename_i p q e1 e2
      split at h
      · cases h
        exact ⟨e1, e2⟩
      · cases h
    · cases h
  have thick : ∀ {k : ℕ} {p p' : Shell ℝ}, B.panels[k]? = some p → B'.panels[k]? = some p' →
      p'.plyts.sum = p.plyts.sum := fun {k p p'} a a' => by
    obtain ⟨b, hb, P, nx, ny, size, -, rfl⟩ := forall₂_at hp a
    cases hb.symm.trans a'
    rfl
  obtain ⟨a1, a2⟩ := get h
  obtain ⟨b1, b2⟩ := get h'
  unfold skinThick
  rw [thick a1 b1, thick a2 b2]

theorem Spec.FreerBlade1.rebuild (hp : List.Forall₂ FreerShell B.panels B'.panels)
    (hs : Freer (bayPanel B 0) (bayPanel B' 0)) (hr : B'.r = B.r) {s s' t t' : Blade1 ℝ} (h : FreerBlade1 s s')
    (ht : s.rebuild E B = .ok t) (ht' : s'.rebuild E B' = .ok t') : FreerBlade1 t t' := by
  obtain ⟨o, ho, rfl⟩ := h
  unfold Blade1.rebuild at ht ht'
  obtain ⟨pq, p1, ht⟩ := bind_ok.1 ht
  obtain ⟨pl, p2, ht⟩ := bind_ok.1 ht
  obtain ⟨ba, p3, ht⟩ := bind_ok.1 ht
  obtain ⟨bf, p4, ht⟩ := bind_ok.1 ht
  obtain ⟨se, p5, ht⟩ := bind_ok.1 ht
  obtain ⟨pq', q1, ht'⟩ := bind_ok.1 ht'
  obtain ⟨pl', q2, ht'⟩ := bind_ok.1 ht'
  obtain ⟨ba', q3, ht'⟩ := bind_ok.1 ht'
  obtain ⟨bf', q4, ht'⟩ := bind_ok.1 ht'
  obtain ⟨se', q5, ht'⟩ := bind_ok.1 ht'
  have e0 := pair_thick hp p1 q1
  cases p2.symm.trans q2
  cases p4.symm.trans q4
  cases p5.symm.trans q5
  have e3 : Option.Rel FreerShell ba.1 ba'.1 ∧ ba'.2 = ba.2 := by
    unfold Blade1.freshBase at p3 q3
    cases hb : s.bstack with
    | none =>
      simp only [hb] at p3 q3
      cases p3
      cases q3
      exact ⟨ho, rfl⟩
    | some st =>
      simp only [hb] at p3 q3
      obtain ⟨w, w1, p3⟩ := bind_ok.1 p3
      obtain ⟨w', w1', q3⟩ := bind_ok.1 q3
      cases w1.symm.trans w1'
      cases p3
      cases q3
      refine ⟨.some ?_, rfl⟩
      rw [e0]
      refine ⟨{ B'.skin with x1 := -1, x2 := 1, y1 := s.ys - w / 2, y2 := s.ys + w / 2 }, 2 * B'.skin.m, 2 * B'.skin.n, none,
        ⟨hs.m, hs.n, hs.a, hs.b, hs.x, hs.y⟩, ?_⟩
      unfold Bay.newBase Shell.new
      rw [hr]
  cases ht
  cases ht'
  refine ⟨ba'.1, e3.1, ?_⟩
  rw [e3.2, e0]
  rfl

theorem optLam_more {g g' : Shell ℝ → Except Err (LamObj ℝ)} {o o' z z' : Option (Shell ℝ)}
    (ho : Option.Rel FreerShell o o') (h : optLam g o = .ok z) (h' : optLam g' o' = .ok z')
    (hg : ∀ s s', FreerShell s s' → g' s' = g s) : Option.Rel FreerShell z z' := by
  cases ho with
  | none =>
    cases h
    cases h'
    exact .none
  | some r =>
    obtain ⟨l, e, h⟩ := bind_ok.1 h
    obtain ⟨l', e', h'⟩ := bind_ok.1 h'
    cases h
    cases h'
    rw [hg _ _ r] at e'
    cases e.symm.trans e'
    obtain ⟨P, nx, ny, size, hP, rfl⟩ := r
    exact .some ⟨P, nx, ny, size, hP, rfl⟩

theorem Spec.FreerBlade2.rebuild (hp : List.Forall₂ FreerShell B.panels B'.panels) {s s' t t' : Blade2 ℝ}
    (h : FreerBlade2 s s') (ht : s.rebuild E B = .ok t) (ht' : s'.rebuild E B' = .ok t') : FreerBlade2 t t' := by
  obtain ⟨o, o', ho, ho', rfl⟩ := h
  unfold Blade2.rebuild at ht ht'
  obtain ⟨pq, p1, ht⟩ := bind_ok.1 ht
  obtain ⟨fl, p2, ht⟩ := bind_ok.1 ht
  obtain ⟨ba, p3, ht⟩ := bind_ok.1 ht
  obtain ⟨pq', q1, ht'⟩ := bind_ok.1 ht'
  obtain ⟨fl', q2, ht'⟩ := bind_ok.1 ht'
  obtain ⟨ba', q3, ht'⟩ := bind_ok.1 ht'
  have e0 := pair_thick hp p1 q1
  cases ht
  cases ht'
  refine ⟨ba', fl', optLam_more ho p3 q3 fun _ _ _ => ?_, optLam_more ho' p2 q2 fun f f' r => ?_, rfl⟩
  · simp only
    rw [e0]
  · obtain ⟨P, nx, ny, size, hP, rfl⟩ := r
    rfl

/-- Bays that are given alike are rebuilt alike. -/
theorem Spec.FreerBay.rebuild {R R' : Bay ℝ} (h : FreerBay B B') (hr : B'.r = B.r) (hR : B.rebuild E = .ok R)
    (hR' : B'.rebuild E = .ok R') : FreerBay R R' := by
  obtain ⟨m, ps, a1, a2, -, a4, a5, a6, a7⟩ := bay_rebuild_ok hR
  obtain ⟨m', ps', b1, b2, -, b4, b5, b6, b7⟩ := bay_rebuild_ok hR'
  have hp : List.Forall₂ FreerShell ps ps' :=
    forall₂_step h.panels (rebuildPanels_ok a1).1 (rebuildPanels_ok b1).1 fun _ _ _ _ r => r.rebuild
  refine ⟨?_, ?_, ?_, ?_⟩
  · have e : bayPanel R 0 = bayPanel B 0 := by
      unfold bayPanel
      rw [a4, a5]
    have e' : bayPanel R' 0 = bayPanel B' 0 := by
      unfold bayPanel
      rw [b4, b5]
    rw [e, e']
    exact h.skin
  · rw [a2, b2]
    exact hp
  · exact forall₂_step h.blade1 a6 b6 fun s s' t t' r e e' => FreerBlade1.rebuild (E := E)
      (B := { B with model := m, panels := ps }) (B' := { B' with model := m', panels := ps' }) hp h.skin hr r e e'
  · exact forall₂_step h.blade2 a7 b7 fun s s' t t' r e e' => FreerBlade2.rebuild (E := E)
      (B := { B with model := m, panels := ps, blade1 := R.blade1 })
      (B' := { B' with model := m', panels := ps', blade1 := R'.blade1 }) hp r e e'

end

end Verif
