import Mathlib.Data.List.Perm.Basic
import Verif.Proofs.Stiffer
import Verif.Spec.MovedBay

/-!
# Lemmas on bays with their stiffeners in another order
-/

set_option linter.unusedSectionVars false

namespace Verif

open Finset Spec Model

theorem mapE_of {α β : Type} {f : α → Except Fail β} {l : List α} {l' : List β}
    (h : List.Forall₂ (fun a b => f a = .ok b) l l') : mapE f l = .ok l' := by
  induction h with
  | nil => rfl
  | cons hab _ ih =>
    unfold mapE
    exact bind_ok.2 ⟨_, hab, bind_ok.2 ⟨_, ih, rfl⟩⟩

/-- Parts found in another order. -/
theorem forall₂_perm {α β : Type} {P : α → β → Prop} {l l' : List α} {Q : List β} (hl : l'.Perm l)
    (h : List.Forall₂ P l Q) : ∃ Q', List.Forall₂ P l' Q' ∧ Q'.Perm Q := by
  obtain ⟨Q', h1, h2⟩ := List.perm_comp_forall₂ hl h
  exact ⟨Q', h1, h2⟩

theorem map_range {α β : Type} (f : α → β) (d : α) (l : List α) :
    l.map f = (List.range l.length).map fun i => f (l.getD i d) := by
  refine List.ext_getElem (by simp) fun i h1 h2 => ?_
  have h1 : i < l.length := by simpa using h1
  simp [List.getD, h1]

section
variable {σ : ℕ ≃ ℕ} {B B' : Bay ℝ}

section
variable (hx : MovedBay σ B B')
include hx

theorem Spec.MovedBay.skin : B'.skin = B.skin := by rw [hx.rest]
theorem Spec.MovedBay.panels : B'.panels = B.panels := by rw [hx.rest]
theorem Spec.MovedBay.model : B'.model = B.model := by rw [hx.rest]
theorem Spec.MovedBay.r : B'.r = B.r := by rw [hx.rest]

theorem Spec.MovedBay.mem1 {s : Blade1 ℝ} : s ∈ B'.blade1 ↔ s ∈ B.blade1 := hx.blade1.mem_iff

theorem Spec.MovedBay.in_new {i : ℕ} (hi : i < B.blade2.length) : σ i < B'.blade2.length := by
  rw [hx.count]
  exact (hx.inside i).2 hi

theorem Spec.MovedBay.back {j : ℕ} (hj : j < B'.blade2.length) : ∃ i < B.blade2.length, σ i = j :=
  ⟨σ.symm j, (hx.inside _).1 (by rw [σ.apply_symm_apply, ← hx.count]; exact hj), σ.apply_symm_apply j⟩

theorem Spec.MovedBay.mem2 {s : Blade2 ℝ} : s ∈ B'.blade2 ↔ s ∈ B.blade2 := by
  constructor
  · intro h
    obtain ⟨j, hj⟩ := List.mem_iff_getElem?.1 h
    obtain ⟨i, hi, rfl⟩ := hx.back (List.getElem?_eq_some_iff.1 hj).1
    exact List.mem_of_getElem? ((hx.blade2 i hi).symm.trans hj)
  · intro h
    obtain ⟨i, hi⟩ := List.mem_iff_getElem?.1 h
    exact List.mem_of_getElem? ((hx.blade2 i (List.getElem?_eq_some_iff.1 hi).1).trans hi)

theorem Spec.MovedBay.getD {i : ℕ} (hi : i < B.blade2.length) (d : Blade2 ℝ) :
    B'.blade2.getD (σ i) d = B.blade2.getD i d := by
  rw [List.getD_eq_getElem?_getD, List.getD_eq_getElem?_getD, hx.blade2 i hi]

theorem Spec.MovedBay.terms (h : C52.Terms B) : C52.Terms B' where
  panels p hp := by
    rw [hx.skin]
    exact h.panels p (hx.panels ▸ hp)
  base1 s hs b hb := by
    rw [hx.skin]
    exact h.base1 s (hx.mem1.1 hs) b hb
  base2 s hs b hb := by
    rw [hx.skin]
    exact h.base2 s (hx.mem2.1 hs) b hb

/-- The rebuilt bay has its stiffeners in the same order. -/
theorem Spec.MovedBay.rebuild {E : BayEnv ℝ} {R : Bay ℝ} (h : B.rebuild E = .ok R) :
    ∃ R', B'.rebuild E = .ok R' ∧ MovedBay σ R R' := by
  obtain ⟨hr, h1, h2, h3, h4⟩ := hx
  generalize B'.blade1 = b1 at *
  generalize B'.blade2 = b2 at *
  subst hr
  unfold Bay.rebuild at h
  obtain ⟨⟨m, ps⟩, hp, h⟩ := bind_ok.1 h
  obtain ⟨a1, ha1, h⟩ := bind_ok.1 h
  obtain ⟨a2, ha2, h⟩ := bind_ok.1 h
  cases h
  obtain ⟨a1', e1, p1⟩ := forall₂_perm h1 (mapE_ok ha1)
  have hf := mapE_ok ha2
  have hlen : B.blade2.length = a2.length := hf.length_eq
  have hone : ∀ s ∈ b2, ∃ t, Blade2.rebuild E { B with model := m, panels := ps, blade1 := a1 } s = .ok t := by
    intro s hs
    obtain ⟨j, hj⟩ := List.mem_iff_getElem?.1 hs
    have hj' := (List.getElem?_eq_some_iff.1 hj).1
    have hi : σ.symm j < B.blade2.length := (h3 _).1 (by rw [σ.apply_symm_apply, ← h2]; exact hj')
    have := h4 _ hi
    rw [σ.apply_symm_apply, hj] at this
    obtain ⟨t, -, ht⟩ := forall₂_mem_left hf s (List.mem_of_getElem? this.symm)
    exact ⟨t, ht⟩
  obtain ⟨a2', e2⟩ : ∃ a2', List.Forall₂ (fun s t =>
      Blade2.rebuild E { B with model := m, panels := ps, blade1 := a1 } s = .ok t) b2 a2' := by
    clear h2 h4
    induction b2 with
    | nil => exact ⟨[], .nil⟩
    | cons s b2 ih =>
      obtain ⟨t, ht⟩ := hone s List.mem_cons_self
      obtain ⟨l, hl⟩ := ih fun s hs => hone s (List.mem_cons_of_mem _ hs)
      exact ⟨t :: l, .cons ht hl⟩
  have hlen' : b2.length = a2'.length := e2.length_eq
  refine ⟨{ B with model := m, panels := ps, blade1 := a1', blade2 := a2' }, ?_, ⟨rfl, p1, ?_, ?_, ?_⟩⟩
  · unfold Bay.rebuild
    exact bind_ok.2 ⟨_, hp, bind_ok.2 ⟨a1', mapE_of e1, bind_ok.2 ⟨a2', mapE_of e2, rfl⟩⟩⟩
  · show a2'.length = a2.length
    omega
  · show ∀ i, σ i < a2.length ↔ i < a2.length
    rw [← hlen]
    exact h3
  · intro i hi
    have hi : i < a2.length := hi
    show a2'[σ i]? = a2[i]?
    have hi1 : i < B.blade2.length := by omega
    have hi2 : σ i < b2.length := by
      rw [h2]
      exact (h3 i).2 hi1
    have hi3 : σ i < a2'.length := by omega
    have q1 := List.forall₂_iff_get.1 hf
    have q2 := List.forall₂_iff_get.1 e2
    have w1 := q1.2 i hi1 hi
    have w2 := q2.2 (σ i) hi2 hi3
    have e : b2.get ⟨σ i, hi2⟩ = B.blade2.get ⟨i, hi1⟩ := by
      have := h4 i hi1
      rw [List.getElem?_eq_getElem hi2, List.getElem?_eq_getElem hi1] at this
      exact Option.some.inj this
    rw [e, w1] at w2
    rw [List.getElem?_eq_getElem hi3, List.getElem?_eq_getElem hi]
    exact congrArg some (Except.ok.inj w2).symm

/-- The sum over the stiffeners. -/
theorem Spec.MovedBay.sum {M : Type} [AddCommMonoid M] (f : Blade2 ℝ → M) :
    (B'.blade2.map f).sum = (B.blade2.map f).sum := by
  rcases hb : B.blade2 with - | ⟨d, l⟩
  · have := hx.count
    rw [hb] at this
    rw [List.length_eq_zero_iff.1 this]
  · rw [← hb, map_range f d, map_range f d B.blade2, hx.count]
    have key : ∀ (g : ℕ → M) n, ((List.range n).map g).sum = ∑ p ∈ Finset.range n, g p := fun g n => by
      induction n with
      | zero => rfl
      | succ n ih => rw [List.range_succ, List.map_append, List.sum_append, ih, Finset.sum_range_succ]; simp
    rw [key, key, ← sum_moved hx.inside]
    exact Finset.sum_congr rfl fun i hi => by rw [hx.getD (Finset.mem_range.1 hi)]

end

end

/-- The sum of the parts of two lists that correspond to each other. -/
theorem sum_indexed {σ : ℕ ≃ ℕ} {n : ℕ} (hσ : ∀ i, σ i < n ↔ i < n) {Q Q' : List ((ℕ → ℝ) → ℝ)} (h : Q.length = n)
    (h' : Q'.length = n) {v w : ℕ → ℝ} (hq : ∀ i < n, ∀ q q', Q[i]? = some q → Q'[σ i]? = some q' → q' w = q v) :
    (Q'.map fun q => q w).sum = (Q.map fun q => q v).sum := by
  rw [map_range _ (fun _ => 0), map_range _ (fun _ => 0) Q, h, h']
  refine list_moved hσ fun i hi => ?_
  have h1 : i < Q.length := by omega
  have h2 : σ i < Q'.length := by
    rw [h']
    exact (hσ i).2 hi
  rw [List.getD_eq_getElem?_getD, List.getD_eq_getElem?_getD, List.getElem?_eq_getElem h1,
    List.getElem?_eq_getElem h2]
  exact hq i hi _ _ (List.getElem?_eq_getElem h1) (List.getElem?_eq_getElem h2)

/-! ## What the parts depend on -/

theorem calcKM_within {E : Env ℝ} {s t : Shell ℝ} {L : Coo ℝ}
    (h : s.calcKM E .none 0 0 none none none none true = .ok (L, t)) :
    ∀ x ∈ L, x.row < 3 * s.pan.m * s.pan.n ∧ x.col < 3 * s.pan.m * s.pan.n := by
  unfold Shell.calcKM at h
  cases hk : s.model.bind kindOf with
  | none =>
    simp only [hk] at h
    cases h
  | some k =>
    cases hl : s.fixR.lam with
    | none =>
      simp only [hk, hl] at h
      cases h
    | some l =>
      simp only [hk, hl] at h
      obtain ⟨_, e, h⟩ := bind_ok.1 h
      cases e
      obtain ⟨_, -, h⟩ := bind_ok.1 h
      obtain ⟨kM, h3, h⟩ := bind_ok.1 h
      cases h
      exact finalizeSym_within (sparse_within h3)

section
variable {E : BayEnv ℝ} {R R' : Bay ℝ} {off off' w : ℕ} {q q' : (ℕ → ℝ) → ℝ} {c d : ℕ → ℝ}

/-- A part calculated alone sees only its own unknowns. -/
theorem own_same {g : Shell ℝ → Except Fail (Coo ℝ × Shell ℝ)} {o : Option (Shell ℝ)}
    (hg : ∀ b L t, o = some b → g b = .ok (L, t) → ∀ x ∈ L, x.row < w ∧ x.col < w)
    (h : C52.Own g off o q) (h' : C52.Own g off' o q') (hv : ∀ k < w, d (off' + k) = c (off + k)) :
    q' d = q c := by
  cases o with
  | none => rw [h, h']
  | some b =>
    obtain ⟨L, t, e, e1⟩ := h
    obtain ⟨L', t', e', e1'⟩ := h'
    rw [e] at e'
    cases e'
    rw [e1, e1']
    exact quad_within (hg b L t rfl e) hv

theorem quad_beam {L : Coo ℝ} {f n w : ℕ} (hL : Fits L f 0 n 0 n) (hn : n ≤ w) (h0 : 0 < f → 0 < n)
    (hv : ∀ k < w, d k = c k) : Coo.quad (Coo.finalizeSym L) d = Coo.quad (Coo.finalizeSym L) c :=
  quad_within (finalizeSym_within (hL.inMatrix (by omega) (by omega) h0)) hv

theorem terms_pos {a m n : ℕ} (h : 0 < a * m * n * m * n) : 0 < 3 * (m * n) := by
  rcases Nat.eq_zero_or_pos m with h3 | h3
  · simp [h3] at h
  · have := Nat.pos_of_mul_pos_left h
    positivity

section
variable (hs : R'.skin = R.skin) (hp : R'.panels = R.panels) (hv : ∀ k < 3 * R.skin.m * R.skin.n, d k = c k)
include hs hv

theorem beam_same {s : Blade1 ℝ} (h : C52.Beam E R s q) (h' : C52.Beam E R' s q') : q' d = q c := by
  unfold C52.Beam at h h'
  cases hc : s.sec with
  | none =>
    simp only [hc] at h h'
    rw [h, h']
  | some x =>
    simp only [hc] at h h'
    obtain ⟨bf, e, h⟩ := h
    obtain ⟨bf', e', h'⟩ := h'
    rw [e] at e'
    cases e'
    rw [h, h', hs]
    exact quad_beam (C24.fkCf_fits ..) (by rw [mul_assoc]) terms_pos hv

theorem beamG_same {s : Blade1 ℝ} (h : C52.BeamG E R s q) (h' : C52.BeamG E R' s q') : q' d = q c := by
  unfold C52.BeamG at h h'
  cases hc : s.sec with
  | none =>
    simp only [hc] at h h'
    rw [h, h']
  | some x =>
    simp only [hc] at h h'
    rw [h, h', hs]
    exact quad_beam (C24.fkGf_fits ..) (by rw [mul_assoc]) terms_pos hv

include hp in
theorem beamM_same {s : Blade1 ℝ} (h : C52.BeamM E R s q) (h' : C52.BeamM E R' s q') : q' d = q c := by
  unfold C52.BeamM at h h'
  cases hc : s.sec with
  | none =>
    simp only [hc] at h h'
    rw [h, h']
  | some x =>
    simp only [hc] at h h'
    obtain ⟨p1, p2, bf, a1, a2, e, h⟩ := h
    obtain ⟨p1', p2', bf', a1', a2', e', h'⟩ := h'
    rw [hp, a1] at a1'
    rw [hp, a2] at a2'
    rw [e] at e'
    cases e'
    cases a1'
    cases a2'
    rw [h, h', hs]
    exact quad_beam (C24.fkMf_fits ..) (by rw [mul_assoc]) terms_pos hv

include hp in
theorem joint_same (hI : E.I.Exact E.S Mean.integral) (hC : E.S.C2) (ha : R.skin.a ≠ 0) (hb : R.skin.b ≠ 0)
    {s : Blade2 ℝ} (hf : ∀ f, s.flange = some f → f.pan.a ≠ 0 ∧ f.pan.b ≠ 0)
    (ho : 3 * R.skin.m * R.skin.n ≤ off) (ho' : 3 * R.skin.m * R.skin.n ≤ off')
    (hw : ∀ k < C52.width s, d (off' + k) = c (off + k)) (h : C52.Joint E R off s q)
    (h' : C52.Joint E R' off' s q') : q' d = q c := by
  unfold C52.Joint at h h'
  cases hfl : s.flange with
  | none =>
    simp only [hfl] at h h'
    rw [h, h']
  | some f =>
    obtain ⟨fa, fb⟩ := hf f hfl
    simp only [hfl] at h h'
    obtain ⟨p, p', f', l1, l2, kt, kr, a1, a2, a3, a4, a5, a6, h⟩ := h
    obtain ⟨x, x', g', m1, m2, ct, cr, b1, b2, b3, b4, b5, b6, h'⟩ := h'
    obtain rfl : p = x := by
      cases hb : s.base with
      | none =>
        rw [hb] at a1 b1
        simp only [hp] at b1
        exact Option.some.inj (a1.symm.trans b1)
      | some b =>
        rw [hb] at a1 b1
        exact a1.trans b1.symm
    cases a2.symm.trans b2
    cases a3.symm.trans b3
    cases a4.symm.trans b4
    cases a5.symm.trans b5
    cases a6.symm.trans b6
    rw [mul_assoc] at ho ho'
    rw [h, h', hs, C50.blade_joint hI hC R.skin f.panel ha hb fa fb kt kr s.ys 0 off (by omega),
      C50.blade_joint hI hC R.skin f.panel ha hb fa fb kt kr s.ys 0 off' (by omega)]
    have e1 : ∀ α < 3, u E.S R.skin 0 d α = u E.S R.skin 0 c α := fun α hα =>
      u_block (fun k hk => by rw [Nat.zero_add, hv k hk]) hα
    have e2 : ∀ α < 3, u E.S f.panel off' d α = u E.S f.panel off c α := fun α hα =>
      u_block (fun k hk => hw k (by unfold C52.width; rw [hfl]; exact hk)) hα
    rw [e1 0 (by omega), e1 1 (by omega), e1 2 (by omega), e2 0 (by omega), e2 1 (by omega), e2 2 (by omega)]

end

end

end Verif
