import Verif.Spec.BayParts
import Verif.Props.C102
import Verif.Props.C56

/-!
# C103: a bay and the assembly of its parts

A bay whose stiffeners are flanges, and the same skin and flanges joined by `MultiDomain` (`Spec/BayParts.lean`):
the stiffness, geometric stiffness and mass matrices of the two classes, compared entry by entry.

Missing: the matrices agree for a skin of one panel.  The bay counts the skin once for each of its panels (`C56`),
the assembly once, see `stiffness_violated`.
-/

set_option linter.unusedSectionVars false

namespace Verif.C103

open Finset Spec Model Indep C80 C81

variable {E : BayEnv ℝ} {B R : Bay ℝ} {N : ℕ} {p : Shell ℝ}

/-! ## Numbers -/

theorem part_succ {i : ℕ} {s : Blade2 ℝ} {f : Shell ℝ} (hs : R.blade2[i]? = some s) (hf : s.flange = some f) :
    (bayPart R p (i + 1)).shell = f := by
  simp [bayPart, hs, hf]

section
variable (h : SolidBay E B R N) (hp : p ∈ R.panels)
include h hp

theorem plan : ∃ x1 x2 y1 y2, p.panel = { bayPanel R 0 with x1 := x1, x2 := x2, y1 := y1, y2 := y2 } := by
  obtain ⟨t, lam, hs⟩ := h.skin p hp
  exact hs.plan

theorem plan_m : p.pan.m = R.skin.m ∧ p.pan.n = R.skin.n ∧ p.pan.a = R.skin.a ∧ p.pan.b = R.skin.b := by
  obtain ⟨x1, x2, y1, y2, e⟩ := plan h hp
  refine ⟨?_, ?_, ?_, ?_⟩
  · have := congrArg Panel.m e; exact this
  · have := congrArg Panel.n e; exact this
  · have := congrArg Panel.a e; exact this
  · have := congrArg Panel.b e; exact this

theorem number : ∀ k ≤ R.blade2.length + 1,
    ((List.range k).map fun q => 3 * (bayPart R p q).shell.pan.m * (bayPart R p q).shell.pan.n).sum
      = bayStart R k := by
  intro k
  induction k with
  | zero => intro _; rfl
  | succ i ih =>
    intro hi
    rw [List.range_succ, List.map_append, List.sum_append, ih (by omega)]
    simp only [List.map_cons, List.map_nil, List.sum_cons, List.sum_nil, Nat.add_zero]
    cases i with
    | zero =>
      obtain ⟨e1, e2, -⟩ := plan_m h hp
      rw [bayStart_succ, C52.start_zero]
      show 0 + 3 * p.pan.m * p.pan.n = _
      rw [e1, e2, Nat.zero_add]
    | succ i =>
      have hs := List.getElem?_eq_getElem (show i < R.blade2.length by omega)
      obtain ⟨f, hf, -⟩ := h.has_flange hs
      rw [bayStart_succ, bayStart_succ, C52.start_succ R hs, part_succ hs hf]
      unfold C52.width
      rw [hf]

/-- The numbers of the amplitudes agree. -/
theorem start {k : ℕ} (hk : k ≤ R.blade2.length + 1) : (bayAssy R p).start k = bayStart R k := by
  rw [← number h hp k hk]
  unfold Assy.start C40.start
  rw [List.take_range, min_eq_left (show k ≤ (bayAssy R p).count from hk)]
  rfl

/-- The sizes agree. -/
theorem size : (bayAssy R p).multi.getSize = N := by
  have := number h hp (R.blade2.length + 1) le_rfl
  rw [bayStart_succ, C52.filled R h.size] at this
  exact this

end

/-! ## The assembly -/

/-- A shell after `_rebuild`. -/
noncomputable def after (E : Env ℝ) (s : Shell ℝ) : Shell ℝ :=
  match s.rebuild E with
  | .ok t => t
  | .error _ => s

theorem after_ok {E : Env ℝ} {s t : Shell ℝ} (h : s.rebuild E = .ok t) : after E s = t := by
  unfold after
  rw [h]

/-- The parts of the assembly after `_rebuild`. -/
noncomputable def made (E : Env ℝ) (R : Bay ℝ) (p : Shell ℝ) (k : ℕ) : Shell ℝ := after E (bayPart R p k).shell

section
variable (h : SolidBay E B R N) (hF : Flanged R) (hp : p ∈ R.panels)
include h hF hp

/-- The parts can be assembled. -/
theorem fit : Fit E.toEnv (bayAssy R p) (made E.toEnv R p) := by
  have key : ∀ k < (bayAssy R p).count, ∃ t lam P, Sheet E.toEnv P (bayPart R p k).shell t lam ∧
      (0 < (bayPart R p k).shell.pan.m ∧ 0 < (bayPart R p k).shell.pan.n) ∧
      0 < (bayPart R p k).shell.pan.a ∧ 0 < (bayPart R p k).shell.pan.b := by
    intro k hk
    cases k with
    | zero =>
      obtain ⟨t, lam, hs⟩ := h.skin p hp
      obtain ⟨e1, e2, e3, e4⟩ := plan_m h hp
      refine ⟨t, lam, _, hs, ?_, ?_⟩
      · show 0 < p.pan.m ∧ 0 < p.pan.n
        rw [e1, e2]; exact hF.skin
      · show 0 < p.pan.a ∧ 0 < p.pan.b
        rw [e3, e4]; exact h.sides
    | succ i =>
      have hs := List.getElem?_eq_getElem (show i < R.blade2.length from Nat.lt_of_succ_lt_succ hk)
      have hm := List.mem_of_getElem? hs
      obtain ⟨f, hf, -⟩ := h.has_flange hs
      obtain ⟨f1, f2, t, lam, hS⟩ := h.flange _ hm f hf
      rw [part_succ hs hf]
      exact ⟨t, lam, _, hS, hF.terms _ hm f hf, by rw [f1]; exact h.sides.1, f2⟩
  refine ⟨h.exact, h.smooth, Nat.succ_pos _, fun k hk => ?_, fun k hk => ?_, fun k hk => ?_, fun k hk => ?_, ?_, ?_⟩
  · obtain ⟨t, lam, P, hs, hm, -⟩ := key k hk
    exact hm
  · obtain ⟨t, lam, P, hs, -⟩ := key k hk
    have := after_ok hs.built
    unfold made
    rw [this]
    exact hs.built
  · obtain ⟨t, lam, P, hs, -⟩ := key k hk
    unfold made
    rw [after_ok hs.built]
    exact ⟨lam, hs.hlam, hs.pos⟩
  · obtain ⟨t, lam, P, -, -, h2⟩ := key k hk
    exact h2
  · show (List.range R.blade2.length).map (bayJoint R) ≠ []
    have := List.length_pos_iff.2 hF.any
    simp [List.range_eq_nil]
    exact hF.any
  · intro d hd
    obtain ⟨i, hi, rfl⟩ := List.mem_map.1 hd
    have hi := List.mem_range.1 hi
    refine ⟨List.mem_range.2 (Nat.succ_pos _), List.mem_range.2 (Nat.succ_lt_succ hi), (Nat.succ_ne_zero i).symm,
      .inr (.inl ⟨.inr rfl, R.blade2[i].ys, 0, ?_, rfl⟩)⟩
    simp [bayJoint, List.getElem?_eq_getElem hi]

end

/-! ## Sums -/

theorem forall₂_index {α β : Type} {l : List α} {Q : List β} {P : ℕ → α → β → Prop} (hl : Q.length = l.length)
    (h : ∀ i s q, l[i]? = some s → Q[i]? = some q → P i s q) :
    List.Forall₂ (fun i q => ∃ s, l[i]? = some s ∧ P i s q) (List.range l.length) Q := by
  rw [List.forall₂_iff_get]
  refine ⟨by simp [hl], fun i h1 h2 => ?_⟩
  have h1 : i < l.length := by simpa using h1
  refine ⟨l[i], by simp, ?_⟩
  simp only [List.get_eq_getElem, List.getElem_range]
  exact h i _ _ (List.getElem?_eq_getElem h1) (List.getElem?_eq_getElem h2)

theorem sum_split {α : Type*} {P P' : α → ((ℕ → ℝ) → ℝ) → Prop} {l : List α} {Q es : List ((ℕ → ℝ) → ℝ)}
    (h : List.Forall₂ P l Q) (h' : List.Forall₂ P' l es) (v : ℕ → ℝ) (g : α → ℝ)
    (hr : ∀ d ∈ l, ∀ q e, P d q → P' d e → q v = g d + e v) :
    (Q.map fun q => q v).sum = (l.map g).sum + (es.map fun e => e v).sum := by
  induction h generalizing es with
  | nil => cases h'; simp
  | cons h1 h2 ih =>
    cases h' with
    | cons g1 g2 =>
      simp only [List.map_cons, List.sum_cons]
      rw [hr _ List.mem_cons_self _ _ h1 g1, ih g2 fun d hd => hr d (List.mem_cons_of_mem _ hd)]
      ring

theorem sum_only {α : Type*} {P : α → ((ℕ → ℝ) → ℝ) → Prop} {l : List α} {Q : List ((ℕ → ℝ) → ℝ)}
    (h : List.Forall₂ P l Q) (v : ℕ → ℝ) (g : α → ℝ) (hr : ∀ d ∈ l, ∀ q, P d q → q v = g d) :
    (Q.map fun q => q v).sum = (l.map g).sum := by
  induction h with
  | nil => rfl
  | cons h1 h2 ih =>
    simp only [List.map_cons, List.sum_cons]
    rw [hr _ List.mem_cons_self _ h1, ih fun d hd => hr d (List.mem_cons_of_mem _ hd)]

theorem sum_const {α : Type*} {l : List α} (x : ℝ) : (l.map fun _ => x).sum = l.length * x := by
  simp

theorem sum_range_succ (n : ℕ) (g : ℕ → ℝ) :
    ((List.range (n + 1)).map g).sum = g 0 + ((List.range n).map fun i => g (i + 1)).sum := by
  rw [List.range_succ_eq_map, List.map_cons, List.sum_cons, List.map_map]
  rfl

theorem same_of_quad {L M : Coo ℝ} (hL : Sym L) (hM : Sym M) (h : ∀ v, Coo.quad L v = Coo.quad M v) :
    SameMatrix L M := by
  have := Signs.signed_of_quad (e := Equiv.refl ℕ) (σ := fun _ => 1) (A := M) (A' := L) (by simp) hM hL
    (fun c => by simpa using h c)
  intro k l
  simpa using this k l

/-! ## Panels alike -/

section
variable (h : SolidBay E B R N) (hp : p ∈ R.panels) {q : Shell ℝ} (hq : q ∈ R.panels) (ha : Alike p q)
include h hp hq ha

theorem side : p.pan.a ≠ 0 ∧ p.pan.b ≠ 0 ∧ q.pan.a ≠ 0 ∧ q.pan.b ≠ 0 := by
  obtain ⟨-, -, e3, e4⟩ := plan_m h hp
  obtain ⟨-, -, f3, f4⟩ := plan_m h hq
  rw [e3, e4, f3, f4]
  exact ⟨h.sides.1.ne', h.sides.2.ne', h.sides.1.ne', h.sides.2.ne'⟩

theorem alike_kC {L M : Coo ℝ} {t w : Shell ℝ} (c : p.calcKC E.toEnv {} = .ok (L, t))
    (c' : q.calcKC E.toEnv {} = .ok (M, w)) (v : ℕ → ℝ) : Coo.quad M v = Coo.quad L v := by
  obtain ⟨a1, a2, a3, a4⟩ := side h hp hq ha
  obtain ⟨t1, l1, s1⟩ := h.skin p hp
  obtain ⟨t2, l2, s2⟩ := h.skin q hq
  have hb := C52.built h.terms h.rebuilt
  cases s1.built.symm.trans (hb.panels p hp)
  cases s2.built.symm.trans (hb.panels q hq)
  rw [shell_kC_strain h.exact h.smooth s1.built a1 a2 s1.shape s1.unloaded s1.hlam s1.sym c,
    shell_kC_strain h.exact h.smooth s2.built a3 a4 s2.shape s2.unloaded s2.hlam s2.sym c']
  obtain ⟨y1, y2, rfl⟩ := ha
  cases s1.hlam.symm.trans s2.hlam
  rfl

theorem alike_kG {L M : Coo ℝ} {t w : Shell ℝ} (c : p.calcKG E.toEnv {} = .ok (L, t))
    (c' : q.calcKG E.toEnv {} = .ok (M, w)) (v : ℕ → ℝ) : Coo.quad M v = Coo.quad L v := by
  obtain ⟨a1, a2, a3, a4⟩ := side h hp hq ha
  have hb := C52.built h.terms h.rebuilt
  rw [shell_kG_slope h.exact h.smooth (hb.panels p hp) a1 a2 c,
    shell_kG_slope h.exact h.smooth (hb.panels q hq) a3 a4 c']
  obtain ⟨y1, y2, rfl⟩ := ha
  rfl

theorem kM_form {L : Coo ℝ} {t : Shell ℝ} (c : C52.massOf E q = .ok (L, t)) (v : ℕ → ℝ) :
    Coo.quad L v = kineticWork E.S p.panel p.rho p.plyts.sum p.offset v := by
  obtain ⟨a1, a2, a3, a4⟩ := side h hp hq ha
  obtain ⟨k, l, k1, l1⟩ := kM_ready c
  rw [shell_kM_kinetic h.exact h.smooth k1 l1 a3 a4 c]
  obtain ⟨y1, y2, rfl⟩ := ha
  rfl

theorem alike_pen {l l' : LamObj ℝ} (e : p.lam = some l) (e' : q.lam = some l') : penOf q l' = penOf p l := by
  obtain ⟨y1, y2, rfl⟩ := ha
  cases e.symm.trans e'
  rfl

end

/-! ## Matrices -/

section
variable (h : SolidBay E B R N) (hF : Flanged R) (hp : p ∈ R.panels) (hA : ∀ q ∈ R.panels, Alike p q)
include h hF hp hA

theorem joint_eq {i : ℕ} {s : Blade2 ℝ} {f : Shell ℝ} (hs : R.blade2[i]? = some s) (hf : s.flange = some f)
    {q e : (ℕ → ℝ) → ℝ} (hq : C52.Joint E R (C52.start R i) s q)
    (he : C40.Term E.toEnv ((bayAssy R p).after (made E.toEnv R p)) (bayJoint R i) e) (v : ℕ → ℝ) : q v = e v := by
  have hi : i < R.blade2.length := (List.getElem?_eq_some_iff.1 hs).1
  have hfit := fit h hF hp
  have hm := List.mem_of_getElem? hs
  obtain ⟨-, -, lA, lB, kt, kr, l1, l2, -, hk, hv⟩ := hfit.joint (d := bayJoint R i)
    (List.mem_map.2 ⟨i, List.mem_range.2 hi, rfl⟩) he
  rw [show lo (bayJoint R i) = 0 from rfl, show Verif.hi (bayJoint R i) = i + 1 from rfl] at *
  have hb := C52.built h.terms h.rebuilt
  obtain ⟨f1, f2, t, lam, hS⟩ := h.flange s hm f hf
  have eT : made E.toEnv R p (i + 1) = t := by
    unfold made
    rw [part_succ hs hf]
    exact after_ok hS.built
  have e0 : made E.toEnv R p 0 = p := after_ok (hb.panels p hp)
  unfold C52.Joint at hq
  simp only [hf, hF.base s hm] at hq
  obtain ⟨p0, p1, g1, m1, m2, kt', kr', a1, a2, a3, a4, a5, a6, hq⟩ := hq
  have hp0 := List.mem_of_getElem? a1
  cases a2.symm.trans (hb.panels p0 hp0)
  cases a3.symm.trans hS.built
  rw [eT] at l2 hk
  rw [e0] at l1 hk
  cases l2.symm.trans a5
  rw [alike_pen h hp hp0 (hA p0 hp0) l1 a4] at a6
  have hk : calcKtKr (penOf p lA) (penOf t lB) "ycte" = some (kt, kr) := hk
  rw [a6] at hk
  obtain ⟨rfl, rfl⟩ : kt' = kt ∧ some kr' = kr := by simpa using hk
  have fa : f.panel.a ≠ 0 := by
    show f.pan.a ≠ 0
    rw [f1]; exact h.sides.1.ne'
  have fb : f.panel.b ≠ 0 := f2.ne'
  have ho : 0 + 3 * (R.skin.m * R.skin.n) ≤ C52.start R i := by
    rw [Nat.zero_add, ← mul_assoc]; exact C101.after_skin R i
  rw [hq, hv, C50.blade_joint h.exact h.smooth R.skin f.panel h.sides.1.ne' h.sides.2.ne' fa fb kt' kr' s.ys 0 _ ho]
  rw [start h hp (Nat.zero_le _), start h hp (show i + 1 ≤ _ by omega), bayStart_succ]
  have ep : (bayAssy R p).panel (i + 1) = f.panel := congrArg Shell.panel (part_succ hs hf)
  have eq : (bayAssy R p).panel 0 = p.panel := rfl
  obtain ⟨x1, x2, y1, y2, e⟩ := plan h hp
  rw [ep, eq, e]
  have ey : posLo (bayJoint R i) = s.ys := by simp [posLo, bayJoint, jointPos, hs]
  have ez : posHi (bayJoint R i) = 0 := by simp [posHi, bayJoint, jointPos]
  rw [ey, ez, show (bayJoint R i).func = "BFycte" from rfl]
  simp only [C40.springs, String.reduceEq, if_false, if_true, or_self, Option.getD_some, bayStart]
  rfl

/-- The skin counts once for each panel in the stiffness of the bay, and once in that of the assembly. -/
theorem stiffness_counted : ∃ k B1 k' M L t, B.calcKC E = .ok (k, B1) ∧
    (bayAssy R p).multi.calcKC E.toEnv (some (bayAssy R p).conns) none = .ok (k', M) ∧
    p.calcKC E.toEnv {} = .ok (L, t) ∧ Sym k ∧ Sym k' ∧
    ∀ v, Coo.quad k v = Coo.quad k' v + (R.panels.length - 1) * Coo.quad L v := by
  obtain ⟨⟨k, B1⟩, hk⟩ := C57.kC_exists E B R N h.terms h.panels h.rebuilt h.size h.ready
  obtain ⟨R', N', hR, hN, Qp, Q1, Q2, hQ, h1, hl, h2, he⟩ := C52.kC_energy E B B1 k h.terms hk
  cases h.rebuilt.symm.trans hR
  obtain ⟨own, o1, k', M, es, c1, t1, w1, s1, s2, s3⟩ := (fit h hF hp).kC
  have o0 := o1 0 (Nat.succ_pos _)
  refine ⟨k, B1, k', M, own 0, _, hk, c1, o0, symmetric.1 hk, Assy.calcKC_sym c1, fun v => ?_⟩
  rw [hF.blade1, List.forall₂_nil_left_iff] at h1
  have t1 := List.forall₂_map_left_iff.1 t1
  have e2 := sum_split (forall₂_index hl h2) t1 v
    (fun i => Coo.quad (own (i + 1)) fun j => v ((bayAssy R p).start (i + 1) + j)) (fun i hi q e hq he => by
      obtain ⟨s, hs, qb, qf, qj, b1, b2, b3, b4⟩ := hq
      have hi := List.mem_range.1 hi
      have hm := List.mem_of_getElem? hs
      obtain ⟨f, hf, -⟩ := h.has_flange hs
      rw [hF.base s hm] at b1
      rw [hf] at b2
      obtain ⟨L, t, c, d⟩ := b2
      have c : f.calcKC E.toEnv {} = .ok (L, t) := c
      have o := o1 (i + 1) (Nat.succ_lt_succ hi)
      rw [show ((bayAssy R p).part (i + 1)).shell = f from part_succ hs hf, c] at o
      cases o
      rw [b4, b1 v, d, joint_eq h hF hp hA hs hf b3 he, start h hp (by omega), bayStart_succ]
      ring)
  have e1 := sum_only hQ v (fun _ => Coo.quad (own 0) v) (fun q hq e he => by
    obtain ⟨L, t, c, d⟩ := he
    rw [d]
    simp only [Nat.zero_add]
    exact alike_kC h hp hq (hA q hq) o0 c v)
  rw [he, w1, e1, e2, h1, sum_const, show (bayAssy R p).count = R.blade2.length + 1 from rfl, sum_range_succ,
    start h hp (Nat.zero_le _)]
  simp only [bayStart, Nat.zero_add, List.map_nil, List.sum_nil]
  ring

/-- The same for the geometric stiffness. -/
theorem geometric_counted : ∃ k B1 k0 M k' M' L t, B.calcKG E none = .ok (k, B1) ∧
    (bayAssy R p).multi.calcKC E.toEnv (some (bayAssy R p).conns) none = .ok (k0, M) ∧
    M.calcKG E.toEnv none = .ok (k', M') ∧
    p.calcKG E.toEnv {} = .ok (L, t) ∧ Sym k ∧ Sym k' ∧
    ∀ v, Coo.quad k v = Coo.quad k' v + (R.panels.length - 1) * Coo.quad L v := by
  obtain ⟨⟨k, B1⟩, hk⟩ := C57.kG_exists E B R N h.terms h.panels h.rebuilt h.size h.ready
  obtain ⟨R', N', hR, hN, Qp, Q1, Q2, hQ, h1, hl, h2, he⟩ := C52.kG_energy E B B1 k h.terms hk
  cases h.rebuilt.symm.trans hR
  obtain ⟨-, -, k0, M, es, c1, t1, w1, s1, s2, s3⟩ := (fit h hF hp).kC
  obtain ⟨own, o1, k', M', g1, g2⟩ := (fit h hF hp).kG s1 s2 s3
  have o0 := o1 0 (Nat.succ_pos _)
  refine ⟨k, B1, k0, M, k', M', own 0, _, hk, c1, g1, o0, symmetric.2.1 none hk, Multi.calcKG_sym g1, fun v => ?_⟩
  rw [hF.blade1, List.forall₂_nil_left_iff] at h1
  have e2 := sum_only (forall₂_index hl h2) v
    (fun i => Coo.quad (own (i + 1)) fun j => v ((bayAssy R p).start (i + 1) + j)) (fun i hi q hq => by
      obtain ⟨s, hs, b2⟩ := hq
      have hi := List.mem_range.1 hi
      obtain ⟨f, hf, -⟩ := h.has_flange hs
      rw [hf] at b2
      obtain ⟨L, t, c, d⟩ := b2
      have c : f.calcKG E.toEnv {} = .ok (L, t) := c
      have o := o1 (i + 1) (Nat.succ_lt_succ hi)
      rw [show ((bayAssy R p).part (i + 1)).shell = f from part_succ hs hf, c] at o
      cases o
      rw [d, start h hp (by omega), bayStart_succ])
  have e1 := sum_only hQ v (fun _ => Coo.quad (own 0) v) (fun q hq e he => by
    obtain ⟨L, t, c, d⟩ := he
    rw [d]
    simp only [Nat.zero_add]
    exact alike_kG h hp hq (hA q hq) o0 c v)
  rw [he, g2, e1, e2, h1, sum_const, show (bayAssy R p).count = R.blade2.length + 1 from rfl, sum_range_succ,
    start h hp (Nat.zero_le _)]
  simp only [bayStart, Nat.zero_add, List.map_nil, List.sum_nil]
  ring

/-- The same for the mass. -/
theorem mass_counted (hT : ∀ s ∈ R.blade2, ∀ f, s.flange = some f → f.plyts ≠ []) :
    ∃ k B1 k0 M k' M' L t, B.calcKM E = .ok (k, B1) ∧
    (bayAssy R p).multi.calcKC E.toEnv (some (bayAssy R p).conns) none = .ok (k0, M) ∧
    M.calcKM E.toEnv = .ok (k', M') ∧
    p.calcKM E.toEnv .none 0 0 none none none none true = .ok (L, t) ∧ Sym k ∧ Sym k' ∧
    ∀ v, Coo.quad k v = Coo.quad k' v + (R.panels.length - 1) * Coo.quad L v := by
  obtain ⟨⟨k, B1⟩, hk⟩ := C57.kM_exists_partial E B R N h.terms h.panels h.rebuilt h.size (by simp [hF.blade1])
    (fun s hs b hb => by rw [hF.base s hs] at hb; cases hb)
  obtain ⟨R', N', hR, hN, Qp, Q1, Q2, hQ, h1, hl, h2, he⟩ := C52.kM_energy E B B1 k h.terms hk
  cases h.rebuilt.symm.trans hR
  obtain ⟨-, -, k0, M, es, c1, t1, w1, s1, s2, s3⟩ := (fit h hF hp).kC
  obtain ⟨k', M', g1, g2⟩ := (fit h hF hp).kM s1 s2 s3
  obtain ⟨L, t, hL⟩ := C56.own_exists hQ hp
  have hb := C52.built h.terms h.rebuilt
  have e0 : made E.toEnv R p 0 = p := after_ok (hb.panels p hp)
  have hpp : Alike p p := ⟨_, _, rfl⟩
  refine ⟨k, B1, k0, M, k', M', L, t, hk, c1, g1, hL, symmetric.2.2 hk, Multi.calcKM_sym g1, fun v => ?_⟩
  rw [hF.blade1, List.forall₂_nil_left_iff] at h1
  have e2 := sum_only (forall₂_index hl h2) v
    (fun i => kineticWork E.S ((bayAssy R p).part (i + 1)).shell.panel ((bayAssy R p).part (i + 1)).shell.rho
      (made E.toEnv R p (i + 1)).plyts.sum ((bayAssy R p).part (i + 1)).shell.offset
        fun j => v ((bayAssy R p).start (i + 1) + j)) (fun i hi q hq => by
      obtain ⟨s, hs, qb, qf, b1, b2, b4⟩ := hq
      have hi := List.mem_range.1 hi
      have hm := List.mem_of_getElem? hs
      obtain ⟨f, hf, -⟩ := h.has_flange hs
      rw [hF.base s hm] at b1
      rw [hf] at b2
      obtain ⟨L, t, c, d⟩ := b2
      obtain ⟨f1, f2, t', lam, hS⟩ := h.flange s hm f hf
      have et : made E.toEnv R p (i + 1) = t' := by
        unfold made
        rw [part_succ hs hf]
        exact after_ok hS.built
      have ets : t'.plyts = f.plyts := by
        obtain ⟨-, -, -, -, -, -, rfl⟩ := (C54.rebuild_ok_iff _ _ _).1 hS.built
        show orFill _ _ _ = _
        unfold orFill
        rw [if_neg (by simpa using hT s hm f hf)]
      obtain ⟨kd, l, k1, l1⟩ := kM_ready c
      rw [show ((bayAssy R p).part (i + 1)).shell = f from part_succ hs hf, et, ets, b4, b1 v, d,
        shell_kM_kinetic h.exact h.smooth k1 l1 (by rw [f1]; exact h.sides.1.ne') f2.ne' c, start h hp (by omega),
        bayStart_succ, zero_add])
  have e1 := sum_only hQ v (fun _ => Coo.quad L v) (fun q hq e he => by
    obtain ⟨L', t', c, d⟩ := he
    rw [d]
    simp only [Nat.zero_add]
    rw [kM_form h hp hq (hA q hq) c, kM_form h hp hp hpp hL])
  rw [he, g2, e1, e2, h1, sum_const, show (bayAssy R p).count = R.blade2.length + 1 from rfl, sum_range_succ,
    start h hp (Nat.zero_le _), e0]
  simp only [bayStart, Nat.zero_add, List.map_nil, List.sum_nil]
  rw [kM_form h hp hp hpp hL]
  simp only [bayAssy, bayPart]
  ring

end

/-! ## One panel -/

section
variable (h : SolidBay E B R N) (hF : Flanged R) (hp : R.panels = [p])
include h hF hp

theorem one_alike : p ∈ R.panels ∧ ∀ q ∈ R.panels, Alike p q := by
  rw [hp]
  refine ⟨List.mem_singleton_self p, fun q hq => ?_⟩
  cases List.mem_singleton.1 hq
  exact ⟨_, _, rfl⟩

theorem one_count {x y z : ℝ} (e : x = y + ((R.panels.length : ℝ) - 1) * z) : x = y := by
  rw [e, hp]
  simp

/-- **C103, stiffness.**  Missing: a skin of several panels, see `stiffness_violated`. -/
theorem stiffness_partial : ∃ k B1 k' M, B.calcKC E = .ok (k, B1) ∧
    (bayAssy R p).multi.calcKC E.toEnv (some (bayAssy R p).conns) none = .ok (k', M) ∧ SameMatrix k k' := by
  obtain ⟨h1, h2⟩ := one_alike h hF hp
  obtain ⟨k, B1, k', M, L, t, c1, c2, -, s1, s2, e⟩ := stiffness_counted h hF h1 h2
  exact ⟨k, B1, k', M, c1, c2, same_of_quad s1 s2 fun v => one_count h hF hp (e v)⟩

/-- **C103, geometric stiffness.** -/
theorem geometric_partial : ∃ k B1 k0 M k' M', B.calcKG E none = .ok (k, B1) ∧
    (bayAssy R p).multi.calcKC E.toEnv (some (bayAssy R p).conns) none = .ok (k0, M) ∧
    M.calcKG E.toEnv none = .ok (k', M') ∧ SameMatrix k k' := by
  obtain ⟨h1, h2⟩ := one_alike h hF hp
  obtain ⟨k, B1, k0, M, k', M', L, t, c1, c2, c3, -, s1, s2, e⟩ := geometric_counted h hF h1 h2
  exact ⟨k, B1, k0, M, k', M', c1, c2, c3, same_of_quad s1 s2 fun v => one_count h hF hp (e v)⟩

/-- **C103, mass.** -/
theorem mass_partial (hT : ∀ s ∈ R.blade2, ∀ f, s.flange = some f → f.plyts ≠ []) :
    ∃ k B1 k0 M k' M', B.calcKM E = .ok (k, B1) ∧
    (bayAssy R p).multi.calcKC E.toEnv (some (bayAssy R p).conns) none = .ok (k0, M) ∧
    M.calcKM E.toEnv = .ok (k', M') ∧ SameMatrix k k' := by
  obtain ⟨h1, h2⟩ := one_alike h hF hp
  obtain ⟨k, B1, k0, M, k', M', L, t, c1, c2, c3, -, s1, s2, e⟩ := mass_counted h hF h1 h2 hT
  exact ⟨k, B1, k0, M, k', M', c1, c2, c3, same_of_quad s1 s2 fun v => one_count h hF hp (e v)⟩

end

/-! ## Several panels -/

theorem quad_of_same {L M : Coo ℝ} (h : SameMatrix L M) (v : ℕ → ℝ) : Coo.quad L v = Coo.quad M v := by
  have hb : ∀ L : Coo ℝ, ∃ n, ∀ t ∈ L, t.row < n ∧ t.col < n := by
    intro L
    induction L with
    | nil => exact ⟨0, by simp⟩
    | cons a L ih =>
      obtain ⟨n, hn⟩ := ih
      refine ⟨n + a.row + a.col + 1, fun t ht => ?_⟩
      rcases List.mem_cons.1 ht with rfl | ht
      · omega
      · have := hn t ht
        omega
  obtain ⟨n, hn⟩ := hb L
  obtain ⟨m, hm⟩ := hb M
  unfold Coo.quad
  rw [bilin_sum_entry (N := n + m) fun t ht => ⟨(hn t ht).1.trans_le (by omega), (hn t ht).2.trans_le (by omega)⟩,
    bilin_sum_entry (N := n + m) fun t ht => ⟨(hm t ht).1.trans_le (by omega), (hm t ht).2.trans_le (by omega)⟩]
  exact sum_congr rfl fun k _ => sum_congr rfl fun l _ => by rw [h k l]

/-- The stiffness of the skin alone, where its own edges hold it. -/
theorem skin_definite (h : SolidBay E B R N) {n : ℕ} (hS : Hier E.S n) (hn : 4 ≤ n)
    (hmn : R.skin.m ≤ n ∧ R.skin.n ≤ n) (hp : p ∈ R.panels)
    (hr : Restrained (1 / (bayPanel R 0).r) (bayPanel R 0)) {L : Coo ℝ} {t : Shell ℝ}
    (hL : p.calcKC E.toEnv {} = .ok (L, t)) : C76.Definite (bayPanel R 0) 0 L := by
  obtain ⟨t', lam, hs⟩ := h.skin p hp
  have key := fun v => hs.kernel h.exact h.smooth (P := bayPanel R 0) h.sides.1 h.sides.2 hL 0 v
  simp only [Nat.zero_add, linStrain_lin h.smooth] at key
  exact (C77.definite_iff (P := bayPanel R 0) hS hn hmn.1 hmn.2 h.sides.1.ne' h.sides.2.ne' _
    (dense_Icc _ h.sides.1) (dense_Icc _ h.sides.2) (fun v => (key v).1) fun v => (key v).2).1 hr

/-- The claim fails for every skin of several panels alike that its own edges hold: the bay is stiffer than the
assembly of its parts, whatever moves the skin. -/
theorem stiffness_violated (h : SolidBay E B R N) (hF : Flanged R) (hp : p ∈ R.panels)
    (hA : ∀ q ∈ R.panels, Alike p q) (h2 : 2 ≤ R.panels.length) {n : ℕ} (hS : Hier E.S n) (hn : 4 ≤ n)
    (hmn : R.skin.m ≤ n ∧ R.skin.n ≤ n) (hr : Restrained (1 / (bayPanel R 0).r) (bayPanel R 0))
    (ha : ∃ k, Active (bayPanel R 0) 0 k) : ∃ k B1 k' M, B.calcKC E = .ok (k, B1) ∧
    (bayAssy R p).multi.calcKC E.toEnv (some (bayAssy R p).conns) none = .ok (k', M) ∧ ¬ SameMatrix k k' ∧
    ∀ v : ℕ → ℝ, (∃ k, Active (bayPanel R 0) 0 k ∧ v k ≠ 0) → Coo.quad k' v < Coo.quad k v := by
  obtain ⟨k, B1, k', M, L, t, c1, c2, c3, s1, s2, e⟩ := stiffness_counted h hF hp hA
  have hD := skin_definite h hS hn hmn hp hr c3
  have h2 : (0 : ℝ) < R.panels.length - 1 := by
    have : (2 : ℝ) ≤ R.panels.length := by exact_mod_cast h2
    linarith
  have hlt : ∀ v : ℕ → ℝ, (∃ k, Active (bayPanel R 0) 0 k ∧ v k ≠ 0) → Coo.quad k' v < Coo.quad k v := fun v hv => by
    have := mul_pos h2 ((hD v).1 hv)
    rw [e v]
    linarith
  refine ⟨k, B1, k', M, c1, c2, fun hs => ?_, hlt⟩
  obtain ⟨a, ha⟩ := ha
  have := hlt (fun _ => 1) ⟨a, ha, one_ne_zero⟩
  rw [quad_of_same hs] at this
  exact lt_irrefl _ this

/-! ## Examples -/

/-- A curved skin of one panel. -/
noncomputable def whole : Bay ℝ :=
  Bay.addPanel
    { skin := Witness.panel, r := some 5, model := none, stack := [0, 45], plyt := some (1 / 4)
      plyts := [], laminaprop := [1], laminaprops := [], rho := 1, beta := none, Mach := none, V := none
      rhoAir := none, speedSound := none, panels := [], blade1 := [], blade2 := [] }
    0 1 none none none none none none none

/-- With flanges on both edges. -/
noncomputable def edged : Except Fail (Bay ℝ) := do
  let B ← whole.addBlade2 env 0 none none (some (1 / 3)) {} ply 4 6
  B.addBlade2 env 1 none none (some (1 / 4)) {} ply 5 4

theorem found_edge (B : Bay ℝ) (hp : B.panels = whole.panels) (hs : B.skin = Witness.panel) (ys : ℝ)
    (hy : ys = 0 ∨ ys = 1) : B.findPanels ys = .ok (0, 0) := by
  unfold Bay.findPanels
  rw [hp, hs]
  have : findLoop ys (Witness.panel (K := ℝ)).b 0 whole.panels (none, none) = (some 0, some 0) := by
    rcases hy with rfl | rfl <;>
    · simp only [whole, Bay.addPanel, Shell.new, List.nil_append, findLoop, findStep, isclose, Witness.panel]
      norm_num
  rw [this]
  rfl

theorem edged_solid : ∃ B, edged = .ok B ∧ ∃ R N, SolidBay env B R N ∧ Flanged R ∧ (∃ p, R.panels = [p]) ∧
    R.blade2.length = 2 ∧ ∀ s ∈ R.blade2, ∀ f, s.flange = some f → f.plyts ≠ [] := by
  have hp : ∀ B : Bay ℝ, B.panels = whole.panels → B.pair 0 0 = .ok _ := fun B hB => by
    unfold Bay.pair
    rw [hB]
    exact if_pos ⟨rfl, rfl, rfl, rfl⟩
  have key : ∃ B, edged = .ok B ∧ B.panels ≠ [] ∧ ∃ R, B.rebuild env = .ok R ∧ Ready env R ∧
      R.getSize = .ok (105 + (72 + (60 + 0))) ∧ (0 < R.skin.a ∧ 0 < R.skin.b) ∧ Curved R.r R.model ∧
      Flanged R ∧ (∃ p, R.panels = [p]) ∧ R.blade2.length = 2 ∧
      ∀ s ∈ R.blade2, ∀ f, s.flange = some f → f.plyts ≠ [] := by
    refine ⟨_, bind_ok.2 ⟨_, bind_ok.2 ⟨_, rfl, bind_ok.2 ⟨_, rfl, bind_ok.2 ⟨_, found_edge _ rfl rfl _ (.inl rfl),
        bind_ok.2 ⟨_, rfl, bind_ok.2 ⟨_, rfl, bind_ok.2 ⟨_, bind_ok.2 ⟨_, hp _ rfl, rfl⟩, rfl⟩⟩⟩⟩⟩⟩,
      bind_ok.2 ⟨_, rfl, bind_ok.2 ⟨_, rfl, bind_ok.2 ⟨_, found_edge _ rfl rfl _ (.inr rfl),
        bind_ok.2 ⟨_, rfl, bind_ok.2 ⟨_, rfl, bind_ok.2 ⟨_, bind_ok.2 ⟨_, hp _ rfl, rfl⟩, rfl⟩⟩⟩⟩⟩⟩⟩, ?_, _,
      bind_ok.2 ⟨_, rfl, bind_ok.2 ⟨_, rfl, bind_ok.2 ⟨_,
        bind_ok.2 ⟨_, bind_ok.2 ⟨_, if_pos ⟨rfl, rfl, rfl, rfl⟩, rfl⟩,
          bind_ok.2 ⟨_, bind_ok.2 ⟨_, bind_ok.2 ⟨_, if_pos ⟨rfl, rfl, rfl, rfl⟩, rfl⟩, rfl⟩, rfl⟩⟩, rfl⟩⟩⟩, ?_, rfl,
      ?_, ?_, ⟨rfl, ?_, ?_, ?_, ?_⟩, ⟨_, rfl⟩, rfl, ?_⟩
    · exact List.cons_ne_nil _ _
    · refine ⟨fun s hs b hb => ?_, fun s hs b hb => ?_, fun s hs b hb => ?_⟩
      · cases hs
      · rcases List.mem_pair.1 hs with rfl | rfl <;> cases hb
      · rcases List.mem_pair.1 hs with rfl | rfl <;> cases hb <;> exact ⟨_, rfl⟩
    · show 0 < (3 : ℝ) ∧ 0 < (1 : ℝ)
      norm_num
    · exact .inr ⟨5, by norm_num, rfl, rfl⟩
    · intro s hs
      rcases List.mem_pair.1 hs with rfl | rfl <;> rfl
    · exact List.cons_ne_nil _ _
    · show 0 < 5 ∧ 0 < 7
      norm_num
    · intro s hs f hf
      rcases List.mem_pair.1 hs with rfl | rfl <;> cases hf
      · show 0 < 4 ∧ 0 < 6
        norm_num
      · show 0 < 5 ∧ 0 < 4
        norm_num
    · intro s hs f hf
      rcases List.mem_pair.1 hs with rfl | rfl <;> cases hf <;> exact List.cons_ne_nil _ _
  obtain ⟨B, hB, hne, R, hR, hr, hN, hs, hk, hF, h1, h2, h3⟩ := key
  have hS : Shaped B := by
    unfold edged at hB
    obtain ⟨B1, h1, hB⟩ := bind_ok.1 hB
    exact shaped_addBlade2 (shaped_addBlade2 (shaped_addPanel (shaped_empty rfl rfl rfl) ..) _ _ _ (by norm_num) _ _ _ _ h1)
      _ _ _ (by norm_num) _ _ _ _ hB
  refine ⟨B, hB, R, _, C81.solid (Tab.of_exact _ _) bardellShape_C2 env_good hS hne hR hN hs hr hk
    (fun s hs => ?_), hF, h1, h2, h3⟩
  rw [hF.blade1] at hs
  cases hs

/-- A bay with flanges on both edges has the matrices of three joined panels. -/
example : ∃ B, edged = .ok B ∧ ∃ R N p, SolidBay env B R N ∧ (bayAssy R p).count = 3 ∧
    (∃ k B1 k' M, B.calcKC env = .ok (k, B1) ∧
      (bayAssy R p).multi.calcKC env.toEnv (some (bayAssy R p).conns) none = .ok (k', M) ∧ SameMatrix k k') ∧
    (∃ k B1 k0 M k' M', B.calcKG env none = .ok (k, B1) ∧
      (bayAssy R p).multi.calcKC env.toEnv (some (bayAssy R p).conns) none = .ok (k0, M) ∧
      M.calcKG env.toEnv none = .ok (k', M') ∧ SameMatrix k k') ∧
    ∃ k B1 k0 M k' M', B.calcKM env = .ok (k, B1) ∧
      (bayAssy R p).multi.calcKC env.toEnv (some (bayAssy R p).conns) none = .ok (k0, M) ∧
      M.calcKM env.toEnv = .ok (k', M') ∧ SameMatrix k k' := by
  obtain ⟨B, hB, R, N, h, hF, ⟨p, hp⟩, hl, ht⟩ := edged_solid
  exact ⟨B, hB, R, N, p, h, congrArg (· + 1) hl, stiffness_partial h hF hp, geometric_partial h hF hp,
    mass_partial h hF hp ht⟩

/-- A skin of two panels with a flange where they meet. -/
noncomputable def inner : Except Fail (Bay ℝ) :=
  (C102.two Witness.panel (1 / 4) 0 (1 / 3) (1 / 3) 1).addBlade2 env (1 / 3) none none (some (1 / 3)) {} ply 4 6

theorem inner_solid : ∃ B, inner = .ok B ∧ ∃ R N, SolidBay env B R N ∧ Flanged R ∧ R.skin = Witness.panel ∧
    ∃ p, p ∈ R.panels ∧ (∀ q ∈ R.panels, Alike p q) ∧ R.panels.length = 2 := by
  have hp : ∀ B : Bay ℝ, B.panels = (C102.two Witness.panel (1 / 4) 0 (1 / 3) (1 / 3) 1).panels →
      B.pair 0 1 = .ok _ := fun B hB => by
    unfold Bay.pair
    rw [hB]
    exact if_pos ⟨rfl, rfl, rfl, rfl⟩
  have key : ∃ B, inner = .ok B ∧ B.panels ≠ [] ∧ ∃ R, B.rebuild env = .ok R ∧ Ready env R ∧
      R.getSize = .ok (105 + (72 + 0)) ∧ (0 < R.skin.a ∧ 0 < R.skin.b) ∧ Curved R.r R.model ∧
      Flanged R ∧ R.skin = Witness.panel ∧
      ∃ p, p ∈ R.panels ∧ (∀ q ∈ R.panels, Alike p q) ∧ R.panels.length = 2 := by
    refine ⟨_, bind_ok.2 ⟨_, rfl, bind_ok.2 ⟨_, rfl, bind_ok.2 ⟨_, C102.found_left _ _ rfl rfl,
        bind_ok.2 ⟨_, rfl, bind_ok.2 ⟨_, rfl, bind_ok.2 ⟨_, bind_ok.2 ⟨_, hp _ rfl, rfl⟩, rfl⟩⟩⟩⟩⟩⟩, ?_, _,
      bind_ok.2 ⟨_, rfl, bind_ok.2 ⟨_, rfl, bind_ok.2 ⟨_,
        bind_ok.2 ⟨_, bind_ok.2 ⟨_, if_pos ⟨rfl, rfl, rfl, rfl⟩, rfl⟩, rfl⟩, rfl⟩⟩⟩, ?_, rfl,
      ?_, ?_, ⟨rfl, ?_, ?_, ?_, ?_⟩, rfl, _, List.mem_cons_self, ?_, rfl⟩
    · exact List.cons_ne_nil _ _
    · refine ⟨fun s hs b hb => ?_, fun s hs b hb => ?_, fun s hs b hb => ?_⟩
      · cases hs
      · cases List.mem_singleton.1 hs
        cases hb
      · cases List.mem_singleton.1 hs
        cases hb
        exact ⟨_, rfl⟩
    · show 0 < (3 : ℝ) ∧ 0 < (1 : ℝ)
      norm_num
    · exact .inr ⟨5, by norm_num, rfl, rfl⟩
    · intro s hs
      cases List.mem_singleton.1 hs
      rfl
    · exact List.cons_ne_nil _ _
    · show 0 < 5 ∧ 0 < 7
      norm_num
    · intro s hs f hf
      cases List.mem_singleton.1 hs
      cases hf
      show 0 < 4 ∧ 0 < 6
      norm_num
    · intro q hq
      rcases List.mem_pair.1 hq with rfl | rfl <;> exact ⟨_, _, rfl⟩
  obtain ⟨B, hB, hne, R, hR, hr, hN, hs, hk, hF, h1, h2⟩ := key
  have hS : Shaped B := by
    unfold inner at hB
    exact shaped_addBlade2 (shaped_addPanel (shaped_addPanel (shaped_empty rfl rfl rfl) ..) ..) _ _ _ (by norm_num)
      _ _ _ _ hB
  refine ⟨B, hB, R, _, C81.solid (Tab.of_exact _ _) bardellShape_C2 env_good hS hne hR hN hs hr hk
    (fun s hs => ?_), hF, h1, h2⟩
  rw [hF.blade1] at hs
  cases hs

/-- It is stiffer than its parts joined. -/
example : ∃ B, inner = .ok B ∧ ∃ R N p, SolidBay env B R N ∧ ∃ k B1 k' M, B.calcKC env = .ok (k, B1) ∧
    (bayAssy R p).multi.calcKC env.toEnv (some (bayAssy R p).conns) none = .ok (k', M) ∧ ¬ SameMatrix k k' := by
  obtain ⟨B, hB, R, N, h, hF, hs, p, hp, hA, hl⟩ := inner_solid
  obtain ⟨k, B1, k', M, c1, c2, c3, -⟩ := stiffness_violated h hF hp hA hl.ge (exact_hier 7) (by norm_num)
    (by rw [hs]; exact ⟨by show 5 ≤ 7; norm_num, le_rfl⟩)
    (ends_restrained _ h.sides.1 h.sides.2 (by simp [bayPanel, hs, Witness.panel])
      (by simp [bayPanel, hs, Witness.panel]) (by simp [bayPanel, hs, Witness.panel]))
    (by
      refine ⟨3 * (4 * 5 + 4), 0, by norm_num, 4, ?_, 4, ?_, ?_, ?_, ?_⟩ <;>
        simp [bayPanel, hs, Witness.panel, flag])
  exact ⟨B, hB, R, N, p, h, k, B1, k', M, c1, c2, c3⟩

end Verif.C103
