import Verif.Spec.BayPlan
import Verif.Proofs.AssyRigid
import Verif.Props.C48
import Verif.Props.C50
import Verif.Props.C57
import Verif.Props.C78

/-!
# Bays without strain
-/

set_option linter.unusedSectionVars false

namespace Verif

open Spec Model Indep

/-- A shell on the plan of the panel `P` (whatever its sub-domain) that can be built, with a definite
laminate and without initial loads. -/
structure Sheet (E : Env ℝ) (P : Panel ℝ) (p t : Shell ℝ) (lam : LamObj ℝ) : Prop where
  plan : ∃ x1 x2 y1 y2, p.panel = { P with x1 := x1, x2 := x2, y1 := y1, y2 := y2 }
  built : p.rebuild E = .ok t
  hlam : t.lam = some lam
  sym : ABDSym lam.ABD
  laminate : C76.ABDDef lam.ABD
  kind : P.r = 0 ∧ t.model.bind kindOf = some .plate ∨ P.r ≠ 0 ∧ t.model.bind kindOf = some .cyl
  unloaded : ¬ C38.PreStress p
  pos : C44.Pos (penOf t lam)

section
variable {E : Env ℝ} {P : Panel ℝ} {p t : Shell ℝ} {lam : LamObj ℝ}

/-- The stiffness of such a shell is never negative, and zero exactly without strain. -/
theorem Sheet.kernel (h : Sheet E P p t lam) (hI : E.I.Exact E.S Mean.integral) (hC : E.S.C2)
    (ha : 0 < P.a) (hb : 0 < P.b) {L : Coo ℝ} {w : Shell ℝ} (hk : p.calcKC E {} = .ok (L, w)) (s : ℕ)
    (v : ℕ → ℝ) : 0 ≤ Coo.quad L (fun i => v (s + i)) ∧ (Coo.quad L (fun i => v (s + i)) = 0 ↔
      ∀ x ∈ Set.Icc 0 P.a, ∀ y ∈ Set.Icc 0 P.b, ∀ c < 6, linStrain (1 / P.r) E.S P s v c x y = 0) := by
  obtain ⟨x1, x2, y1, y2, e⟩ := h.plan
  have ea : p.pan.a = P.a := by
    have := congrArg Panel.a e
    exact this
  have eb : p.pan.b = P.b := by
    have := congrArg Panel.b e
    exact this
  have er : p.r.getD 0 = P.r := by
    have := congrArg Panel.r e
    exact this
  rw [shell_kC_strain hI hC h.built (by rw [ea]; exact ha.ne') (by rw [eb]; exact hb.ne')
    (by rw [er]; exact h.kind) h.unloaded h.hlam h.sym hk, e]
  have e2 : strainWork E.S { P with x1 := x1, x2 := x2, y1 := y1, y2 := y2 } lam.ABD
    = strainWork E.S P lam.ABD := rfl
  rw [e2]
  unfold strainWork
  constructor
  · exact intervalIntegral.integral_nonneg ha.le fun x _ =>
      intervalIntegral.integral_nonneg hb.le fun y _ => h.laminate.nonneg _
  · simp only [linStrain_lin hC]
    refine (C77.integral_iff hC (P := P) ha hb (1 / P.r) h.laminate _ 0).trans ?_
    simp only [← linStrain_lin hC, linStrain, u_shift]

end

/-- A section for which the energy of a beam is never negative. -/
structure SectionOk (s : Blade1 ℝ) : Prop where
  width : ∀ bf, s.bf = some bf → 0 ≤ bf
  E1 : ∀ c, s.sec = some c → 0 ≤ c.E1
  F1 : ∀ c, s.sec = some c → 0 ≤ c.F1
  Jxx : 0 ≤ s.Jxx
  S1 : ∀ c, s.sec = some c → c.S1 ^ 2 ≤ c.E1 * s.Jxx

/-- A bay `B`, as rebuilt `R`, from which a stiffness matrix of size `N` can be made. -/
structure SolidBay (E : BayEnv ℝ) (B R : Bay ℝ) (N : ℕ) : Prop where
  exact : E.I.Exact E.S Mean.integral
  smooth : E.S.C2
  terms : C52.Terms B
  panels : B.panels ≠ []
  rebuilt : B.rebuild E = .ok R
  size : R.getSize = .ok N
  sides : 0 < R.skin.a ∧ 0 < R.skin.b
  skin : ∀ p ∈ R.panels, ∃ t lam, Sheet E.toEnv (bayPanel R 0) p t lam
  base1 : ∀ s ∈ R.blade1, ∀ b, s.base = some b → ∃ t lam, Sheet E.toEnv (bayPanel R 0) b t lam
  base2 : ∀ s ∈ R.blade2, ∀ b, s.base = some b → ∃ t lam, Sheet E.toEnv (bayPanel R 0) b t lam
  flange : ∀ s ∈ R.blade2, ∀ f, s.flange = some f → f.pan.a = R.skin.a ∧ 0 < f.pan.b ∧
    ∃ t lam, Sheet E.toEnv f.panel f t lam
  beam : ∀ s ∈ R.blade1, SectionOk s

section
variable {E : BayEnv ℝ} {B R : Bay ℝ} {N : ℕ}

theorem SolidBay.ready (h : SolidBay E B R N) : Ready E R where
  base1 s hs b e := by
    obtain ⟨t, lam, hb⟩ := h.base1 s hs b e
    exact ⟨t, hb.built⟩
  base2 s hs b e := by
    obtain ⟨t, lam, hb⟩ := h.base2 s hs b e
    exact ⟨t, hb.built⟩
  flange s hs b e := by
    obtain ⟨-, -, t, lam, hb⟩ := h.flange s hs b e
    exact ⟨t, hb.built⟩

theorem SolidBay.has_flange (h : SolidBay E B R N) {i : ℕ} {s : Blade2 ℝ} (hi : R.blade2[i]? = some s) :
    ∃ f, s.flange = some f ∧ bayPanel R (i + 1) = f.panel := by
  obtain ⟨f, hf, -⟩ := C57.flange_of h.size (List.mem_of_getElem? hi)
  refine ⟨f, hf, ?_⟩
  simp [bayPanel, flangePanel, hi, hf]

theorem SolidBay.parts_ne (h : SolidBay E B R N) {α : Type} {P : Shell ℝ → α → Prop} {Q : List α}
    (e : List.Forall₂ P R.panels Q) : Q ≠ [] := by
  rintro rfl
  have hR := List.forall₂_nil_right_iff.1 e
  obtain ⟨m, ps, g1, g2, -⟩ := bay_rebuild_ok h.rebuilt
  have := (rebuildPanels_ok g1).1
  rw [← g2, hR] at this
  exact h.panels (List.forall₂_nil_right_iff.1 this)

theorem bayStart_succ (R : Bay ℝ) (i : ℕ) : bayStart R (i + 1) = C52.start R i := by
  have : flangeUnknowns = C52.width := by
    funext s
    unfold flangeUnknowns C52.width
    cases s.flange <;> rfl
  simp only [bayStart, C52.start, this]

/-- The skin is not strained. -/
def Unstrained (S : Shape ℝ) (P : Panel ℝ) (s : ℕ) (v : ℕ → ℝ) : Prop :=
  ∀ x ∈ Set.Icc 0 P.a, ∀ y ∈ Set.Icc 0 P.b, ∀ c < 6, linStrain (1 / P.r) S P s v c x y = 0

theorem own_kernel {P : Panel ℝ} (hI : E.I.Exact E.S Mean.integral) (hC : E.S.C2) (ha : 0 < P.a)
    (hb : 0 < P.b) {off : ℕ} {o : Option (Shell ℝ)} {q : (ℕ → ℝ) → ℝ}
    (hs : ∀ b, o = some b → ∃ t lam, Sheet E.toEnv P b t lam)
    (hq : C52.Own (fun b => b.calcKC E.toEnv {}) off o q) (v : ℕ → ℝ) :
    0 ≤ q v ∧ (Unstrained E.S P off v → q v = 0) ∧ (o ≠ none → q v = 0 → Unstrained E.S P off v) := by
  cases o with
  | none =>
    have : q v = 0 := hq v
    simp [this]
  | some b =>
    obtain ⟨t, lam, hS⟩ := hs b rfl
    obtain ⟨L, w, h1, h2⟩ := hq
    obtain ⟨g0, g1⟩ := hS.kernel hI hC ha hb h1 off v
    rw [h2 v]
    exact ⟨g0, g1.2, fun _ => g1.1⟩

/-- A motion without strain costs a beam nothing. -/
theorem beam_kernel {S : Shape ℝ} {I : Tab ℝ} (hI : I.Exact S Mean.integral) (hC : S.C2) {n : ℕ}
    (hS : Hier S n) (hn : 4 ≤ n) {P : Panel ℝ} (hm : P.m ≤ n ∧ P.n ≤ n) (ha : 0 < P.a) (hb : 0 < P.b)
    (ys bf df E1 F1 S1 Jxx : ℝ) {v : ℕ → ℝ} (h : Unstrained S P 0 v) :
    Coo.quad (Coo.finalizeSym (fkCf S I P ys bf df E1 F1 S1 Jxx 0 0)) v = 0 := by
  unfold Unstrained at h
  simp only [linStrain_lin hC] at h
  obtain ⟨M, hM, -⟩ := motion_of_strain hS hn hm.1 hm.2 ha.ne' hb.ne' (1 / P.r) (dense_Icc P.m ha)
    (dense_Icc P.n hb) 0 v h
  have hf := C78.disp_field S P 0 v hS hm.1 hm.2 ha.ne' hb.ne' hM
  rw [C48.stiffness_energy hI hC P ha.ne' hb.ne']
  rw [hf 0 (by norm_num), hf 2 (by norm_num)]
  have e2 : dx (M.field (1 / P.r) 2) = fun _ _ => M.β :=
    funext fun x => funext fun y => (dx_field _ M x y).2.2
  have e3 : ∀ x y, dx (fun _ _ : ℝ => M.β) x y = 0 ∧ dy (fun _ _ : ℝ => M.β) x y = 0 := fun x y =>
    ⟨deriv_const .., deriv_const ..⟩
  unfold beamEnergy
  simp only [e2, (e3 _ _).1, (e3 _ _).2, (dx_field _ M _ _).1]
  simp

/-- The joint of a flange. -/
theorem joint_kernel (h : SolidBay E B R N) {i : ℕ} {s : Blade2 ℝ} (hi : R.blade2[i]? = some s)
    {q : (ℕ → ℝ) → ℝ} (hq : C52.Joint E R (C52.start R i) s q) (v : ℕ → ℝ) :
    0 ≤ q v ∧ (q v = 0 ↔ Shut (bayPanel R) (fun _ => 0)
      (fun k => u E.S (bayPanel R k) (bayStart R k) v) (bayJoint R i)) := by
  have hs := List.mem_of_getElem? hi
  obtain ⟨f, hf, ef⟩ := h.has_flange hi
  obtain ⟨fa, fb, tf, lf, hF⟩ := h.flange s hs f hf
  unfold C52.Joint at hq
  rw [hf] at hq
  obtain ⟨p, p', f', l1, l2, kt, kr, h1, h2, h3, h4, h5, h6, h7⟩ := hq
  obtain ⟨tp, lp, hP⟩ : ∃ t lam, Sheet E.toEnv (bayPanel R 0) p t lam := by
    cases hb : s.base with
    | some b =>
      rw [hb] at h1
      rw [h1]
      exact h.base2 s hs b hb
    | none =>
      rw [hb] at h1
      exact h.skin p (List.mem_of_getElem? h1)
  obtain rfl := Except.ok.inj (hP.built.symm.trans h2)
  obtain rfl := Except.ok.inj (hF.built.symm.trans h3)
  obtain rfl := Option.some.inj (hP.hlam.symm.trans h4)
  obtain rfl := Option.some.inj (hF.hlam.symm.trans h5)
  obtain ⟨kt', kr', e, p1, p2⟩ := C44.positive hP.pos hF.pos (t := "ycte") (by decide)
  rw [h6] at e
  cases e
  have hoff : 0 + 3 * (R.skin.m * R.skin.n) ≤ C52.start R i := by
    have := C52.start_mono R (Nat.zero_le i)
    rw [C52.start_zero] at this
    rw [← mul_assoc]
    omega
  obtain ⟨g0, g1⟩ := C50.blade_kernel h.exact h.smooth R.skin f.panel h.sides.1 h.sides.2.ne' fa fb.ne'
    kt kr s.ys p1 (p2 kr rfl) 0 (C52.start R i) hoff v
  rw [h7 v]
  refine ⟨g0, g1.trans ?_⟩
  have hlt : 0 < i + 1 := Nat.succ_pos i
  have e1 : (bayPanel R (i + 1)).a / (bayPanel R 0).a = 1 := by
    rw [ef]
    show f.pan.a / R.skin.a = 1
    rw [fa, div_self h.sides.1.ne']
  have n1 : ¬ ("BFycte" = "SB") := by decide
  have n2 : ¬ ("BFycte" = "SSxcte") := by decide
  have n3 : ¬ ("BFycte" = "SSycte") := by decide
  have n4 : ¬ ("BFycte" = "BFxcte") := by decide
  have n5 : ¬ ("BFycte" = "SSxcte" ∨ "BFycte" = "BFxcte") := by decide
  unfold Shut Meets jointPos bayJoint
  simp only [if_pos hlt, if_neg n1, if_neg n2, if_neg n3, if_neg n4, if_neg n5, if_true, e1, one_mul, hi,
    Option.map_some, Option.getD_some]
  rw [bayStart_succ, ef]
  rfl

/-- **Kernel.**  The stiffness matrix of a bay is never negative, and zero exactly when neither skin nor
flanges are strained and every joint is shut. -/
theorem SolidBay.kernel (h : SolidBay E B R N) {n : ℕ} (hS : Hier E.S n) (hn : 4 ≤ n)
    (hmn : R.skin.m ≤ n ∧ R.skin.n ≤ n) :
    ∃ k0 B', B.calcKC E = .ok (k0, B') ∧ ∀ v, 0 ≤ Coo.quad k0 v ∧ (Coo.quad k0 v = 0 ↔
      (∀ k < R.blade2.length + 1, Unstrained E.S (bayPanel R k) (bayStart R k) v) ∧
      ∀ d ∈ bayJoints R, Shut (bayPanel R) (fun _ => 0)
        (fun k => u E.S (bayPanel R k) (bayStart R k) v) d) := by
  obtain ⟨⟨k0, B'⟩, hk⟩ := C57.kC_exists E B R N h.terms h.panels h.rebuilt h.size h.ready
  obtain ⟨R', N', r1, r2, Qp, Q1, Q2, e1, e2, e3, e4, e5⟩ := C52.kC_energy E B B' k0 h.terms hk
  obtain rfl := Except.ok.inj (h.rebuilt.symm.trans r1)
  refine ⟨k0, B', hk, fun v => ?_⟩
  obtain ⟨sa, sb⟩ := h.sides
  have hp : ∀ q ∈ Qp, 0 ≤ q v ∧ (q v = 0 ↔ Unstrained E.S (bayPanel R 0) 0 v) := fun q hq => by
    obtain ⟨p, hp, ho⟩ := C52.forall₂_mem_right e1 q hq
    obtain ⟨g0, g1, g2⟩ := own_kernel (P := bayPanel R 0) h.exact h.smooth sa sb
      (fun b hb => by cases hb; exact h.skin p hp) ho v
    exact ⟨g0, g2 (by simp), g1⟩
  have h1 : ∀ q ∈ Q1, 0 ≤ q v ∧ (Unstrained E.S (bayPanel R 0) 0 v → q v = 0) := fun q hq => by
    obtain ⟨s, hs, qb, qf, hb, hf, hq⟩ := C52.forall₂_mem_right e2 q hq
    obtain ⟨g0, g1, -⟩ := own_kernel (P := bayPanel R 0) h.exact h.smooth sa sb (h.base1 s hs) hb v
    have hbeam : 0 ≤ qf v ∧ (Unstrained E.S (bayPanel R 0) 0 v → qf v = 0) := by
      unfold C52.Beam at hf
      cases hc : s.sec with
      | none =>
        rw [hc] at hf
        have := hf v
        simp [this]
      | some c =>
        rw [hc] at hf
        obtain ⟨bf, hbf, hf⟩ := hf
        have hk := h.beam s hs
        rw [hf v]
        exact ⟨C48.stiffness_nonneg h.exact h.smooth R.skin sa sb.ne' _ _ _ _ _ _ _ (hk.width bf hbf)
          (hk.E1 c hc) (hk.F1 c hc) hk.Jxx (hk.S1 c hc) 0 v,
          fun hu => beam_kernel (P := bayPanel R 0) h.exact h.smooth hS hn hmn sa sb _ _ _ _ _ _ _ hu⟩
    rw [hq v]
    exact ⟨add_nonneg g0 hbeam.1, fun hu => by rw [g1 hu, hbeam.2 hu, add_zero]⟩
  have h2 : ∀ i q, Q2[i]? = some q → 0 ≤ q v ∧
      (q v = 0 → Unstrained E.S (bayPanel R (i + 1)) (bayStart R (i + 1)) v ∧
        Shut (bayPanel R) (fun _ => 0) (fun k => u E.S (bayPanel R k) (bayStart R k) v) (bayJoint R i)) ∧
      (Unstrained E.S (bayPanel R 0) 0 v →
        Unstrained E.S (bayPanel R (i + 1)) (bayStart R (i + 1)) v →
        Shut (bayPanel R) (fun _ => 0) (fun k => u E.S (bayPanel R k) (bayStart R k) v) (bayJoint R i) →
        q v = 0) := fun i q hq => by
    have hlt : i < R.blade2.length := by
      rw [← e3]
      exact (List.getElem?_eq_some_iff.1 hq).1
    have hi := List.getElem?_eq_getElem hlt
    obtain ⟨qb, qf, qj, hb, hf, hj, hq⟩ := e4 i _ q hi hq
    obtain ⟨f, hfl, ef⟩ := h.has_flange hi
    obtain ⟨fa, fb, hF⟩ := h.flange _ (List.getElem_mem hlt) f hfl
    obtain ⟨g0, g1, -⟩ := own_kernel (P := bayPanel R 0) h.exact h.smooth sa sb
      (h.base2 _ (List.getElem_mem hlt)) hb v
    obtain ⟨f0, f1, f2⟩ := own_kernel (P := f.panel) h.exact h.smooth
      (show 0 < f.pan.a by rw [fa]; exact sa) fb (fun b hb => by
        rw [hfl] at hb
        cases hb
        exact hF) hf v
    obtain ⟨j0, j1⟩ := joint_kernel h hi hj v
    rw [hq v, ef, bayStart_succ]
    refine ⟨by positivity, fun e => ?_, fun u0 u1 u2 => by rw [g1 u0, f1 u1, j1.2 u2]; simp⟩
    have : qf v = 0 := by linarith
    have : qj v = 0 := by linarith
    exact ⟨f2 (by rw [hfl]; simp) ‹_›, j1.1 this⟩
  obtain ⟨p0, p1⟩ := sum_zero_iff Qp (fun q => q v) fun q hq => (hp q hq).1
  obtain ⟨s0, s1⟩ := sum_zero_iff Q1 (fun q => q v) fun q hq => (h1 q hq).1
  have hget : ∀ q ∈ Q2, ∃ i, Q2[i]? = some q := fun q hq => by
    obtain ⟨i, hi, rfl⟩ := List.getElem_of_mem hq
    exact ⟨i, List.getElem?_eq_getElem hi⟩
  obtain ⟨t0, t1⟩ := sum_zero_iff Q2 (fun q => q v) fun q hq => by
    obtain ⟨i, hi⟩ := hget q hq
    exact (h2 i q hi).1
  rw [e5 v]
  refine ⟨by positivity, ?_⟩
  rw [add_eq_zero_iff_of_nonneg (add_nonneg p0 s0) t0, add_eq_zero_iff_of_nonneg p0 s0, p1, s1, t1]
  have hne := h.parts_ne e1
  constructor
  · rintro ⟨⟨z0, -⟩, z2⟩
    obtain ⟨q0, hq0⟩ := List.exists_mem_of_ne_nil _ hne
    have hget2 : ∀ i < R.blade2.length, ∃ q, Q2[i]? = some q ∧ q v = 0 := fun i hi => by
      rw [← e3] at hi
      exact ⟨_, List.getElem?_eq_getElem hi, z2 _ (List.getElem_mem hi)⟩
    constructor
    · intro k hk
      cases k with
      | zero => exact (hp q0 hq0).2.1 (z0 q0 hq0)
      | succ i =>
        obtain ⟨q, e, z⟩ := hget2 i (by omega)
        exact ((h2 i q e).2.1 z).1
    · intro d hd
      obtain ⟨i, hi, rfl⟩ := List.mem_map.1 hd
      obtain ⟨q, e, z⟩ := hget2 i (List.mem_range.1 hi)
      exact ((h2 i q e).2.1 z).2
  · rintro ⟨z, zj⟩
    have z0 : Unstrained E.S (bayPanel R 0) 0 v := z 0 (by omega)
    refine ⟨⟨fun q hq => (hp q hq).2.2 z0, fun q hq => (h1 q hq).2 z0⟩, fun q hq => ?_⟩
    obtain ⟨i, hi⟩ := hget q hq
    have hlt : i < R.blade2.length := by
      rw [← e3]
      exact (List.getElem?_eq_some_iff.1 hi).1
    exact (h2 i q hi).2.2 z0 (z (i + 1) (by omega))
      (zj _ (List.mem_map.2 ⟨i, List.mem_range.2 hlt, rfl⟩))

end

/-- Amplitudes put together from those of panels that lie one behind the other. -/
theorem glue {n : ℕ} {P : ℕ → Panel ℝ} {start : ℕ → ℕ}
    (h : ∀ k, k + 1 < n → start (k + 1) = start k + 3 * ((P k).m * (P k).n)) (d : ℕ → ℕ → ℝ) :
    ∃ v : ℕ → ℝ, ∀ k < n, ∀ i < 3 * ((P k).m * (P k).n), v (start k + i) = d k (start k + i) := by
  classical
  have key : ∀ k j, k < j → j < n → start k + 3 * ((P k).m * (P k).n) ≤ start j := by
    intro k j hkj hj
    induction j with
    | zero => omega
    | succ j ih =>
      rcases Nat.lt_or_eq_of_le (Nat.lt_succ_iff.1 hkj) with h1 | rfl
      · have := ih h1 (by omega)
        rw [h j hj]
        omega
      · rw [h k hj]
  refine ⟨fun j => if hj : ∃ k < n, start k ≤ j ∧ j < start k + 3 * ((P k).m * (P k).n)
    then d hj.choose j else 0, fun k hk i hi => ?_⟩
  have hj : ∃ k' < n, start k' ≤ start k + i ∧ start k + i < start k' + 3 * ((P k').m * (P k').n) :=
    ⟨k, hk, by omega, by omega⟩
  show (if hj : _ then _ else _) = _
  rw [dif_pos hj]
  have e : hj.choose = k := by
    obtain ⟨c1, c2, c3⟩ := hj.choose_spec
    generalize hj.choose = k' at c1 c2 c3
    rcases lt_trichotomy k' k with hlt | rfl | hlt
    · have := key k' k hlt hk
      omega
    · rfl
    · have := key k k' hlt c1
      omega
  rw [e]

section
variable {E : BayEnv ℝ} {B R : Bay ℝ} {N : ℕ}

theorem SolidBay.part_sides (h : SolidBay E B R N) :
    ∀ k < R.blade2.length + 1, 0 < (bayPanel R k).a ∧ 0 < (bayPanel R k).b := by
  intro k hk
  cases k with
  | zero => exact h.sides
  | succ i =>
    have hi := List.getElem?_eq_getElem (show i < R.blade2.length by omega)
    obtain ⟨f, hf, ef⟩ := h.has_flange hi
    obtain ⟨fa, fb, -⟩ := h.flange _ (List.mem_of_getElem? hi) f hf
    rw [ef]
    exact ⟨by show 0 < f.pan.a; rw [fa]; exact h.sides.1, fb⟩

theorem bayJoints_range (R : Bay ℝ) :
    ∀ d ∈ bayJoints R, d.p1 < R.blade2.length + 1 ∧ d.p2 < R.blade2.length + 1 := by
  intro d hd
  obtain ⟨i, hi, rfl⟩ := List.mem_map.1 hd
  have := List.mem_range.1 hi
  constructor <;> simp only [bayJoint] <;> omega

theorem SolidBay.glue (h : SolidBay E B R N) (d : ℕ → ℕ → ℝ) : ∃ v : ℕ → ℝ,
    ∀ k < R.blade2.length + 1, ∀ i < 3 * ((bayPanel R k).m * (bayPanel R k).n),
      v (bayStart R k + i) = d k (bayStart R k + i) := by
  refine Verif.glue (fun k hk => ?_) d
  cases k with
  | zero => simp [bayStart, bayPanel, mul_assoc]
  | succ i =>
    have hi := List.getElem?_eq_getElem (show i < R.blade2.length by omega)
    obtain ⟨f, hf, ef⟩ := h.has_flange hi
    rw [bayStart_succ, bayStart_succ, C52.start_succ R hi, ef]
    unfold C52.width
    rw [hf]
    exact congrArg (C52.start R i + ·) (mul_assoc 3 f.pan.m f.pan.n)

end

end Verif
