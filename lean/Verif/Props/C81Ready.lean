import Verif.Props.C81
import Verif.Props.C78Ready

/-!
# C81 for bays made by the methods of the class
-/

set_option linter.unusedSectionVars false

namespace Verif.C81

open Spec Model Indep C80

variable {E : BayEnv ℝ} {B R : Bay ℝ} {N : ℕ}

/-! ## What the methods make -/

/-- A shell on the plan of the bay, with its radius, its laminate as calculated and no initial loads. -/
structure OnPlan (B : Bay ℝ) (p : Shell ℝ) : Prop where
  r : p.r = B.r
  pan : ∃ x1 x2 y1 y2, p.pan = { B.skin with x1 := x1, x2 := x2, y1 := y1, y2 := y2 }
  ortho : p.forceOrtho = false
  unloaded : ¬ C38.PreStress p

/-- The flange of a 2D stiffener: as long as the bay, of positive width, flat, held at both ends. -/
structure Flange (B : Bay ℝ) (f : Shell ℝ) : Prop where
  a : f.pan.a = B.skin.a
  b : 0 < f.pan.b
  r : f.r = none
  model : f.model = some "plate_clpt_donnell_bardell"
  ortho : f.forceOrtho = false
  unloaded : ¬ C38.PreStress f
  xu : f.pan.xu.t1 = 0
  xv : f.pan.xv.t1 = 0
  xw : f.pan.xw.t1 = 0 ∧ f.pan.xw.t2 = 0

/-- The shape of a bay made by `add_panel`, `add_bladestiff1d` and `add_bladestiff2d`. -/
structure Shaped (B : Bay ℝ) : Prop where
  panels : ∀ p ∈ B.panels, OnPlan B p
  base1 : ∀ s ∈ B.blade1, ∀ b, s.base = some b → OnPlan B b ∧ b.model = none
  base2 : ∀ s ∈ B.blade2, ∀ b, s.base = some b → OnPlan B b ∧ b.model = none
  flange : ∀ s ∈ B.blade2, ∀ f, s.flange = some f → Flange B f

theorem OnPlan.congr {B B' : Bay ℝ} {p : Shell ℝ} (h : OnPlan B p) (hs : B'.skin = B.skin)
    (hr : B'.r = B.r) : OnPlan B' p := ⟨by rw [hr]; exact h.r, by rw [hs]; exact h.pan, h.ortho, h.unloaded⟩

theorem Flange.congr {B B' : Bay ℝ} {f : Shell ℝ} (h : Flange B f) (hs : B'.skin = B.skin) :
    Flange B' f := ⟨by rw [hs]; exact h.a, h.b, h.r, h.model, h.ortho, h.unloaded, h.xu, h.xv, h.xw⟩

theorem shaped_empty (h1 : B.panels = []) (h2 : B.blade1 = []) (h3 : B.blade2 = []) : Shaped B :=
  ⟨by simp [h1], by simp [h2], by simp [h3], by simp [h3]⟩

theorem shaped_addPanel (h : Shaped B) (y1 y2 : ℝ) (stack plyts : Option (List ℝ))
    (plyt : Option ℝ) (lps : Option (List (List ℝ))) (lp : Option (List ℝ)) (model : Option String)
    (rho : Option ℝ) : Shaped (B.addPanel y1 y2 stack plyts plyt lps lp model rho) := by
  refine ⟨fun p hp => ?_, fun s hs b e => ⟨(h.base1 s hs b e).1.congr rfl rfl, (h.base1 s hs b e).2⟩,
    fun s hs b e => ⟨(h.base2 s hs b e).1.congr rfl rfl, (h.base2 s hs b e).2⟩,
    fun s hs f e => (h.flange s hs f e).congr rfl⟩
  rcases List.mem_append.1 hp with hp | hp
  · exact (h.panels p hp).congr rfl rfl
  · rw [List.mem_singleton.1 hp]
    exact ⟨rfl, ⟨_, _, _, _, rfl⟩, rfl, by simp [C38.PreStress, Shell.new]⟩

theorem onPlan_newBase (B : Bay ℝ) (ys bb rho : ℝ) (stack plyts : List ℝ) (lps : List (List ℝ)) (t : ℝ) :
    OnPlan B (B.newBase ys bb rho stack plyts lps t) ∧
      (B.newBase ys bb rho stack plyts lps t).model = none :=
  ⟨⟨rfl, ⟨_, _, _, _, rfl⟩, rfl, by simp [C38.PreStress, Bay.newBase, Shell.new]⟩, rfl⟩

theorem shaped_addBlade1 {B' : Bay ℝ} (h : Shaped B) (ys : ℝ) (rho bb bf : Option ℝ)
    (b f : LamArgs ℝ) (hB : B.addBlade1 E ys rho bb bf b f = .ok B') : Shaped B' := by
  unfold Bay.addBlade1 at hB
  split at hB
  · cases hB
  · obtain ⟨x, -, hB⟩ := bind_ok.1 hB
    obtain ⟨y, -, hB⟩ := bind_ok.1 hB
    obtain ⟨z, -, hB⟩ := bind_ok.1 hB
    obtain ⟨s, hs, hB⟩ := bind_ok.1 hB
    cases hB
    refine ⟨fun p hp => (h.panels p hp).congr rfl rfl, fun t ht c hc => ?_,
      fun s hs b e => ⟨(h.base2 s hs b e).1.congr rfl rfl, (h.base2 s hs b e).2⟩,
      fun s hs f e => (h.flange s hs f e).congr rfl⟩
    rcases List.mem_append.1 ht with ht | ht
    · exact ⟨(h.base1 t ht c hc).1.congr rfl rfl, (h.base1 t ht c hc).2⟩
    · rw [List.mem_singleton.1 ht] at hc
      rcases blade1_base hs with ⟨e, -⟩ | ⟨st, w, hh, -, -, e⟩
      · rw [hc] at e; cases e
      · rw [hc] at e
        cases e
        obtain ⟨g1, g2⟩ := onPlan_newBase B ys w (rho.getD B.rho) st x.2.1 x.2.2 hh
        exact ⟨g1.congr rfl rfl, g2⟩

theorem shaped_addBlade2 {B' : Bay ℝ} (h : Shaped B) (ys : ℝ) (rho bb : Option ℝ) {bf : ℝ}
    (hbf : 0 < bf) (b f : LamArgs ℝ) (mf nf : ℕ)
    (hB : B.addBlade2 E ys rho bb (some bf) b f mf nf = .ok B') : Shaped B' := by
  unfold Bay.addBlade2 at hB
  split at hB
  · cases hB
  · obtain ⟨x, -, hB⟩ := bind_ok.1 hB
    obtain ⟨y, -, hB⟩ := bind_ok.1 hB
    obtain ⟨z, -, hB⟩ := bind_ok.1 hB
    obtain ⟨ob, hob, hB⟩ := bind_ok.1 hB
    obtain ⟨of, hof, hB⟩ := bind_ok.1 hB
    obtain ⟨s, hs, hB⟩ := bind_ok.1 hB
    cases hB
    refine ⟨fun p hp => (h.panels p hp).congr rfl rfl,
      fun s hs b e => ⟨(h.base1 s hs b e).1.congr rfl rfl, (h.base1 s hs b e).2⟩,
      fun t ht c hc => ?_, fun t ht c hc => ?_⟩
    · rcases List.mem_append.1 ht with ht | ht
      · exact ⟨(h.base2 t ht c hc).1.congr rfl rfl, (h.base2 t ht c hc).2⟩
      · rw [List.mem_singleton.1 ht] at hc
        rcases (blade2_kept hs).2.1 with ⟨-, e⟩ | ⟨g, w, e, e'⟩
        · rw [hc] at e; cases e
        · rw [hc] at e'
          cases e'
          have e : ob = some g := e
          unfold Bay.baseOf at hob
          split at hob
          · cases hob; cases e
          · obtain ⟨v, -, hob⟩ := bind_ok.1 hob
            split at hob
            · cases hob
              cases e
              exact ⟨⟨rfl, ⟨_, _, _, _, rfl⟩, rfl, by simp [C38.PreStress, Bay.newBase, Shell.new]⟩, rfl⟩
            · cases hob
    · rcases List.mem_append.1 ht with ht | ht
      · exact (h.flange t ht c hc).congr rfl
      · rw [List.mem_singleton.1 ht] at hc
        rcases (blade2_kept hs).1 with ⟨-, e⟩ | ⟨g, w, e, e'⟩
        · rw [hc] at e; cases e
        · rw [hc] at e'
          cases e'
          have e : of = some g := e
          unfold Bay.flangeOf at hof
          split at hof
          · cases hof; cases e
          · cases hof
            cases e
            exact ⟨rfl, hbf, rfl, rfl, rfl, by simp [C38.PreStress, Bay.newFlange, Shell.new], rfl, rfl,
              rfl, rfl⟩

/-- `_rebuild` keeps the shape. -/
theorem Shaped.rebuild (h : Shaped B) (hR : B.rebuild E = .ok R) : Shaped R := by
  obtain ⟨m, ps, h1, h2, -, h3, h4, h5, h6⟩ := bay_rebuild_ok hR
  obtain ⟨g1, -⟩ := rebuildPanels_ok h1
  refine ⟨fun p hp => ?_, fun t ht b e => ?_, fun t ht b e => ?_, fun t ht f e => ?_⟩
  · rw [h2] at hp
    obtain ⟨s, hs, hr⟩ := C52.forall₂_mem_right g1 p hp
    have := (h.panels s hs).congr h3 h4
    obtain ⟨-, -, -, -, lam, -, rfl⟩ := (C54.rebuild_ok_iff _ _ _).1 hr
    exact ⟨this.r, this.pan, this.ortho, this.unloaded⟩
  · obtain ⟨s, hs, hr⟩ := C52.forall₂_mem_right h5 t ht
    rcases blade1_base hr with ⟨e', -⟩ | ⟨st, w, hh, -, -, e'⟩
    · rw [e] at e'
      obtain ⟨c1, c2⟩ := h.base1 s hs b e'.symm
      exact ⟨c1.congr h3 h4, c2⟩
    · rw [e] at e'
      cases e'
      exact ⟨(onPlan_newBase { B with model := m, panels := ps } _ _ _ _ _ _ _).1.congr h3 h4, rfl⟩
  · obtain ⟨s, hs, hr⟩ := C52.forall₂_mem_right h6 t ht
    rcases (blade2_kept hr).2.1 with ⟨-, e'⟩ | ⟨g, w, e1, e2⟩
    · rw [e] at e'; cases e'
    · rw [e] at e2
      cases e2
      obtain ⟨c1, c2⟩ := h.base2 s hs g e1
      exact ⟨⟨(c1.congr h3 h4).r, (c1.congr h3 h4).pan, c1.ortho, c1.unloaded⟩, c2⟩
  · obtain ⟨s, hs, hr⟩ := C52.forall₂_mem_right h6 t ht
    rcases (blade2_kept hr).1 with ⟨-, e'⟩ | ⟨g, w, e1, e2⟩
    · rw [e] at e'; cases e'
    · rw [e] at e2
      cases e2
      have := (h.flange s hs g e1).congr h3
      exact ⟨this.a, this.b, this.r, this.model, this.ortho, this.unloaded, this.xu, this.xv, this.xw⟩

theorem Shaped.terms (h : Shaped B) : C52.Terms B where
  panels p hp := by
    obtain ⟨_, _, _, _, e⟩ := (h.panels p hp).pan
    rw [e]
    exact ⟨rfl, rfl⟩
  base1 s hs b hb := by
    obtain ⟨_, _, _, _, e⟩ := (h.base1 s hs b hb).1.pan
    rw [e]
    exact ⟨rfl, rfl⟩
  base2 s hs b hb := by
    obtain ⟨_, _, _, _, e⟩ := (h.base2 s hs b hb).1.pan
    rw [e]
    exact ⟨rfl, rfl⟩

/-! ## Laminates -/

/-- Every laminate that can be made is symmetric and definite, and has a thickness. -/
def GoodLams (E : Env ℝ) : Prop := ∀ st ts ps rs o lam, E.mkLam st ts ps rs o = .ok lam →
  ABDSym lam.ABD ∧ C76.ABDDef lam.ABD ∧ 0 < lam.h

theorem def_diag {F : ℕ → ℕ → ℝ} (h : C76.ABDDef F) {i : ℕ} (hi : i < 6) : 0 < F i i := by
  have := h (fun j => if j = i then 1 else 0) ⟨i, hi, by simp⟩
  have e : dens 6 F (fun j => if j = i then 1 else 0) = F i i := by
    unfold dens
    rw [Finset.sum_eq_single i (fun j _ hj => by simp [hj]) (by simp [hi]),
      Finset.sum_eq_single i (fun j _ hj => by simp [hj]) (by simp [hi])]
    simp
  rwa [e] at this

/-- The radius fits the model: none for plates, not zero for cylinders. -/
def Curved (r : Option ℝ) (model : Option String) : Prop :=
  r = none ∧ model.bind kindOf = some .plate ∨ ∃ x, x ≠ 0 ∧ r = some x ∧ model.bind kindOf = some .cyl

theorem sheet {E : Env ℝ} (hE : GoodLams E) {P : Panel ℝ} {p t : Shell ℝ} (ht : p.rebuild E = .ok t)
    (hp : ∃ x1 x2 y1 y2, p.panel = { P with x1 := x1, x2 := x2, y1 := y1, y2 := y2 })
    (ho : p.forceOrtho = false) (hu : ¬ C38.PreStress p) (ha : 0 < P.a) (hb : 0 < P.b)
    (hk : P.r = 0 ∧ t.model.bind kindOf = some .plate ∨ P.r ≠ 0 ∧ t.model.bind kindOf = some .cyl) :
    ∃ lam, Sheet E P p t lam := by
  obtain ⟨-, -, -, -, lam, hl, rfl⟩ := (C54.rebuild_ok_iff _ _ _).1 ht
  obtain ⟨g1, g2, g3⟩ := hE _ _ _ _ _ _ hl
  have e : lamABD (p.forceOrtho && E.shared) lam.ABD = lam.ABD := by rw [ho]; rfl
  have hpos : 0 < p.pan.a ∧ 0 < p.pan.b := by
    obtain ⟨_, _, _, _, ep⟩ := hp
    have e1 := congrArg Panel.a ep
    have e2 := congrArg Panel.b ep
    exact ⟨by rw [show p.pan.a = P.a from e1]; exact ha, by rw [show p.pan.b = P.b from e2]; exact hb⟩
  refine ⟨_, hp, ht, rfl, ?_, ?_, hk, hu, ?_⟩
  · show ABDSym (lamABD (p.forceOrtho && E.shared) lam.ABD)
    rw [e]; exact g1
  · show C76.ABDDef (lamABD (p.forceOrtho && E.shared) lam.ABD)
    rw [e]; exact g2
  · refine ⟨?_, ?_, ?_, ?_, g3, hpos.1, hpos.2⟩
    · show 0 < lamABD (p.forceOrtho && E.shared) lam.ABD 0 0
      rw [e]; exact def_diag g2 (by norm_num)
    · show 0 < lamABD (p.forceOrtho && E.shared) lam.ABD 1 1
      rw [e]; exact def_diag g2 (by norm_num)
    · show 0 < lamABD (p.forceOrtho && E.shared) lam.ABD 3 3
      rw [e]; exact def_diag g2 (by norm_num)
    · show 0 < lamABD (p.forceOrtho && E.shared) lam.ABD 4 4
      rw [e]; exact def_diag g2 (by norm_num)

theorem OnPlan.panel {p : Shell ℝ} (h : OnPlan B p) :
    ∃ x1 x2 y1 y2, p.panel = { bayPanel B 0 with x1 := x1, x2 := x2, y1 := y1, y2 := y2 } := by
  obtain ⟨x1, x2, y1, y2, e⟩ := h.pan
  refine ⟨x1, x2, y1, y2, ?_⟩
  unfold Shell.panel
  rw [e, h.r]
  rfl

/-- A bay made by the methods, from which the stiffness matrix can be made. -/
theorem solid (hI : E.I.Exact E.S Mean.integral) (hC : E.S.C2) (hE : GoodLams E.toEnv) (hB : Shaped B)
    (hne : B.panels ≠ []) (hR : B.rebuild E = .ok R) (hN : R.getSize = .ok N)
    (hs : 0 < R.skin.a ∧ 0 < R.skin.b) (hr : Ready E R) (hk : Curved R.r R.model)
    (hb : ∀ s ∈ R.blade1, SectionOk s) : SolidBay E B R N := by
  have hS := hB.rebuild hR
  have hbl := C52.built hB.terms hR
  have base : ∀ b, OnPlan R b → b.model = none → (∃ t, b.rebuild E.toEnv = .ok t) →
      ∃ t lam, Sheet E.toEnv (bayPanel R 0) b t lam := by
    rintro b ho hm ⟨t, ht⟩
    obtain ⟨lam, hl⟩ := sheet hE ht ho.panel ho.ortho ho.unloaded hs.1 hs.2 (by
      obtain ⟨-, -, -, -, lam, -, rfl⟩ := (C54.rebuild_ok_iff _ _ _).1 ht
      have hmod : (some (b.model.getD (defaultModel b.r))) = some (defaultModel R.r) := by rw [hm, ho.r]; rfl
      simp only [hmod]
      rcases hk with ⟨e, -⟩ | ⟨x, hx, e, -⟩
      · refine .inl ⟨by simp [bayPanel, e], ?_⟩
        rw [e]
        rfl
      · refine .inr ⟨by simpa [bayPanel, e] using hx, ?_⟩
        rw [e]
        rfl)
    exact ⟨t, lam, hl⟩
  refine ⟨hI, hC, hB.terms, hne, hR, hN, hs, fun p hp => ?_, fun s hs' b e => ?_, fun s hs' b e => ?_,
    fun s hs' f e => ?_, hb⟩
  · have ho := hS.panels p hp
    obtain ⟨m, ps, h1, h2, h3, -⟩ := bay_rebuild_ok hR
    obtain ⟨-, g2, -⟩ := rebuildPanels_ok h1
    have hm : p.model = R.model := by rw [h3]; exact g2 p (by rw [← h2]; exact hp)
    obtain ⟨lam, hl⟩ := sheet hE (hbl.panels p hp) ho.panel ho.ortho ho.unloaded hs.1 hs.2 (by
      rw [hm]
      rcases hk with ⟨e, h⟩ | ⟨x, hx, e, h⟩
      · exact .inl ⟨by simp [bayPanel, e], h⟩
      · exact .inr ⟨by simpa [bayPanel, e] using hx, h⟩)
    exact ⟨_, _, hl⟩
  · obtain ⟨c1, c2⟩ := hS.base1 s hs' b e
    exact base b c1 c2 (hr.base1 s hs' b e)
  · obtain ⟨c1, c2⟩ := hS.base2 s hs' b e
    exact base b c1 c2 (hr.base2 s hs' b e)
  · have hf := hS.flange s hs' f e
    obtain ⟨t, ht⟩ := hr.flange s hs' f e
    refine ⟨hf.a, hf.b, t, ?_⟩
    refine sheet (P := f.panel) hE ht ⟨_, _, _, _, rfl⟩ hf.ortho hf.unloaded
      (by show 0 < f.pan.a; rw [hf.a]; exact hs.1) hf.b (.inl ⟨?_, ?_⟩)
    · simp [Shell.panel, hf.r]
    · obtain ⟨-, -, -, -, lam, -, rfl⟩ := (C54.rebuild_ok_iff _ _ _).1 ht
      simp [hf.model, kindOf]

/-- Every 2D stiffener holds the bay: its flange is supported at both ends whatever the supports of the
skin are. -/
theorem flange_holds (h : SolidBay E B R N) (hS : Shaped R) (h0 : R.blade2 ≠ []) : BayRestrained R := by
  have hl : 0 < R.blade2.length := List.length_pos_iff.2 h0
  obtain ⟨f, hf, ef⟩ := h.has_flange (List.getElem?_eq_getElem hl)
  have hF := hS.flange _ (List.getElem_mem hl) f hf
  have hsd := h.part_sides 1 (by omega)
  refine held h (k := 1) (by omega) ?_
  rw [ef] at hsd ⊢
  exact ends_restrained _ hsd.1 hsd.2 hF.xu hF.xv hF.xw

/-! ## Beams -/

theorem plyLoop_ortho {l : List (Ply ℝ)} (hl : ∀ p ∈ l, 0 ≤ p.h ∧ 0 < p.q22 ∧ p.q12 ^ 2 ≤ p.q11 * p.q22 ∧
    p.q16 = 0) (y t : ℝ) (es : ℝ × ℝ) : es.1 ≤ (plyLoop y t l es).1 ∧ (plyLoop y t l es).2 = es.2 := by
  induction l generalizing y t es with
  | nil => exact ⟨le_rfl, rfl⟩
  | cons p ps ih =>
    obtain ⟨h1, h2, h3, h4⟩ := hl p List.mem_cons_self
    unfold plyLoop
    simp only
    obtain ⟨g1, g2⟩ := ih (fun q hq => hl q (List.mem_cons_of_mem _ hq)) (y + (t / 2 + p.h / 2)) p.h
      (es.1 + p.h * (p.q11 - p.q12 ^ 2 / p.q22),
        es.2 + -(y + (t / 2 + p.h / 2)) * p.h * (p.q16 - p.q12 * p.q16 / p.q22))
    refine ⟨le_trans ?_ g1, g2.trans ?_⟩
    · have : p.q12 ^ 2 / p.q22 ≤ p.q11 := by rwa [div_le_iff₀ h2]
      have := mul_nonneg h1 (sub_nonneg.2 this)
      simpa using this
    · simp [h4]

/-- A beam of orthotropic plies has a section with non-negative energy. -/
theorem section_ok {C : Bay ℝ} {s t : Blade1 ℝ} (h : s.rebuild E C = .ok t)
    (hbf : ∀ x, s.bf = some x → 0 ≤ x) (hhf : 0 ≤ s.hf)
    (hl : ∀ st l, s.fstack = some st → E.plies st s.fplyts s.flaminaprops = .ok l → ∀ p ∈ l,
      0 ≤ p.h ∧ 0 < p.q22 ∧ p.q12 ^ 2 ≤ p.q11 * p.q22 ∧ p.q16 = 0) : SectionOk t := by
  unfold Blade1.rebuild at h
  obtain ⟨pq, h1, h⟩ := bind_ok.1 h
  obtain ⟨pl, h2, h⟩ := bind_ok.1 h
  obtain ⟨ba, h3, h⟩ := bind_ok.1 h
  obtain ⟨bf, h4, h⟩ := bind_ok.1 h
  obtain ⟨se, h5, h⟩ := bind_ok.1 h
  cases h
  have hb : 0 ≤ bf := by
    unfold Model.number at h4
    cases hbb : s.bf with
    | none => simp [hbb] at h4
    | some x => simp [hbb] at h4; rw [← h4]; exact hbf x hbb
  have key : ∀ c, se = some c → 0 ≤ c.E1 ∧ 0 ≤ c.F1 ∧ c.S1 = 0 := by
    rintro c rfl
    unfold sectionOf at h5
    cases pl with
    | none => cases h5
    | some l =>
      obtain ⟨ef, h6, h7⟩ := bind_ok.1 h5
      cases h7
      unfold Blade1.flangePlies at h2
      cases hst : s.fstack with
      | none => rw [hst] at h2; cases h2
      | some st =>
        rw [hst] at h2
        obtain ⟨-, -, h2⟩ := bind_ok.1 h2
        obtain ⟨l', h8, h2⟩ := bind_ok.1 h2
        cases h2
        have hp := hl st l hst (by
          unfold lift at h8
          split at h8
          · cases h8
            assumption
          · cases h8)
        cases l with
        | nil => cases h6
        | cons p ps =>
          cases h6
          obtain ⟨q1, q2, q3, q4⟩ := hp p List.mem_cons_self
          have hq : p.q12 ^ 2 / p.q22 ≤ p.q11 := by rwa [div_le_iff₀ q2]
          have hq := mul_nonneg q1 (sub_nonneg.2 hq)
          obtain ⟨g1, g2⟩ := plyLoop_ortho (fun q hq => hp q (List.mem_cons_of_mem _ hq)) (p.h / 2) p.h
            (0 + p.h * (p.q11 - p.q12 ^ 2 / p.q22),
              0 + -(p.h / 2) * p.h * (p.q16 - p.q12 * p.q16 / p.q22))
          have hE1 : 0 ≤ (plyLoop (p.h / 2) p.h ps (0 + p.h * (p.q11 - p.q12 ^ 2 / p.q22),
              0 + -(p.h / 2) * p.h * (p.q16 - p.q12 * p.q16 / p.q22))).1 :=
            le_trans (by simpa using hq) g1
          refine ⟨hE1, by positivity, ?_⟩
          refine g2.trans ?_
          simp [q4]
  have hJ : 0 ≤ s.hf * bf ^ 3 / 12 + bf * s.hf ^ 3 / 12 := by positivity
  refine ⟨hbf, fun c hc => (key c hc).1, fun c hc => (key c hc).2.1, hJ, fun c hc => ?_⟩
  obtain ⟨k1, k2, k3⟩ := key c hc
  rw [k3]
  have := mul_nonneg k1 hJ
  simpa using this

/-! ## Concrete cases -/

/-- Laminates with a core of thickness `1`, as stiff as they are thick, and isotropic plies. -/
noncomputable def env : BayEnv ℝ where
  toEnv := { C40.env with
    mkLam := fun _ ts _ _ _ =>
      .ok ⟨fun i j => if i = j then 1 + |ts.sum| else 0, 1 + |ts.sum|, 1 + |ts.sum|⟩ }
  plies := fun _ ts _ => .ok (ts.map fun h => ⟨|h|, 2, 1, 0, 2⟩)

theorem env_good : GoodLams env.toEnv := by
  intro st ts ps rs o lam h
  cases h
  have hp : 0 < 1 + |ts.sum| := by positivity
  generalize 1 + |ts.sum| = c at *
  refine ⟨⟨fun i j => by simp only [eq_comm], by simp, by simp, by simp⟩, ?_, hp⟩
  rintro e ⟨s, hs, hne⟩
  have : dens 6 (fun i j => if i = j then c else 0) e
      = c * (e 0 ^ 2 + e 1 ^ 2 + e 2 ^ 2 + e 3 ^ 2 + e 4 ^ 2 + e 5 ^ 2) := by
    simp [dens, Finset.sum_range_succ]; ring
  show 0 < dens 6 (fun i j => if i = j then c else 0) e
  rw [this]
  refine mul_pos hp ?_
  have hp : 0 < e s ^ 2 := by positivity
  interval_cases s <;> nlinarith [sq_nonneg (e 0), sq_nonneg (e 1), sq_nonneg (e 2), sq_nonneg (e 3),
    sq_nonneg (e 4), sq_nonneg (e 5)]

/-- Flags of a panel without supports. -/
def loose (P : Panel ℝ) : Panel ℝ :=
  { P with xu := ⟨1, 1, 1, 1⟩, xv := ⟨1, 1, 1, 1⟩, xw := ⟨1, 1, 1, 1⟩
           yu := ⟨1, 1, 1, 1⟩, yv := ⟨1, 1, 1, 1⟩, yw := ⟨1, 1, 1, 1⟩ }

/-- A curved bay, of two panels, of which no edge is supported. -/
noncomputable def bare : Bay ℝ :=
  (Bay.addPanel (Bay.addPanel
    { skin := loose Witness.panel, r := some 5, model := none, stack := [0, 45], plyt := some (1 / 4)
      plyts := [], laminaprop := [1], laminaprops := [], rho := 1, beta := none, Mach := none, V := none
      rhoAir := none, speedSound := none, panels := [], blade1 := [], blade2 := [] }
    0 (1 / 2) none none none none none none none) (1 / 2) 1 none none none none none none none)

/-- One ply. -/
noncomputable def ply : LamArgs ℝ := { stack := some [0], plyt := some (1 / 2), laminaprop := some [1] }

/-- With a beam on a base, and two flanges, one of them on a base. -/
noncomputable def full : Except Fail (Bay ℝ) := do
  let B ← bare.addBlade1 env (1 / 2) none (some (1 / 2)) (some (1 / 3)) ply ply
  let B ← B.addBlade2 env (1 / 2) none none (some (1 / 3)) {} ply 4 6
  B.addBlade2 env (1 / 2) none (some (1 / 2)) (some (1 / 3)) ply ply 5 4

theorem bare_shaped : Shaped bare :=
  shaped_addPanel (shaped_addPanel (shaped_empty rfl rfl rfl) ..) ..

theorem full_shaped {B : Bay ℝ} (h : full = .ok B) : Shaped B := by
  unfold full at h
  obtain ⟨B1, h1, h⟩ := bind_ok.1 h
  obtain ⟨B2, h2, h⟩ := bind_ok.1 h
  exact shaped_addBlade2 (shaped_addBlade2 (shaped_addBlade1 bare_shaped _ _ _ _ _ _ h1) _ _ _
    (by norm_num) _ _ _ _ h2) _ _ _ (by norm_num) _ _ _ _ h

theorem found (B : Bay ℝ) (hp : B.panels = bare.panels) (hs : B.skin = bare.skin) :
    B.findPanels (1 / 2) = .ok (0, 1) := by
  unfold Bay.findPanels
  rw [hp, hs]
  have : findLoop (1 / 2) bare.skin.b 0 bare.panels (none, none) = (some 0, some 1) := by
    simp only [bare, Bay.addPanel, Shell.new, List.nil_append, List.singleton_append, findLoop, findStep,
      isclose, loose, Witness.panel]
    norm_num
  rw [this]
  rfl

theorem paired (B : Bay ℝ) (hp : B.panels = bare.panels) : ∃ pq, B.pair 0 1 = .ok pq := by
  unfold Bay.pair
  rw [hp]
  exact ⟨_, if_pos ⟨rfl, rfl, rfl, rfl⟩⟩

theorem full_built : ∃ B, full = .ok B ∧ B.panels ≠ [] ∧ ∃ R, B.rebuild env = .ok R ∧ Ready env R ∧
    R.getSize = .ok (105 + (72 + (60 + 0))) ∧ (0 < R.skin.a ∧ 0 < R.skin.b) ∧ Curved R.r R.model ∧
    (∀ s ∈ B.blade1, s.bf = some (1 / 3) ∧ s.hf = 1 / 2) ∧ R.blade2 ≠ [] ∧
    (∀ k < R.blade2.length + 1, (bayPanel R k).m ≤ 7 ∧ (bayPanel R k).n ≤ 7) := by
  have hp : ∀ B : Bay ℝ, B.panels = bare.panels → B.pair 0 1 = .ok _ := fun B hB => by
    unfold Bay.pair
    rw [hB]
    exact if_pos ⟨rfl, rfl, rfl, rfl⟩
  refine ⟨_, bind_ok.2 ⟨_, bind_ok.2 ⟨_, rfl, bind_ok.2 ⟨_, rfl, bind_ok.2 ⟨_, found _ rfl rfl,
      bind_ok.2 ⟨_, bind_ok.2 ⟨_, hp _ rfl, rfl⟩, rfl⟩⟩⟩⟩,
    bind_ok.2 ⟨_, bind_ok.2 ⟨_, rfl, bind_ok.2 ⟨_, rfl, bind_ok.2 ⟨_, found _ rfl rfl,
      bind_ok.2 ⟨_, rfl, bind_ok.2 ⟨_, rfl, bind_ok.2 ⟨_, bind_ok.2 ⟨_, hp _ rfl, rfl⟩, rfl⟩⟩⟩⟩⟩⟩,
    bind_ok.2 ⟨_, rfl, bind_ok.2 ⟨_, rfl, bind_ok.2 ⟨_, found _ rfl rfl,
      bind_ok.2 ⟨_, rfl, bind_ok.2 ⟨_, rfl, bind_ok.2 ⟨_, bind_ok.2 ⟨_, hp _ rfl, rfl⟩, rfl⟩⟩⟩⟩⟩⟩⟩⟩, ?_, _, bind_ok.2 ⟨_, rfl, bind_ok.2 ⟨_,
      bind_ok.2 ⟨_, bind_ok.2 ⟨_, if_pos ⟨rfl, rfl, rfl, rfl⟩, rfl⟩, rfl⟩, bind_ok.2 ⟨_,
      bind_ok.2 ⟨_, bind_ok.2 ⟨_, if_pos ⟨rfl, rfl, rfl, rfl⟩, rfl⟩,
        bind_ok.2 ⟨_, bind_ok.2 ⟨_, bind_ok.2 ⟨_, if_pos ⟨rfl, rfl, rfl, rfl⟩, rfl⟩, rfl⟩, rfl⟩⟩, rfl⟩⟩⟩, ?_, rfl,
    ?_, ?_, ?_, ?_, ?_⟩
  · exact List.cons_ne_nil _ _
  · refine ⟨fun s hs b hb => ?_, fun s hs b hb => ?_, fun s hs b hb => ?_⟩
    · obtain rfl := List.mem_singleton.1 hs
      cases hb
      exact ⟨_, rfl⟩
    · rcases List.mem_pair.1 hs with rfl | rfl <;> cases hb
      exact ⟨_, rfl⟩
    · rcases List.mem_pair.1 hs with rfl | rfl <;> cases hb <;> exact ⟨_, rfl⟩
  · show 0 < (3 : ℝ) ∧ 0 < (1 : ℝ)
    norm_num
  · exact .inr ⟨5, by norm_num, rfl, rfl⟩
  · intro s hs
    obtain rfl := List.mem_singleton.1 hs
    refine ⟨rfl, ?_⟩
    show List.sum [(1 / 2 : ℝ)] = 1 / 2
    simp
  · exact List.cons_ne_nil _ _
  · intro k hk
    have hk : k < 3 := hk
    interval_cases k
    · show 5 ≤ 7 ∧ 7 ≤ 7
      norm_num
    · show 4 ≤ 7 ∧ 6 ≤ 7
      norm_num
    · show 5 ≤ 7 ∧ 4 ≤ 7
      norm_num

theorem full_solid : ∃ B, full = .ok B ∧ ∃ R N, SolidBay env B R N ∧ BayRestrained R ∧
    ∀ k < R.blade2.length + 1, (bayPanel R k).m ≤ 7 ∧ (bayPanel R k).n ≤ 7 := by
  obtain ⟨B, hB, hne, R, hR, hr, hN, hs, hk, hb, h2, hmn⟩ := full_built
  have hS := full_shaped hB
  have hsec : ∀ s ∈ R.blade1, SectionOk s := fun t ht => by
    obtain ⟨m, ps, -, -, -, -, -, h5, -⟩ := bay_rebuild_ok hR
    obtain ⟨s, hs, hr⟩ := C52.forall₂_mem_right h5 t ht
    obtain ⟨e1, e2⟩ := hb s hs
    refine section_ok hr (fun x hx => ?_) (by rw [e2]; norm_num) fun st l _ hl p hp => ?_
    · rw [e1] at hx
      cases hx
      norm_num
    · cases hl
      obtain ⟨h, -, rfl⟩ := List.mem_map.1 hp
      exact ⟨abs_nonneg h, by norm_num, by norm_num, rfl⟩
  have h := solid (Tab.of_exact _ _) bardellShape_C2 env_good hS hne hR hN hs hr hk hsec
  exact ⟨B, hB, R, _, h, flange_holds h (hS.rebuild hR) h2, hmn⟩

/-- The skin has no support of its own; the ends of the flanges hold the bay. -/
example : ∃ B, full = .ok B ∧ ∃ R N, SolidBay env B R N ∧ BayRestrained R ∧
    (∃ k0 B', B.calcKC env = .ok (k0, B') ∧ BayDefinite R k0) ∧
    ∃ k0 kG B1 B2, B.calcKC env = .ok (k0, B1) ∧ B.calcKG env none = .ok (kG, B2) ∧
      Buckles (actives R) k0 kG := by
  obtain ⟨B, hB, R, N, h, hre, hmn⟩ := full_solid
  obtain ⟨k0, B', h1, h3, -⟩ := definite_iff h (exact_hier 7) (by norm_num) hmn
  exact ⟨B, hB, R, N, h, hre, ⟨k0, B', h1, h3 hre⟩, buckling h (exact_hier 7) (by norm_num) hmn hre⟩

/-- Without stiffeners the bay floats. -/
example : ¬ BayRestrained bare := floating fun k hk i hi => by
  have hk : k < 1 := hk
  interval_cases k
  interval_cases i <;> simp [bayPanel, bare, Bay.addPanel, loose, Panel.xf, Panel.yf, flag]

/-- A flat bay of one panel on its default supports. -/
noncomputable def sheet1 : Bay ℝ :=
  Bay.addPanel
    { skin := bayDefault Witness.panel, r := none, model := none, stack := [0, 45], plyt := some (1 / 4)
      plyts := [], laminaprop := [1], laminaprops := [], rho := 1, beta := none, Mach := none, V := none
      rhoAir := none, speedSound := none, panels := [], blade1 := [], blade2 := [] }
    0 1 none none none none none none none

/-- With a flange on its edge. -/
noncomputable def plain : Except Fail (Bay ℝ) :=
  sheet1.addBlade2 env 0 none none (some (1 / 3)) {} ply 4 6

theorem pair_self {B : Bay ℝ} {i : ℕ} {p : Shell ℝ} (h : B.panels[i]? = some p) :
    B.pair i i = .ok (p, p) := by
  simp [Bay.pair, h]

theorem plain_built : ∃ B, plain = .ok B ∧ B.panels ≠ [] ∧ ∃ R, B.rebuild env = .ok R ∧ Ready env R ∧
    R.getSize = .ok (105 + (72 + 0)) ∧ (0 < R.skin.a ∧ 0 < R.skin.b) ∧ Curved R.r R.model ∧
    Heavy R ∧ (∃ P, R.skin = bayDefault P) ∧
    (∀ k < R.blade2.length + 1, (bayPanel R k).m ≤ 7 ∧ (bayPanel R k).n ≤ 7) := by
  refine ⟨_, bind_ok.2 ⟨_, rfl, bind_ok.2 ⟨_, rfl, bind_ok.2 ⟨(0, 0), ?_,
      bind_ok.2 ⟨_, rfl, bind_ok.2 ⟨_, rfl, bind_ok.2 ⟨_, bind_ok.2 ⟨_, pair_self rfl, rfl⟩,
        rfl⟩⟩⟩⟩⟩⟩, ?_, _, bind_ok.2 ⟨_, rfl, bind_ok.2 ⟨_, rfl, bind_ok.2 ⟨_,
      bind_ok.2 ⟨_, bind_ok.2 ⟨_, pair_self rfl, rfl⟩, rfl⟩, rfl⟩⟩⟩, ?_, rfl,
    ?_, ?_, ?_, ?_, ?_⟩
  · simp only [sheet1, Bay.findPanels, Bay.addPanel, Shell.new, List.nil_append, findLoop, findStep,
      isclose, bayDefault, Witness.panel]
    norm_num
  · exact List.cons_ne_nil _ _
  · refine ⟨fun s hs => (List.not_mem_nil hs).elim, fun s hs b hb => ?_, fun s hs b hb => ?_⟩
    · obtain rfl := List.mem_singleton.1 hs
      cases hb
    · obtain rfl := List.mem_singleton.1 hs
      cases hb
      exact ⟨_, rfl⟩
  · show 0 < (3 : ℝ) ∧ 0 < (1 : ℝ)
    norm_num
  · exact .inl ⟨rfl, rfl⟩
  · refine ⟨rfl, fun s hs => ?_, fun p hp => ?_, fun s hs f hf => ?_⟩
    · obtain rfl := List.mem_singleton.1 hs
      rfl
    · obtain rfl := List.mem_singleton.1 hp
      show 0 < (1 : ℝ) ∧ 0 < List.sum [(1 / 4 : ℝ), 1 / 4]
      norm_num
    · obtain rfl := List.mem_singleton.1 hs
      cases hf
      show 0 < (1 : ℝ) ∧ 0 < List.sum [(1 / 2 : ℝ)]
      norm_num
  · exact ⟨_, rfl⟩
  · intro k hk
    have hk : k < 2 := hk
    interval_cases k
    · show 5 ≤ 7 ∧ 7 ≤ 7
      norm_num
    · show 4 ≤ 7 ∧ 6 ≤ 7
      norm_num

/-- Its frequencies are real. -/
example : ∃ B, plain = .ok B ∧ ∃ R, B.rebuild env = .ok R ∧ BayRestrained R ∧
    ∃ k0 kM B1 B2, B.calcKC env = .ok (k0, B1) ∧ B.calcKM env = .ok (kM, B2) ∧
      Vibrates (actives R) k0 kM := by
  obtain ⟨B, hB, hne, R, hR, hr, hN, hs, hk, hH, ⟨P, hP⟩, hmn⟩ := plain_built
  have hS : Shaped B := shaped_addBlade2 (shaped_addPanel (shaped_empty rfl rfl rfl) ..) _ _ _
    (by norm_num) _ _ _ _ hB
  have h := solid (Tab.of_exact _ _) bardellShape_C2 env_good hS hne hR hN hs hr hk
    (by simp [hH.blade1])
  have hre : BayRestrained R := held h (k := 0) (Nat.succ_pos _) (by
    have := (C77.defaults (1 / (bayPanel R 0).r) (P := { P with r := R.r.getD 0 }) (by
      have := hs.1; rw [hP] at this; exact this) (by have := hs.2; rw [hP] at this; exact this)).2
    have e : bayPanel R 0 = bayDefault { P with r := R.r.getD 0 } := by
      show { R.skin with r := R.r.getD 0 } = _
      rw [hP]
      rfl
    rw [e] at this ⊢
    exact this)
  exact ⟨B, hB, R, hR, hre, frequencies h hH (exact_hier 7) (by norm_num) hmn hre⟩

end Verif.C81
