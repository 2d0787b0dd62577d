import Verif.Proofs.BayTotal

/-!
# C57: the matrices of a stiffened bay exist

For a bay that can be rebuilt and has a size, `calc_kC` and `calc_kG` give a matrix (`kC_exists`,
`kG_exists`).  The claim fails for `calc_kM`: the base of a 1D stiffener is made anew at every call and
has no model when its mass is asked for, so the mass matrix of a bay with such a base never exists
(`kM_base1`), and that of a 2D stiffener exists only after another calculation has set the model
(`kM_base2`).  Without bases, or with the model set, it exists (`kM_exists_partial`).  With a state
`calc_kG` fails as soon as there is a 1D stiffener (`kG_state`).
-/

set_option linter.unusedSectionVars false

namespace Verif.C57

open Model

variable {K : Type} [Field K] [LinearOrder K]

theorem skin_le {R : Bay K} {N : ℕ} (hN : R.getSize = .ok N) : 3 * R.skin.m * R.skin.n ≤ N := by
  rw [← C52.filled R hN, ← C52.start_zero R]
  exact C52.start_mono R (Nat.zero_le _)

theorem panel_le {E : BayEnv K} {R : Bay K} {N : ℕ} (hb : C52.Built E R) (hN : R.getSize = .ok N)
    {p : Shell K} (hp : p ∈ R.panels) : 0 + 3 * p.pan.m * p.pan.n ≤ N := by
  rw [(hb.terms.panels p hp).1, (hb.terms.panels p hp).2, Nat.zero_add]
  exact skin_le hN

theorem panel_of_pair {E : BayEnv K} {R C : Bay K} (hb : C52.Built E R) (hC : SameSkin R C)
    {i j : ℕ} {pq : Shell K × Shell K} (h : C.pair i j = .ok pq) :
    C.panels[i]? = some pq.1 ∧ pq.1.rebuild E.toEnv = .ok pq.1 := by
  have h1 := (C52.pair_panels h).1
  refine ⟨h1, ?_⟩
  rw [hC.panels, List.getElem?_map] at h1
  cases hp : R.panels[i]? with
  | none => simp [hp] at h1
  | some p =>
    simp only [hp, Option.map_some, Option.some.injEq] at h1
    rw [← h1]
    exact fixR_fixed (hb.panels p (List.mem_of_getElem? hp))

theorem blade2C_total {E : BayEnv K} {R C : Bay K} {N off : ℕ} (hb : C52.Built E R) (hr : Ready E R)
    (hC : SameSkin R C) (hN : 3 * R.skin.m * R.skin.n ≤ N) {s : Blade2 K} (hs : s ∈ R.blade2)
    (hw : off + C52.width s ≤ N) {f : Shell K} (hf : s.flange = some f) :
    ∃ L t, s.calcKC E C N off = .ok (L, t, C) ∧ flangeSize t = .ok (C52.width s) := by
  have h1 := hb.blade2 s hs C hC
  obtain ⟨rf, hrf⟩ := hr.flange s hs f hf
  have hwf : C52.width s = 3 * f.pan.m * f.pan.n := by unfold C52.width; rw [hf]
  obtain ⟨Lf, -, e1, -⟩ := kC_slice E.toEnv f rf hrf none N off (by rw [← hwf]; exact hw) (by simp)
  have hfix := fixR_fixed (C54.idempotent E.toEnv _ _ hrf)
  have hpan : rf.fixR.panel.m = f.pan.m ∧ rf.fixR.panel.n = f.pan.n := by
    have := (rebuild_kept E.toEnv hrf).1
    constructor
    · show rf.pan.m = _
      rw [this]
    · show rf.pan.n = _
      rw [this]
  have hsz : ∀ ob, flangeSize { s with base := ob, flange := some rf.fixR } = .ok (C52.width s) :=
    fun ob => flangeSize_ok hf rfl (show rf.model.bind kindOf ≠ none from rebuild_kind hrf)
      (show rf.pan = f.pan from (rebuild_kept E.toEnv hrf).1)
  have hconn : ∀ k : K × K, toSparse N (bladeConn E.S E.I C.skin rf.fixR.panel k.1 k.2 s.ys 0 off)
      = .ok (bladeConn E.S E.I C.skin rf.fixR.panel k.1 k.2 s.ys 0 off) := fun k =>
    bladeConn_sparse _ _ _ _ _ _ _ (by rw [hC.skin]; exact hN) (by
      rw [hpan.1, hpan.2, ← hwf]; exact hw)
  cases hbase : s.base with
  | none =>
    obtain ⟨-, -, -, -, -, pq, hpq⟩ := blade2_kept h1
    obtain ⟨hp, hpr⟩ := panel_of_pair hb hC hpq
    obtain ⟨k, hk⟩ := ktkrY_total hpr hfix
    have hset : C.setPanel s.panel1 pq.1 = C := by
      unfold Bay.setPanel
      rw [C52.set_same hp]
    refine ⟨[] ++ (Lf ++ bladeConn E.S E.I C.skin rf.fixR.panel k.1 k.2 s.ys 0 off),
      { s with base := none, flange := some rf.fixR }, ?_, hsz none⟩
    refine bind_ok.2 ⟨s, h1, bind_ok.2 ⟨([], none), by rw [hbase]; rfl,
      bind_ok.2 ⟨(_, { s with base := none, flange := some rf.fixR }, C), ?_, rfl⟩⟩⟩
    unfold Blade2.flangeC
    simp only [hf]
    refine bind_ok.2 ⟨_, e1, bind_ok.2 ⟨(k, none, rf.fixR, C), ?_, bind_ok.2 ⟨_, hconn k, rfl⟩⟩⟩
    exact bind_ok.2 ⟨pq, hpq, bind_ok.2 ⟨_, hk, by
      show Except.ok (k, none, rf.fixR, C.setPanel s.panel1 pq.1) = _
      rw [hset]⟩⟩
  | some b =>
    obtain ⟨rb, hrb⟩ := hr.base2 s hs b hbase
    obtain ⟨Lb, -, e2, -⟩ := kC_slice E.toEnv b rb hrb none N 0
      (by rw [(hb.terms.base2 s hs b hbase).1, (hb.terms.base2 s hs b hbase).2]; omega) (by simp)
    obtain ⟨k, hk⟩ := ktkrY_total (fixR_fixed (C54.idempotent E.toEnv _ _ hrb)) hfix
    refine ⟨Lb ++ (Lf ++ bladeConn E.S E.I C.skin rf.fixR.panel k.1 k.2 s.ys 0 off),
      { s with base := some rb.fixR, flange := some rf.fixR }, ?_, hsz _⟩
    refine bind_ok.2 ⟨s, h1, bind_ok.2 ⟨(Lb, some rb.fixR), ?_,
      bind_ok.2 ⟨(_, { s with base := some rb.fixR, flange := some rf.fixR }, C), ?_, rfl⟩⟩⟩
    · rw [hbase]
      exact bind_ok.2 ⟨_, e2, rfl⟩
    · unfold Blade2.flangeC
      simp only [hf]
      refine bind_ok.2 ⟨_, e1, bind_ok.2 ⟨(k, some rb.fixR, rf.fixR, C), ?_,
        bind_ok.2 ⟨_, hconn k, rfl⟩⟩⟩
      exact bind_ok.2 ⟨_, hk, rfl⟩

theorem flange_of {R : Bay K} {N : ℕ} (hN : R.getSize = .ok N) {s : Blade2 K} (hs : s ∈ R.blade2) :
    ∃ f, s.flange = some f ∧ f.model.bind kindOf ≠ none := ((C52.size_iff R N).1 hN).2.1 s hs

/-- The stiffness matrix of a bay exists. -/
theorem kC_exists (E : BayEnv K) (B R : Bay K) (N : ℕ) (hT : C52.Terms B) (hne : B.panels ≠ [])
    (hR : B.rebuild E = .ok R) (hN : R.getSize = .ok N) (hr : Ready E R) :
    ∃ x, B.calcKC E = .ok x := by
  have hb := C52.built hT hR
  refine assemble_total hR hN hne ?_ ?_ ?_
  · intro p hp
    have hpr := hb.panels p hp
    obtain ⟨L, -, e1, -⟩ := kC_slice E.toEnv p p hpr none N 0 (panel_le hb hN hp) (by simp)
    exact ⟨L, e1⟩
  · intro C s hC hs
    exact blade1C_total hb hr hC (skin_le hN) hs
  · intro C off s hC hs hw
    obtain ⟨f, hf, -⟩ := flange_of hN hs
    obtain ⟨L, t, h1, h2⟩ := blade2C_total hb hr hC (skin_le hN) hs hw hf
    exact ⟨L, t, C, h1, hC, h2⟩

/-- The geometric stiffness matrix of a bay exists. -/
theorem kG_exists (E : BayEnv K) (B R : Bay K) (N : ℕ) (hT : C52.Terms B) (hne : B.panels ≠ [])
    (hR : B.rebuild E = .ok R) (hN : R.getSize = .ok N) (hr : Ready E R) :
    ∃ x, B.calcKG E none = .ok x := by
  have hb := C52.built hT hR
  refine assemble_total hR hN hne ?_ ?_ ?_
  · intro p hp
    have hpr := hb.panels p hp
    obtain ⟨L, -, e1, -⟩ := kG_slice E.toEnv p p hpr none N 0 (panel_le hb hN hp) (by simp)
    exact ⟨L, e1⟩
  · intro C s hC hs
    exact blade1G_total hb hC (skin_le hN) hs
  · intro C off s hC hs hw
    obtain ⟨f, hf, -⟩ := flange_of hN hs
    obtain ⟨rf, hrf⟩ := hr.flange s hs f hf
    have hwf : C52.width s = 3 * f.pan.m * f.pan.n := by unfold C52.width; rw [hf]
    obtain ⟨Lf, -, e1, -⟩ := kG_slice E.toEnv f rf hrf none N off (by rw [← hwf]; exact hw) (by simp)
    refine ⟨Lf, { s with flange := some rf.fixR }, C, ?_, hC, flangeSize_ok hf rfl
      (show rf.model.bind kindOf ≠ none from rebuild_kind hrf)
      (show rf.pan = f.pan from (rebuild_kept E.toEnv hrf).1)⟩
    refine bind_ok.2 ⟨s, hb.blade2 s hs C hC, bind_ok.2 ⟨(Lf, some rf.fixR), ?_, rfl⟩⟩
    rw [hf]
    exact bind_ok.2 ⟨_, e1, rfl⟩

/-- The mass matrix of a bay exists if 1D stiffeners have no base, and the bases of the 2D ones have a
model. -/
theorem kM_exists_partial (E : BayEnv K) (B R : Bay K) (N : ℕ) (hT : C52.Terms B)
    (hne : B.panels ≠ []) (hR : B.rebuild E = .ok R) (hN : R.getSize = .ok N)
    (h1 : ∀ s ∈ R.blade1, s.base = none)
    (h2 : ∀ s ∈ R.blade2, ∀ b, s.base = some b → b.model.bind kindOf ≠ none) :
    ∃ x, B.calcKM E = .ok x := by
  have hb := C52.built hT hR
  refine assemble_total hR hN hne ?_ ?_ ?_
  · intro p hp
    have hpr := hb.panels p hp
    obtain ⟨l, hl⟩ := rebuild_lam_some hpr
    obtain ⟨k, hk⟩ := Option.ne_none_iff_exists'.1 (rebuild_kind hpr)
    obtain ⟨L, -, e1, -⟩ := kM_slice E.toEnv p hk hl N 0 (panel_le hb hN hp)
    exact ⟨L, e1⟩
  · intro C s hC hs
    exact blade1M_total hb hC (skin_le hN) hs (h1 s hs)
  · intro C off s hC hs hw
    obtain ⟨f, hf, hm⟩ := flange_of hN hs
    have hfix := hb.blade2 s hs C hC
    obtain ⟨hfl, hba, -⟩ := blade2_kept hfix
    have hwf : C52.width s = 3 * f.pan.m * f.pan.n := by unfold C52.width; rw [hf]
    have hlf : ∃ l, f.lam = some l := by
      rcases hfl with ⟨e, -⟩ | ⟨g, x, e, e'⟩
      · rw [hf] at e; cases e
      · rw [hf] at e'
        cases e'
        exact ⟨x, rfl⟩
    obtain ⟨l, hl⟩ := hlf
    obtain ⟨k, hk⟩ := Option.ne_none_iff_exists'.1 hm
    obtain ⟨Lf, -, e1, -⟩ := kM_slice E.toEnv f hk hl N off (by rw [← hwf]; exact hw)
    obtain ⟨⟨Lb, ob⟩, e2⟩ := optPart_total (o := s.base) (f := fun sh =>
      sh.calcKM E.toEnv (.num N) 0 0 none none none none false) fun b e => by
        have hlb : ∃ l, b.lam = some l := by
          rcases hba with ⟨e', -⟩ | ⟨g, x, -, e'⟩
          · rw [e] at e'; cases e'
          · rw [e] at e'
            cases e'
            exact ⟨x, rfl⟩
        obtain ⟨lb, hlb⟩ := hlb
        obtain ⟨kb, hkb⟩ := Option.ne_none_iff_exists'.1 (h2 s hs b e)
        obtain ⟨L, -, e3, -⟩ := kM_slice E.toEnv b hkb hlb N 0
          (by rw [(hb.terms.base2 s hs b e).1, (hb.terms.base2 s hs b e).2, Nat.zero_add]; exact skin_le hN)
        exact ⟨_, e3⟩
    refine ⟨Lb ++ Lf, { s with base := ob, flange := some f.fixR }, C, ?_, hC,
      flangeSize_ok hf rfl (show f.model.bind kindOf ≠ none from hm) rfl⟩
    refine bind_ok.2 ⟨s, hfix, bind_ok.2 ⟨_, e2, bind_ok.2 ⟨(Lf, some f.fixR), ?_, rfl⟩⟩⟩
    rw [hf]
    exact bind_ok.2 ⟨_, e1, rfl⟩

/-! ## Where the claim fails -/

theorem calcKM_model {E : Env K} {s : Shell K} {size : SizeArg} {row0 col0 : ℕ} {fz : Bool}
    {x : Coo K × Shell K} (h : s.calcKM E size row0 col0 none none none none fz = .ok x) :
    s.model.bind kindOf ≠ none := by
  intro hk
  unfold Shell.calcKM at h
  simp only [hk] at h
  cases h

/-- A bay with a 1D stiffener on a base has no mass matrix. -/
theorem kM_base1 (E : BayEnv K) (B : Bay K) (s : Blade1 K) (hs : s ∈ B.blade1)
    (hb : s.bstack ≠ none) (x : Coo K × Bay K) : B.calcKM E ≠ .ok x := by
  intro h
  obtain ⟨R, N, kd, hR, hN, hkd, XP, X1, X2, B2, gp, g1, g2, -⟩ := assemble_ok (k := x.1) (B' := x.2) h
  obtain ⟨m, ps, -, -, -, -, -, k1, -⟩ := bay_rebuild_ok hR
  obtain ⟨t, ht, hr⟩ := forall₂_mem_left k1 s hs
  have hbs : t.bstack = s.bstack := by
    unfold Blade1.rebuild at hr
    obtain ⟨x1, hx1, hr⟩ := bind_ok.1 hr
    obtain ⟨x2, hx2, hr⟩ := bind_ok.1 hr
    obtain ⟨x3, hx3, hr⟩ := bind_ok.1 hr
    obtain ⟨x4, hx4, hr⟩ := bind_ok.1 hr
    obtain ⟨x5, hx5, hr⟩ := bind_ok.1 hr
    cases hr
    rfl
  obtain ⟨y, -, hy⟩ := forall₂_mem_left g1 t ht
  unfold Blade1.calcKM at hy
  obtain ⟨t', h1, hy⟩ := bind_ok.1 hy
  obtain ⟨⟨L, ob⟩, h2, -⟩ := bind_ok.1 hy
  rcases blade1_base h1 with ⟨-, e⟩ | ⟨st, bb, hh, -, -, e⟩
  · rw [hbs] at e; exact hb e
  · rw [e] at h2
    obtain ⟨z, h3, -⟩ := bind_ok.1 h2
    exact calcKM_model h3 rfl

/-- Nor has one with a 2D stiffener whose base has no model yet. -/
theorem kM_base2 (E : BayEnv K) (B : Bay K) (s : Blade2 K) (hs : s ∈ B.blade2) (b : Shell K)
    (hb : s.base = some b) (hm : b.model = none) (x : Coo K × Bay K) : B.calcKM E ≠ .ok x := by
  intro h
  obtain ⟨R, N, kd, hR, hN, hkd, XP, X1, X2, B2, gp, g1, g2, -⟩ := assemble_ok (k := x.1) (B' := x.2) h
  obtain ⟨m, ps, -, -, -, -, -, -, k2⟩ := bay_rebuild_ok hR
  obtain ⟨t, ht, hr⟩ := forall₂_mem_left k2 s hs
  have key : ∀ {C C' : Bay K} {off : ℕ} {l : List (Blade2 K)} {X : List (ℕ × Coo K × Blade2 K)},
      Steps (fun B off => Blade2.calcKM E B N off) C off l X C' → t ∉ l := by
    intro C C' off l X hst
    induction hst with
    | nil => simp
    | cons h1 _ _ ih =>
      rw [List.mem_cons, not_or]
      refine ⟨?_, ih⟩
      rintro rfl
      unfold Blade2.calcKM at h1
      obtain ⟨t', h2, h1⟩ := bind_ok.1 h1
      obtain ⟨⟨L, ob⟩, h3, -⟩ := bind_ok.1 h1
      rcases (blade2_kept hr).2.1 with ⟨e, -⟩ | ⟨g, y, e, e'⟩
      · rw [hb] at e; cases e
      · rw [hb] at e
        cases e
        rcases (blade2_kept h2).2.1 with ⟨e, -⟩ | ⟨g', y', e2, e3⟩
        · rw [e'] at e; cases e
        · rw [e'] at e2
          cases e2
          rw [e3] at h3
          obtain ⟨z, h4, -⟩ := bind_ok.1 h3
          exact calcKM_model h4 (by simp [hm])
  exact key g2 ht

/-- `add_bladestiff2d` leaves the base without a model. -/
theorem new_base2 (E : BayEnv K) (B B' : Bay K) (ys : K) (rho bb bf : Option K) (b f : LamArgs K)
    (mf nf : ℕ) (hst : b.stack ≠ none) (h : B.addBlade2 E ys rho bb bf b f mf nf = .ok B') :
    ∃ s ∈ B'.blade2, ∃ sh, s.base = some sh ∧ sh.model = none := by
  unfold Bay.addBlade2 at h
  split at h
  · cases h
  · obtain ⟨x, hx, h⟩ := bind_ok.1 h
    obtain ⟨y, -, h⟩ := bind_ok.1 h
    obtain ⟨z, -, h⟩ := bind_ok.1 h
    obtain ⟨ob, hob, h⟩ := bind_ok.1 h
    obtain ⟨of, -, h⟩ := bind_ok.1 h
    obtain ⟨s, hs, h⟩ := bind_ok.1 h
    cases h
    refine ⟨s, by simp, ?_⟩
    obtain ⟨st, hst⟩ := Option.ne_none_iff_exists'.1 hst
    have hx1 : ∃ st, x.1 = some st := by
      unfold LamArgs.resolve at hx
      simp only [hst] at hx
      split at hx <;> cases hx
      exact ⟨st, rfl⟩
    obtain ⟨st', hx1⟩ := hx1
    unfold Bay.baseOf at hob
    simp only [hx1] at hob
    obtain ⟨v, -, hob⟩ := bind_ok.1 hob
    split at hob
    · cases hob
      rcases (blade2_kept hs).2.1 with ⟨e, -⟩ | ⟨g, w, e, e'⟩
      · cases e
      · cases e
        exact ⟨_, e', rfl⟩
    · cases hob

/-- The mass matrix of a bay asked for after adding a 2D stiffener with a base does not exist. -/
theorem kM_fresh2 (E : BayEnv K) (B B' : Bay K) (ys : K) (rho bb bf : Option K) (b f : LamArgs K)
    (mf nf : ℕ) (hst : b.stack ≠ none) (h : B.addBlade2 E ys rho bb bf b f mf nf = .ok B')
    (x : Coo K × Bay K) : B'.calcKM E ≠ .ok x := by
  obtain ⟨s, hs, sh, e, hm⟩ := new_base2 E B B' ys rho bb bf b f mf nf hst h
  exact kM_base2 E B' s hs sh e hm x

/-- With a state, a bay with a 1D stiffener has no geometric stiffness. -/
theorem kG_state (E : BayEnv K) (B : Bay K) (c : CArg K) (hs : B.blade1 ≠ []) (x : Coo K × Bay K) :
    B.calcKG E (some c) ≠ .ok x := by
  intro h
  obtain ⟨R, N, kd, hR, hN, hkd, XP, X1, X2, B2, gp, g1, g2, -⟩ := assemble_ok (k := x.1) (B' := x.2) h
  obtain ⟨m, ps, -, -, -, -, -, k1, -⟩ := bay_rebuild_ok hR
  obtain ⟨s, hs⟩ := List.exists_mem_of_ne_nil _ hs
  obtain ⟨t, ht, -⟩ := forall₂_mem_left k1 s hs
  obtain ⟨y, -, hy⟩ := forall₂_mem_left g1 t ht
  cases hy

/-! ## Witnesses -/

/-- Can an optional part be rebuilt? -/
def can (E : Env ℚ) (o : Option (Shell ℚ)) : Bool :=
  match o with
  | none => true
  | some b => (b.rebuild E).isOk

theorem of_can {E : Env ℚ} {o : Option (Shell ℚ)} (h : can E o = true) (b : Shell ℚ) (e : o = some b) :
    ∃ t, b.rebuild E = .ok t := by
  subst e
  exact exists_ok h

/-- The hypotheses of `kC_exists`, as a test. -/
def test (E : BayEnv ℚ) (B : Bay ℚ) : Bool :=
  match B.rebuild E with
  | .error _ => false
  | .ok R => (R.getSize).isOk && !B.panels.isEmpty && R.blade1.all (fun s => can E.toEnv s.base) &&
      R.blade2.all (fun s => can E.toEnv s.base && can E.toEnv s.flange)

theorem of_test {E : BayEnv ℚ} {B : Bay ℚ} (h : test E B = true) :
    ∃ R N, B.panels ≠ [] ∧ B.rebuild E = .ok R ∧ R.getSize = .ok N ∧ Ready E R := by
  unfold test at h
  cases hR : B.rebuild E with
  | error e => rw [hR] at h; cases h
  | ok R =>
    rw [hR] at h
    simp only [Bool.and_eq_true, List.all_eq_true] at h
    obtain ⟨⟨⟨h1, h2⟩, h3⟩, h4⟩ := h
    obtain ⟨N, hN⟩ := exists_ok h1
    exact ⟨R, N, by simpa using h2, rfl, hN, fun s hs => of_can (h3 s hs), fun s hs => of_can (h4 s hs).1,
      fun s hs => of_can (h4 s hs).2⟩

/-- A bay with a 1D stiffener on a base and two 2D stiffeners, one on a base. -/
example : ∃ B R N, C52.stiffened C52.ply C52.ply = .ok B ∧ C52.Terms B ∧ B.panels ≠ [] ∧
    B.rebuild C52.env = .ok R ∧ R.getSize = .ok N ∧ Ready C52.env R ∧
    (∃ x, B.calcKC C52.env = .ok x) ∧ (∃ x, B.calcKG C52.env none = .ok x) ∧
    ∀ x, B.calcKM C52.env ≠ .ok x := by
  obtain ⟨B, hB⟩ := exists_ok (x := C52.stiffened C52.ply C52.ply) (by decide +kernel)
  have h : ∀ f : Bay ℚ → Bool, ((C52.stiffened C52.ply C52.ply).map f).toOption
      = (.ok (f B) : Except Fail Bool).toOption := by
    intro f; rw [hB]; rfl
  have e : ((C52.stiffened C52.ply C52.ply).map (test C52.env)).toOption = some true := by
    decide +kernel
  rw [h] at e
  obtain ⟨R, N, h1, h2, h3, h4⟩ := of_test (E := C52.env) (B := B) (by
    simpa [Except.toOption] using e)
  have hT := C52.stiffened_terms hB
  have e' : ((C52.stiffened C52.ply C52.ply).map fun B => B.blade1.any fun s =>
      s.bstack.isSome).toOption = some true := by decide +kernel
  rw [h] at e'
  have e'' : (B.blade1.any fun s => s.bstack.isSome) = true := by simpa [Except.toOption] using e'
  obtain ⟨s, hs, hs'⟩ := List.any_eq_true.1 e''
  exact ⟨B, R, N, hB, hT, h1, h2, h3, h4, kC_exists C52.env B R N hT h1 h2 h3 h4,
    kG_exists C52.env B R N hT h1 h2 h3 h4, fun x => kM_base1 C52.env B s hs
      (fun h0 => by rw [h0] at hs'; cases hs') x⟩

/-- Without bases the mass matrix exists. -/
example : ((C52.stiffened {} {}).map fun B => (B.calcKM C52.env).isOk).toOption = some true := by
  decide +kernel

/-- With a base on a 2D stiffener only after the stiffness matrix. -/
example : ((C52.stiffened {} C52.ply).map fun B => (B.calcKM C52.env).isOk).toOption = some false ∧
    ((C52.stiffened {} C52.ply).bind fun B => (B.calcKC C52.env).map fun x =>
      (x.2.calcKM C52.env).isOk).toOption = some true := by
  decide +kernel

end Verif.C57
