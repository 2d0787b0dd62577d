import Verif.Spec.StateBay
import Verif.Proofs.StateBay
import Verif.Props.C103

/-!
# C106: buckling of a bay about a calculated state

`calc_kG(c)` of a bay should be the work, through the slopes, of the membrane forces in every part: the
given ones and those of the state `c`.
`state_partial`: without 1D stiffeners it exists for every state of the right length, and is that work in
the skin panels, with the given forces only in the flanges, and nothing in the bases.
`beams_violated`: a bay with a 1D stiffener has none.
`flanges_violated`: a flange stretched by the state does work through its slopes, the bay has none of it.
`bases_violated`: the forces given on the bases change nothing, though each base alone does work.
-/

set_option linter.unusedSectionVars false

namespace Verif.C106

open Model Spec Indep C81

variable {E : BayEnv ℝ} {B R : Bay ℝ} {N : ℕ}

/-- Work of the given forces and those of the state `c` in a panel. -/
noncomputable def inState (E : Env ℝ) (p : Shell ℝ) (c v : ℕ → ℝ) : ℝ :=
  match p.lam with
  | some l => stateWork E.G E.S (max p.nx p.pan.m) (max p.ny p.pan.n) p.panel l.ABD (membrane p) c v
  | none => 0

/-- Work of the given forces in a flange whose amplitudes begin at `off`. -/
noncomputable def given (E : Env ℝ) (o : Option (Shell ℝ)) (off : ℕ) (v : ℕ → ℝ) : ℝ :=
  match o with
  | some f => slopeWork E.S f.panel f.Nxx f.Nyy f.Nxy fun k => v (off + k)
  | none => 0

/-- A panel in a state. -/
theorem own_state (h : SolidBay E B R N) {p : Shell ℝ} (hp : p ∈ R.panels) (ho : p.forceOrtho = false)
    {q : (ℕ → ℝ) → ℝ} {c : ℕ → ℝ}
    (hq : C52.Own (fun b => b.calcKG E.toEnv { c := some (.vec (3 * b.pan.m * b.pan.n) c) }) 0 (some p) q)
    (v : ℕ → ℝ) : q v = inState E.toEnv p c v := by
  obtain ⟨L, t, hL, w⟩ := hq
  have hL : p.calcKG E.toEnv { c := some (.vec (3 * p.pan.m * p.pan.n) c) } = .ok (L, t) := hL
  obtain ⟨t', lam, hs⟩ := h.skin p hp
  have hb := (C52.built h.terms h.rebuilt).panels p hp
  cases hb.symm.trans hs.built
  obtain ⟨x1, x2, y1, y2, e⟩ := hs.plan
  have ea : p.pan.a = R.skin.a := by
    have := congrArg Panel.a e
    exact this
  have eb : p.pan.b = R.skin.b := by
    have := congrArg Panel.b e
    exact this
  have er : p.r.getD 0 = (bayPanel R 0).r := by
    have := congrArg Panel.r e
    exact this
  rw [w, shell_kG_state h.smooth hs.built (by rw [ea]; exact h.sides.1.ne') (by rw [eb]; exact h.sides.2.ne')
    (by rw [er]; exact hs.kind) ho hs.hlam hs.sym c hL]
  simp only [inState, hs.hlam, Nat.zero_add]

/-- A flange with its given forces. -/
theorem own_given (h : SolidBay E B R N) {i : ℕ} {s : Blade2 ℝ} (hi : R.blade2[i]? = some s)
    {q : (ℕ → ℝ) → ℝ} (hq : C52.Own (fun b => b.calcKG E.toEnv {}) (C52.start R i) s.flange q) (v : ℕ → ℝ) :
    q v = given E.toEnv ((R.blade2[i]?).bind Blade2.flange) (C52.start R i) v := by
  obtain ⟨f, hf, -⟩ := h.has_flange hi
  obtain ⟨fa, fb, t, lam, hF⟩ := h.flange s (List.mem_of_getElem? hi) f hf
  rw [hf] at hq
  obtain ⟨L, t', hL, w⟩ := hq
  rw [w v, shell_kG_slope h.exact h.smooth hF.built (by rw [fa]; exact h.sides.1.ne') fb.ne' hL]
  simp only [given, hi, Option.bind_some, hf]

/-- Buckling about a state: without 1D stiffeners the matrix exists; the skin is in the state, each
flange has its given forces only, and the bases have none. -/
theorem state_partial (h : SolidBay E B R N) (h1 : R.blade1 = []) (ho : ∀ p ∈ R.panels, p.forceOrtho = false)
    (c : ℕ → ℝ) : ∃ k B1, B.calcKG E (some (.vec N c)) = .ok (k, B1) ∧ ∀ v, Coo.quad k v
      = (R.panels.map fun p => inState E.toEnv p c v).sum
        + ((List.range R.blade2.length).map fun i =>
            given E.toEnv ((R.blade2[i]?).bind Blade2.flange) (C52.start R i) v).sum := by
  obtain ⟨⟨k, B1⟩, hk⟩ := kG_state_exists E B R N h.terms h.panels h.rebuilt h.size h.ready h1 c
  refine ⟨k, B1, hk, fun v => ?_⟩
  obtain ⟨R', N', hR, hN, -, Qp, Q2, g1, g2, g3, g4⟩ := kG_state_energy E B B1 k h.terms N c hk
  cases h.rebuilt.symm.trans hR
  rw [g4, C103.sum_only g1 v _ fun p hp q hq => own_state h hp (ho p hp) hq v,
    C103.sum_only (C103.forall₂_index g2 g3) v _ fun i hi q hq => by
      obtain ⟨s, hs, hq⟩ := hq
      exact own_given h hs hq v]

/-- Without state, and with 1D stiffeners. -/
theorem loads (h : SolidBay E B R N) : ∃ k B1, B.calcKG E none = .ok (k, B1) ∧
    ∃ Qp Q1 : List ((ℕ → ℝ) → ℝ), List.Forall₂ (fun p => C52.Own (fun b => b.calcKG E.toEnv {}) 0 (some p)) R.panels Qp ∧
      List.Forall₂ (C52.BeamG E R) R.blade1 Q1 ∧ ∀ v, Coo.quad k v
      = (Qp.map fun q => q v).sum + (Q1.map fun q => q v).sum
        + ((List.range R.blade2.length).map fun i =>
            given E.toEnv ((R.blade2[i]?).bind Blade2.flange) (C52.start R i) v).sum := by
  obtain ⟨⟨k, B1⟩, hk⟩ := C57.kG_exists E B R N h.terms h.panels h.rebuilt h.size h.ready
  obtain ⟨R', N', hR, hN, Qp, Q1, Q2, hQ, h1, hl, h2, he⟩ := C52.kG_energy E B B1 k h.terms hk
  cases h.rebuilt.symm.trans hR
  refine ⟨k, B1, hk, Qp, Q1, hQ, h1, fun v => ?_⟩
  rw [he, C103.sum_only (C103.forall₂_index hl h2) v _ fun i hi q hq => by
      obtain ⟨s, hs, hq⟩ := hq
      exact own_given h hs hq v]

/-- A bay with a 1D stiffener has no geometric stiffness about a state. -/
theorem beams_violated (hs : B.blade1 ≠ []) (c : CArg ℝ) (x : Coo ℝ × Bay ℝ) : B.calcKG E (some c) ≠ .ok x :=
  C57.kG_state E B c hs x

/-! ## Stretched flanges -/

/-- With free edges there are amplitudes of the deflection `x`, and of the stretch `x`. -/
theorem stretched {S : Shape ℝ} {n : ℕ} (hS : Hier S n) {P : Panel ℝ} (hP : AllFree P) (ha : P.a ≠ 0)
    (hb : P.b ≠ 0) (hm : 4 ≤ P.m) (hm' : P.m ≤ n) (hn : 4 ≤ P.n) (hn' : P.n ≤ n) :
    ∃ d e : ℕ → ℝ, u S P 0 d 2 = (fun x _ => x) ∧ u S P 0 e 0 = (fun x _ => x) ∧ u S P 0 e 1 = (fun _ _ => 0) ∧
      u S P 0 e 2 = fun _ _ => 0 := by
  let M : Motion := ⟨0, 0, 0, 0, 1, 0⟩
  obtain ⟨d, hd⟩ := exists_motion (M := M) (κ := 0) ha hb hm hn 0 fun c hc => by
    obtain ⟨e1, e2⟩ := hP c hc
    simp [EdgeFits, e1, e2]
  have hw : u S P 0 d 2 = fun x _ => x := by
    funext x y
    rw [u_disp, (disp_motion hS hm' hn' ha hb hd x y).1 2 (by norm_num)]
    simp [Motion.field, M]
  refine ⟨d, fun k => if k % 3 = 0 then d (k + 2) else 0, hw, ?_, ?_, ?_⟩
  · rw [← hw]
    funext x y
    unfold u
    rw [(hP 0 (by norm_num)).1, (hP 0 (by norm_num)).2, (hP 2 (by norm_num)).1, (hP 2 (by norm_num)).2]
    refine Finset.sum_congr rfl fun i _ => Finset.sum_congr rfl fun j _ => ?_
    simp only [show (0 + 3 * (j * P.m + i) + 0) % 3 = 0 by omega, if_true]
  · funext x y
    unfold u
    refine Finset.sum_eq_zero fun i _ => Finset.sum_eq_zero fun j _ => ?_
    simp
  · funext x y
    unfold u
    refine Finset.sum_eq_zero fun i _ => Finset.sum_eq_zero fun j _ => ?_
    simp

/-- The work of a stretch through the slopes of a rotation. -/
theorem stretch_work {nx ny : ℕ} (hx : 2 ≤ nx ∧ nx ≤ 64) (hy : 2 ≤ ny ∧ ny ≤ 64) {S : Shape ℝ} {P : Panel ℝ}
    (dx' : (xdom P).1 < (xdom P).2) (dy' : (ydom P).1 < (ydom P).2) {F : ℕ → ℕ → ℝ} (hF : 0 < F 0 0) {d e : ℕ → ℝ}
    (hd : u S P 0 d 2 = fun x _ => x) (h0 : u S P 0 e 0 = fun x _ => x) (h1 : u S P 0 e 1 = fun _ _ => 0)
    (h2 : u S P 0 e 2 = fun _ _ => 0) {M : ℕ → ℝ} (hM : ∀ i, M i = 0) :
    0 < stateWork (gaussTab ℝ) S nx ny P F M e d := by
  have hi : ∀ x y, C19.initialStress (fun i => M i + resultant F (fun s => linStrain (1 / P.r) S P 0 e s x y) i)
      (u S P 0 d 2) x y = F 0 0 := by
    intro x y
    have l : ∀ s, linStrain (1 / P.r) S P 0 e s x y = if s = 0 then 1 else 0 := by
      intro s
      unfold linStrain
      rw [h0, h1, h2]
      rcases s with _ | _ | _ | _ | _ | s <;> simp [donnell, dx, dy]
    have r : ∀ i, resultant F (fun s => linStrain (1 / P.r) S P 0 e s x y) i = F i 0 := by
      intro i
      simp only [l, resultant, Finset.sum_range_succ, Finset.sum_range_zero]
      norm_num
    simp only [C19.initialStress, r, hM, hd, dx, dy]
    simp
  unfold stateWork
  simp only [hi]
  have nn : 0 ≤ gaussP (gaussTab ℝ) nx ny P fun _ _ _ _ => F 0 0 := by
    unfold gaussP gauss
    refine Finset.sum_nonneg fun p hp => Finset.sum_nonneg fun q hq => ?_
    have w1 := GaussCheck.wt_pos (K := ℝ) nx hx.1 hx.2 p (Finset.mem_range.1 hp)
    have w2 := GaussCheck.wt_pos (K := ℝ) ny hy.1 hy.2 q (Finset.mem_range.1 hq)
    have w3 := sub_pos.2 dx'
    have w4 := sub_pos.2 dy'
    positivity
  refine lt_of_le_of_ne nn fun hz => ?_
  have := (gaussP_eq_zero hx hy P dx' dy' (g := fun _ _ _ _ => F 0 0) fun _ _ _ _ => hF.le).1 hz.symm 0 (by omega) 0
    (by omega)
  exact hF.ne' this

/-- Without displacements of the skin no panel does work. -/
theorem still (h : SolidBay E B R N) {p : Shell ℝ} (hp : p ∈ R.panels) {c v : ℕ → ℝ}
    (hv : ∀ k < C52.start R 0, v k = 0) : inState E.toEnv p c v = 0 := by
  obtain ⟨hm, hn⟩ := (C52.built h.terms h.rebuilt).terms.panels p hp
  have hu : u E.S p.panel 0 v 2 = fun _ _ => 0 := by
    funext x y
    unfold u
    refine Finset.sum_eq_zero fun i hi => Finset.sum_eq_zero fun j hj => ?_
    have hi : i < p.pan.m := Finset.mem_range.1 hi
    have hj : j < p.pan.n := Finset.mem_range.1 hj
    rw [hv, zero_mul]
    rw [C52.start_zero, ← hm, ← hn]
    show 0 + 3 * (j * p.pan.m + i) + 2 < _
    have : (j + 1) * p.pan.m ≤ p.pan.n * p.pan.m := Nat.mul_le_mul_right _ hj
    nlinarith
  unfold inState
  split
  · unfold stateWork gaussP gauss
    refine Finset.sum_eq_zero fun p _ => Finset.sum_eq_zero fun q _ => ?_
    simp [hu, C19.initialStress, dx, dy]
  · rfl

/-- A flange that the state stretches does work through its slopes; the bay has nothing of it. -/
theorem flanges_violated (h : SolidBay E B R N) (h1 : R.blade1 = []) (ho : ∀ p ∈ R.panels, p.forceOrtho = false)
    {n : ℕ} (hS : Hier E.S n) (hG : E.G = gaussTab ℝ) (hI : ∀ s ∈ R.blade2, Blade2Idle s) {i : ℕ} {s : Blade2 ℝ}
    {f : Shell ℝ} (hi : R.blade2[i]? = some s) (hf : s.flange = some f) (hP : AllFree f.panel)
    (hx : (xdom f.panel).1 < (xdom f.panel).2) (hy : (ydom f.panel).1 < (ydom f.panel).2)
    (hfo : f.forceOrtho = false) (hm : 4 ≤ f.pan.m ∧ f.pan.m ≤ n) (hn : 4 ≤ f.pan.n ∧ f.pan.n ≤ n)
    (hnx : max f.nx f.pan.m ≤ 64) (hny : max f.ny f.pan.n ≤ 64) :
    ∃ c v k B1 L t, B.calcKG E (some (.vec N c)) = .ok (k, B1) ∧
      f.calcKG E.toEnv { c := some (.vec (3 * f.pan.m * f.pan.n) fun j => c (C52.start R i + j)) } = .ok (L, t) ∧
      (∀ j < C52.start R i, v j = 0 ∧ c j = 0) ∧ Coo.quad k v = 0 ∧ 0 < Coo.quad L fun j => v (C52.start R i + j) := by
  obtain ⟨fa, fb, t, lam, hF⟩ := h.flange s (List.mem_of_getElem? hi) f hf
  have ha : f.pan.a ≠ 0 := by rw [fa]; exact h.sides.1.ne'
  obtain ⟨d, e, hd, e0, e1, e2⟩ := stretched hS hP (P := f.panel) ha fb.ne' hm.1 hm.2 hn.1 hn.2
  let up : (ℕ → ℝ) → ℕ → ℝ := fun g k => if C52.start R i ≤ k then g (k - C52.start R i) else 0
  have back : ∀ g, (fun j => up g (C52.start R i + j)) = g := fun g => by
    funext j
    simp [up]
  have low : ∀ g, ∀ j < C52.start R i, up g j = 0 := fun g j hj => if_neg (by omega)
  obtain ⟨k, B1, hk, hq⟩ := state_partial h h1 ho (up e)
  obtain ⟨L1, L0, -, c2, -⟩ := kG_slice E.toEnv f t hF.built (some (.vec (3 * f.pan.m * f.pan.n) e))
    (3 * f.pan.m * f.pan.n) 0 (by omega) (fun x hx => ⟨e, by cases hx; rfl⟩)
  have c2 : f.calcKG E.toEnv { c := some (.vec (3 * f.pan.m * f.pan.n) e) } = .ok (L0, t.fixR) := by
    simpa only [Option.map_some, sliceC, zero_add] using c2
  have hst := C52.start_mono R (Nat.zero_le i)
  refine ⟨up e, up d, k, B1, L0, t.fixR, hk, by rw [back]; exact c2, fun j hj => ⟨low _ j hj, low _ j hj⟩, ?_, ?_⟩
  · rw [hq]
    have z1 : (R.panels.map fun p => inState E.toEnv p (up e) (up d)).sum = 0 :=
      List.sum_eq_zero fun x hx => by
        obtain ⟨p, hp, rfl⟩ := List.mem_map.1 hx
        exact still h hp fun k hk => low _ k (by omega)
    have z2 : ((List.range R.blade2.length).map fun i =>
        given E.toEnv ((R.blade2[i]?).bind Blade2.flange) (C52.start R i) (up d)).sum = 0 :=
      List.sum_eq_zero fun x hx => by
        obtain ⟨j, hj, rfl⟩ := List.mem_map.1 hx
        have hj := List.mem_range.1 hj
        have hg := List.getElem?_eq_getElem hj
        obtain ⟨g, hg', -⟩ := h.has_flange hg
        obtain ⟨n1, n2, n3⟩ := hI _ (List.getElem_mem hj) g hg'
        simp [given, hg, hg', n1, n2, n3, slopeWork]
    rw [z1, z2, add_zero]
  · rw [back]
    have hF0 : 0 < lam.ABD 0 0 := by
      have := hF.laminate (fun s => if s = 0 then 1 else 0) ⟨0, by norm_num, by norm_num⟩
      simpa [dens, Finset.sum_range_succ] using this
    obtain ⟨n1, n2, n3⟩ := hI s (List.mem_of_getElem? hi) f hf
    rw [shell_kG_state h.smooth hF.built ha fb.ne' hF.kind hfo hF.hlam hF.sym e c2 d, hG]
    exact stretch_work ⟨by omega, hnx⟩ ⟨by omega, hny⟩ hx hy hF0 hd e0 e1 e2 fun i => by
      simp [membrane, n1, n2, n3]

/-! ## Bases -/

theorem loadBase_rebuild (E : BayEnv ℝ) (x y z : ℝ) (C : Bay ℝ) (s t : Blade2 ℝ) (h : Blade2.rebuild E C s = .ok t) :
    Blade2.rebuild E C (loadBase x y z s) = .ok (loadBase x y z t) := by
  unfold Blade2.rebuild at h
  obtain ⟨pq, h1, h⟩ := bind_ok.1 h
  obtain ⟨f, h2, h⟩ := bind_ok.1 h
  obtain ⟨b, h3, h⟩ := bind_ok.1 h
  cases h
  refine bind_ok.2 ⟨pq, h1, bind_ok.2 ⟨f, h2, ?_⟩⟩
  cases hb : s.base with
  | none =>
    rw [hb] at h3
    cases h3
    refine bind_ok.2 ⟨none, ?_, rfl⟩
    simp [loadBase, hb, optLam]
  | some g =>
    rw [hb] at h3
    obtain ⟨l, h4, h3⟩ := bind_ok.1 h3
    cases h3
    refine bind_ok.2 ⟨some { g with Nxx := x, Nyy := y, Nxy := z, lam := some l }, ?_, rfl⟩
    simp only [loadBase, hb, Option.map_some]
    exact bind_ok.2 ⟨l, h4, rfl⟩

theorem freeFlange_rebuild (E : BayEnv ℝ) (C : Bay ℝ) (s t : Blade2 ℝ) (h : Blade2.rebuild E C s = .ok t) :
    Blade2.rebuild E C (freeFlange s) = .ok (freeFlange t) := by
  unfold Blade2.rebuild at h
  obtain ⟨pq, h1, h⟩ := bind_ok.1 h
  obtain ⟨f, h2, h⟩ := bind_ok.1 h
  obtain ⟨b, h3, h⟩ := bind_ok.1 h
  cases h
  refine bind_ok.2 ⟨pq, h1, ?_⟩
  cases hf : s.flange with
  | none =>
    rw [hf] at h2
    cases h2
    refine bind_ok.2 ⟨none, ?_, bind_ok.2 ⟨b, h3, rfl⟩⟩
    simp [freeFlange, hf, optLam]
  | some g =>
    rw [hf] at h2
    obtain ⟨l, h4, h2⟩ := bind_ok.1 h2
    cases h2
    refine bind_ok.2 ⟨some { g with pan := freed g.pan, lam := some l }, ?_, bind_ok.2 ⟨b, h3, rfl⟩⟩
    simp only [freeFlange, hf, Option.map_some]
    exact bind_ok.2 ⟨l, h4, rfl⟩

/-- Loads on a shell stay with it. -/
theorem load_rebuild {E : Env ℝ} {s t : Shell ℝ} (x y z : ℝ) (h : s.rebuild E = .ok t) :
    Shell.rebuild E { s with Nxx := x, Nyy := y, Nxy := z } = .ok { t with Nxx := x, Nyy := y, Nxy := z } := by
  obtain ⟨h1, h2, h3, h4, lam, h5, rfl⟩ := (C54.rebuild_ok_iff E s t).1 h
  exact (C54.rebuild_ok_iff E _ _).2 ⟨h1, h2, h3, h4, lam, h5, rfl⟩

/-- So do edges. -/
theorem free_rebuild {E : Env ℝ} {s t : Shell ℝ} (h : s.rebuild E = .ok t) :
    Shell.rebuild E { s with pan := freed s.pan } = .ok { t with pan := freed t.pan } := by
  obtain ⟨h1, h2, h3, h4, lam, h5, rfl⟩ := (C54.rebuild_ok_iff E s t).1 h
  exact (C54.rebuild_ok_iff E _ _).2 ⟨h1, h2, h3, h4, lam, h5, rfl⟩

theorem load_width (x y z : ℝ) (s : Blade2 ℝ) : C52.width (loadBase x y z s) = C52.width s := rfl

theorem free_width (s : Blade2 ℝ) : C52.width (freeFlange s) = C52.width s := by
  cases hf : s.flange <;> simp [C52.width, freeFlange, hf, freed]

theorem load_start (x y z : ℝ) (R : Bay ℝ) (i : ℕ) :
    C52.start (changed (loadBase x y z) R) i = C52.start R i := by
  unfold C52.start
  simp only [changed, ← List.map_take, List.map_map]
  rfl

/-- A bay with loads on the bases of its 2D stiffeners. -/
theorem load_solid (x y z : ℝ) (h : SolidBay E B R N) :
    SolidBay E (changed (loadBase x y z) B) (changed (loadBase x y z) R) N := by
  obtain ⟨n1, n2, n3⟩ := (C52.size_iff R N).1 h.size
  refine ⟨h.exact, h.smooth, ⟨h.terms.panels, h.terms.base1, ?_⟩, h.panels,
    changed_rebuild (loadBase_rebuild E x y z) h.rebuilt, (C52.size_iff _ _).2 ⟨n1, ?_, ?_⟩, h.sides, h.skin, h.base1, ?_, ?_,
    h.beam⟩
  · intro s hs b hb
    obtain ⟨s, hs', rfl⟩ := List.mem_map.1 hs
    obtain ⟨b, hb', rfl⟩ := Option.map_eq_some_iff.1 hb
    exact h.terms.base2 s hs' b hb'
  · intro s hs
    obtain ⟨s, hs', rfl⟩ := List.mem_map.1 hs
    exact n2 s hs'
  · rw [n3]
    simp only [changed, List.map_map]
    rfl
  · intro s hs b hb
    obtain ⟨s, hs', rfl⟩ := List.mem_map.1 hs
    obtain ⟨b, hb', rfl⟩ := Option.map_eq_some_iff.1 hb
    obtain ⟨t, lam, k⟩ := h.base2 s hs' b hb'
    exact ⟨_, lam, k.plan, load_rebuild x y z k.built, k.hlam, k.sym, k.laminate, k.kind, k.unloaded, k.pos⟩
  · intro s hs f hf
    obtain ⟨s, hs', rfl⟩ := List.mem_map.1 hs
    exact h.flange s hs' f hf

/-- A bay with free flanges. -/
theorem free_solid (h : SolidBay E B R N) : SolidBay E (changed freeFlange B) (changed freeFlange R) N := by
  obtain ⟨n1, n2, n3⟩ := (C52.size_iff R N).1 h.size
  refine ⟨h.exact, h.smooth, ⟨h.terms.panels, h.terms.base1, ?_⟩, h.panels,
    changed_rebuild (freeFlange_rebuild E) h.rebuilt, (C52.size_iff _ _).2 ⟨n1, ?_, ?_⟩, h.sides, h.skin, h.base1, ?_, ?_,
    h.beam⟩
  · intro s hs b hb
    obtain ⟨s, hs', rfl⟩ := List.mem_map.1 hs
    exact h.terms.base2 s hs' b hb
  · intro s hs
    obtain ⟨s, hs', rfl⟩ := List.mem_map.1 hs
    obtain ⟨f, hf, hk⟩ := n2 s hs'
    exact ⟨{ f with pan := freed f.pan }, by simp only [freeFlange, hf, Option.map_some], hk⟩
  · rw [n3]
    simp only [changed, List.map_map, Function.comp_def, free_width]
  · intro s hs b hb
    obtain ⟨s, hs', rfl⟩ := List.mem_map.1 hs
    exact h.base2 s hs' b hb
  · intro s hs f hf
    obtain ⟨s, hs', rfl⟩ := List.mem_map.1 hs
    obtain ⟨f, hf', rfl⟩ := Option.map_eq_some_iff.1 hf
    obtain ⟨fa, fb, t, lam, k⟩ := h.flange s hs' f hf'
    exact ⟨fa, fb, _, lam, ⟨_, _, _, _, rfl⟩, free_rebuild k.built, k.hlam, k.sym, k.laminate, k.kind, k.unloaded, k.pos⟩

/-- Forces given on the bases do work in each base alone, and change nothing in the bay. -/
theorem bases_violated (h : SolidBay E B R N) (x y z : ℝ) :
    ∃ k B1 k' B1', B.calcKG E none = .ok (k, B1) ∧ (changed (loadBase x y z) B).calcKG E none = .ok (k', B1') ∧
      (∀ v, Coo.quad k' v = Coo.quad k v) ∧
      ∀ s ∈ (changed (loadBase x y z) R).blade2, ∀ b, s.base = some b → ∃ L t, b.calcKG E.toEnv {} = .ok (L, t) ∧
        ∀ v, Coo.quad L v = slopeWork E.S (bayPanel R 0) x y z v := by
  have h' := load_solid x y z h
  obtain ⟨k, B1, hk, Qp, Q1, e1, e2, e3⟩ := loads h
  obtain ⟨k', B1', hk', Qp', Q1', e1', e2', e3'⟩ := loads h'
  have e1' : List.Forall₂ (fun p => C52.Own (fun b => b.calcKG E.toEnv {}) 0 (some p)) R.panels Qp' := e1'
  have e2' : List.Forall₂ (C52.BeamG E R) R.blade1 Q1' := e2'
  refine ⟨k, B1, k', B1', hk, hk', fun v => ?_, fun s hs b hb => ?_⟩
  · obtain rfl : Qp = Qp' := forall₂_one (P := fun p => C52.Own (fun b => b.calcKG E.toEnv {}) 0 (some p))
      (fun _ _ _ => own_one) e1 e1'
    obtain rfl : Q1 = Q1' := forall₂_one (P := C52.BeamG E R) (fun _ _ _ => beamG_one) e2 e2'
    rw [e3, e3']
    congr 1
    rw [show (changed (loadBase x y z) R).blade2.length = R.blade2.length from List.length_map _]
    refine congrArg List.sum (List.map_congr_left fun i hi => ?_)
    rw [load_start]
    have e : (changed (loadBase x y z) R).blade2[i]? = (R.blade2[i]?).map (loadBase x y z) := List.getElem?_map ..
    rw [e]
    cases R.blade2[i]? <;> rfl
  · obtain ⟨t, lam, k⟩ := h'.base2 s hs b hb
    obtain ⟨L, L0, -, c, -⟩ := kG_slice E.toEnv b t k.built none (3 * b.pan.m * b.pan.n) 0 (by omega) (by simp)
    have c : b.calcKG E.toEnv {} = .ok (L0, t.fixR) := c
    obtain ⟨s, hs', rfl⟩ := List.mem_map.1 hs
    obtain ⟨b, hb, rfl⟩ := Option.map_eq_some_iff.1 hb
    refine ⟨L0, _, c, fun v => ?_⟩
    obtain ⟨x1, x2, y1, y2, e⟩ := k.plan
    have ea : b.pan.a = R.skin.a := by
      have := congrArg Panel.a e
      exact this
    have eb : b.pan.b = R.skin.b := by
      have := congrArg Panel.b e
      exact this
    rw [shell_kG_slope h.exact h.smooth k.built (show b.pan.a ≠ 0 by rw [ea]; exact h.sides.1.ne')
      (show b.pan.b ≠ 0 by rw [eb]; exact h.sides.2.ne') c, e]
    rfl

/-! ## Concrete cases -/

/-- With the loads on the bases of the bay of `C81`. -/
example : ∃ B, full = .ok B ∧ ∃ k B1 k' B1', B.calcKG env none = .ok (k, B1) ∧
    (changed (loadBase 1 2 3) B).calcKG env none = .ok (k', B1') ∧ ∀ v, Coo.quad k' v = Coo.quad k v := by
  obtain ⟨B, hB, R, N, h, -⟩ := full_solid
  obtain ⟨k, B1, k', B1', h1, h2, h3, -⟩ := bases_violated h 1 2 3
  exact ⟨B, hB, k, B1, k', B1', h1, h2, h3⟩

/-- The world of `C81` with the rules of the code. -/
noncomputable def envG : BayEnv ℝ := { env with G := gaussTab ℝ }

/-- A bay of two panels with a flange where they meet. -/
noncomputable def inner : Except Fail (Bay ℝ) :=
  (C102.two Witness.panel (1 / 4) 0 (1 / 3) (1 / 3) 1).addBlade2 envG (1 / 3) none none (some (1 / 3)) {} ply 4 6

theorem pieces : ∃ B R N, inner = .ok B ∧ B.panels ≠ [] ∧ B.rebuild envG = .ok R ∧ Ready envG R ∧
    R.getSize = .ok N ∧ (0 < R.skin.a ∧ 0 < R.skin.b) ∧ Curved R.r R.model ∧ R.blade1 = [] ∧
    (∀ p ∈ R.panels, p.forceOrtho = false) ∧ ∃ s f, R.blade2 = [s] ∧ s.flange = some f ∧ f.pan.m = 4 ∧ f.pan.n = 6 ∧
      f.nx = 8 ∧ f.ny = 12 ∧ f.forceOrtho = false ∧ (f.Nxx = 0 ∧ f.Nyy = 0 ∧ f.Nxy = 0) ∧ f.pan.a = 3 ∧ f.pan.b = 1 / 3 ∧
      f.pan.x1 = -1 ∧ f.pan.y1 = -1 ∧ ∀ p ∈ R.panels, p.Nxx = 0 ∧ p.Nyy = 0 ∧ p.Nxy = 0 := by
  refine ⟨_, _, _, bind_ok.2 ⟨_, rfl, bind_ok.2 ⟨_, rfl, bind_ok.2 ⟨_, C102.found_left _ _ rfl rfl,
      bind_ok.2 ⟨_, rfl, bind_ok.2 ⟨_, rfl, bind_ok.2 ⟨_, bind_ok.2 ⟨_, C102.pair_of rfl rfl ⟨rfl, rfl, rfl, rfl⟩, rfl⟩,
        rfl⟩⟩⟩⟩⟩⟩, List.cons_ne_nil _ _,
    bind_ok.2 ⟨_, rfl, bind_ok.2 ⟨_, rfl, bind_ok.2 ⟨_,
      bind_ok.2 ⟨_, bind_ok.2 ⟨_, C102.pair_of rfl rfl ⟨rfl, rfl, rfl, rfl⟩, rfl⟩, rfl⟩, rfl⟩⟩⟩, ?_, rfl,
    ?_, ?_, rfl, ?_, _, _, rfl, rfl, rfl, rfl, rfl, rfl, rfl, ⟨rfl, rfl, rfl⟩, rfl, rfl, rfl, rfl, ?_⟩
  · refine ⟨fun s hs => (by cases hs), fun s hs b hb => ?_, fun s hs b hb => ?_⟩ <;>
      obtain rfl := List.mem_singleton.1 hs <;> cases hb
    exact ⟨_, rfl⟩
  · show 0 < (3 : ℝ) ∧ 0 < (1 : ℝ)
    norm_num
  · exact .inr ⟨5, by norm_num, rfl, rfl⟩
  · intro p hp
    rcases List.mem_pair.1 hp with rfl | rfl <;> rfl
  · intro p hp
    rcases List.mem_pair.1 hp with rfl | rfl <;> exact ⟨rfl, rfl, rfl⟩

theorem inner_solid {B R : Bay ℝ} {N : ℕ} (hB : inner = .ok B) (hne : B.panels ≠ []) (hR : B.rebuild envG = .ok R)
    (hN : R.getSize = .ok N) (hs : 0 < R.skin.a ∧ 0 < R.skin.b) (hr : Ready envG R) (hk : Curved R.r R.model)
    (h1 : R.blade1 = []) : SolidBay envG B R N := by
  have hS : Shaped B := by
    unfold inner at hB
    exact shaped_addBlade2 (shaped_addPanel (shaped_addPanel (shaped_empty rfl rfl rfl) ..) ..) _ _ _ (by norm_num)
      _ _ _ _ hB
  exact C81.solid (E := envG) (Tab.of_exact _ _) bardellShape_C2 env_good hS hne hR hN hs hr hk
    (fun s hs => by rw [h1] at hs; cases hs)

/-- About the state where every amplitude is its number. -/
example : ∃ B R N, inner = .ok B ∧ R.blade2.length = 1 ∧ ∃ k B1, B.calcKG envG (some (.vec N fun j => (j : ℝ))) = .ok (k, B1) ∧
    ∀ v, Coo.quad k v = (R.panels.map fun p => inState envG.toEnv p (fun j => (j : ℝ)) v).sum
      + ((List.range R.blade2.length).map fun i =>
          given envG.toEnv ((R.blade2[i]?).bind Blade2.flange) (C52.start R i) v).sum := by
  obtain ⟨B, R, N, hB, hne, hR, hr, hN, hs, hk, h1, ho, s, f, h2, -⟩ := pieces
  exact ⟨B, R, N, hB, by rw [h2]; rfl, state_partial (inner_solid hB hne hR hN hs hr hk h1) h1 ho _⟩

/-- A bay with a 1D stiffener. -/
example : ∃ B, bare.addBlade1 env (1 / 2) none (some (1 / 2)) (some (1 / 3)) ply ply = .ok B ∧
    ∀ c x, B.calcKG env (some c) ≠ .ok x := by
  have hp : bare.pair 0 1 = .ok _ := if_pos ⟨rfl, rfl, rfl, rfl⟩
  exact ⟨_, bind_ok.2 ⟨_, rfl, bind_ok.2 ⟨_, rfl, bind_ok.2 ⟨_, found _ rfl rfl,
    bind_ok.2 ⟨_, bind_ok.2 ⟨_, hp, rfl⟩, rfl⟩⟩⟩⟩, fun c x => beams_violated (List.cons_ne_nil _ _) c x⟩

/-- With its flange free, the stretched flange is not seen. -/
example : ∃ B R N, inner = .ok B ∧ SolidBay envG (changed freeFlange B) (changed freeFlange R) N ∧
    ∃ s f, (changed freeFlange R).blade2[0]? = some s ∧ s.flange = some f ∧
    ∃ c v k B1 L t, (changed freeFlange B).calcKG envG (some (.vec N c)) = .ok (k, B1) ∧
      f.calcKG envG.toEnv { c := some (.vec (3 * f.pan.m * f.pan.n) fun j => c (C52.start (changed freeFlange R) 0 + j)) }
        = .ok (L, t) ∧ Coo.quad k v = 0 ∧ 0 < Coo.quad L fun j => v (C52.start (changed freeFlange R) 0 + j) := by
  obtain ⟨B, R, N, hB, hne, hR, hr, hN, hs, hk, h1, ho, s, f, h2, hf, hm, hn, hnx, hny, hfo, hl, ha, hb, hx, hy, -⟩ := pieces
  have h := inner_solid hB hne hR hN hs hr hk h1
  have h' := free_solid h
  have e2 : (changed freeFlange R).blade2 = [freeFlange s] := by simp only [changed, h2, List.map_cons, List.map_nil]
  have ef : (freeFlange s).flange = some { f with pan := freed f.pan } := by simp only [freeFlange, hf, Option.map_some]
  have e0 : (changed freeFlange R).blade2[0]? = some (freeFlange s) := by rw [e2]; rfl
  obtain ⟨c, v, k, B1, L, t, c1, c2, -, c3, c4⟩ := flanges_violated h' h1 ho (exact_hier 7) rfl (fun s' hs' g hg => by
      rw [e2] at hs'
      cases List.mem_singleton.1 hs'
      rw [ef] at hg
      cases hg
      exact hl) e0 ef (fun c hc => by interval_cases c <;> exact ⟨rfl, rfl⟩)
    (by
      have : xdom (Shell.panel { f with pan := freed f.pan }) = (0, 3) := by
        simp [xdom, Shell.panel, freed, hx, ha]
      rw [this]
      norm_num)
    (by
      have : ydom (Shell.panel { f with pan := freed f.pan }) = (0, 1 / 3) := by
        simp [ydom, Shell.panel, freed, hy, hb]
      rw [this]
      norm_num) hfo
    ⟨by show 4 ≤ f.pan.m; omega, by show f.pan.m ≤ 7; omega⟩ ⟨by show 4 ≤ f.pan.n; omega, by show f.pan.n ≤ 7; omega⟩
    (by show max f.nx f.pan.m ≤ 64; omega) (by show max f.ny f.pan.n ≤ 64; omega)
  exact ⟨B, R, N, hB, h', _, _, e0, ef, c, v, k, B1, L, t, c1, c2, c3, c4⟩

end Verif.C106
