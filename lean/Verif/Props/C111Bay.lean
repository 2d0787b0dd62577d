import Verif.Props.C111

/-!
# C111: pre-stressed bays

The same for stiffened bays, with the constant forces in the skin and in the flanges of the 2D stiffeners.  The bases
have none, as `calc_kG` of a bay leaves their forces out (`C106.bases_violated`), and the 1D stiffeners carry no force,
as they have no constant one.
-/

set_option linter.unusedSectionVars false

namespace Verif.C111

open Model Spec Indep

/-- A change of the forces of a panel. -/
structure Loads (g : Shell ℝ → Shell ℝ) : Prop where
  rebuild : ∀ {E : Env ℝ} {s t : Shell ℝ}, s.rebuild E = .ok t → (g s).rebuild E = .ok (g t)
  pan : ∀ s, (g s).pan = s.pan
  model : ∀ s, (g s).model = s.model
  radius : ∀ s, (g s).r = s.r
  plyts : ∀ s, (g s).plyts = s.plyts
  stack : ∀ s, (g s).stack = s.stack
  laminaprops : ∀ s, (g s).laminaprops = s.laminaprops
  lam : ∀ s l, g { s with lam := l } = { g s with lam := l }

theorem rebuild_pre {E : Env ℝ} {s t : Shell ℝ} (r : ℝ) (ht : s.rebuild E = .ok t) : (pre r s).rebuild E = .ok (pre r t) := by
  have := rebuild_held (r * s.Nxx) (r * s.Nyy) (r * s.Nxy) ht
  obtain ⟨-, -, -, -, _, -, rfl⟩ := (C54.rebuild_ok_iff E _ _).1 ht
  exact this

theorem loads_pre (r : ℝ) : Loads (pre r) :=
  ⟨rebuild_pre r, fun _ => rfl, fun _ => rfl, fun _ => rfl, fun _ => rfl, fun _ => rfl, fun _ => rfl, fun _ _ => rfl⟩

/-- The 2D stiffener with its flange changed. -/
def onFlange (g : Shell ℝ → Shell ℝ) (s : Blade2 ℝ) : Blade2 ℝ := { s with flange := s.flange.map g }

/-- The bay with its skin and the flanges changed. -/
def onBay (g : Shell ℝ → Shell ℝ) (B : Bay ℝ) : Bay ℝ :=
  { B with panels := B.panels.map g, blade2 := B.blade2.map (onFlange g) }

section
variable {E : BayEnv ℝ} {B R : Bay ℝ} {N : ℕ} {g : Shell ℝ → Shell ℝ}

theorem pair_on (hg : Loads g) {B B' : Bay ℝ} (hp : B'.panels = B.panels.map g) {i j : ℕ} {pq : Shell ℝ × Shell ℝ}
    (h : B.pair i j = .ok pq) : B'.pair i j = .ok (g pq.1, g pq.2) := by
  unfold Bay.pair at h ⊢
  rw [hp, List.getElem?_map, List.getElem?_map]
  cases hi : B.panels[i]? with
  | none => rw [hi] at h; cases h
  | some p =>
    cases hj : B.panels[j]? with
    | none => rw [hi, hj] at h; cases h
    | some q =>
      rw [hi, hj] at h
      simp only [Option.map_some, hg.model, hg.pan, hg.radius] at h ⊢
      split at h
      · next c =>
        rw [if_pos c]
        cases h
        rfl
      · cases h

theorem thick_on (hg : Loads g) (p q : Shell ℝ) : skinThick (g p) (g q) = skinThick p q := by
  unfold skinThick
  rw [hg.plyts, hg.plyts]

theorem blade1_on (hg : Loads g) {B B' : Bay ℝ} (hp : B'.panels = B.panels.map g) (hs : B'.skin = B.skin) (hr : B'.r = B.r)
    {s t : Blade1 ℝ} (h : s.rebuild E B = .ok t) : s.rebuild E B' = .ok t := by
  unfold Blade1.rebuild at h ⊢
  obtain ⟨pq, h1, h⟩ := bind_ok.1 h
  refine bind_ok.2 ⟨_, pair_on hg hp h1, ?_⟩
  simp only [thick_on hg]
  refine Eq.trans ?_ h
  unfold Blade1.freshBase Bay.newBase
  rw [hs, hr]

theorem blade2_on (hg : Loads g) {B B' : Bay ℝ} (hp : B'.panels = B.panels.map g)
    {s t : Blade2 ℝ} (h : s.rebuild E B = .ok t) : (onFlange g s).rebuild E B' = .ok (onFlange g t) := by
  unfold Blade2.rebuild at h
  obtain ⟨pq, h1, h⟩ := bind_ok.1 h
  obtain ⟨f, h2, h⟩ := bind_ok.1 h
  obtain ⟨b, h3, h⟩ := bind_ok.1 h
  cases h
  unfold Blade2.rebuild
  refine bind_ok.2 ⟨_, pair_on hg hp h1, ?_⟩
  simp only [thick_on hg]
  cases hf : s.flange with
  | none =>
    rw [hf] at h2
    cases h2
    refine bind_ok.2 ⟨none, ?_, bind_ok.2 ⟨b, h3, rfl⟩⟩
    simp [onFlange, hf, optLam]
  | some a =>
    rw [hf] at h2
    obtain ⟨l, h4, h2⟩ := bind_ok.1 h2
    cases h2
    refine bind_ok.2 ⟨some (g { a with lam := some l }), ?_, bind_ok.2 ⟨b, h3, rfl⟩⟩
    rw [hg.lam a (some l), show (onFlange g s).flange = some (g a) by simp only [onFlange, hf, Option.map_some]]
    refine bind_ok.2 ⟨l, ?_, rfl⟩
    simp only [hg.stack, hg.plyts, hg.laminaprops]
    exact h4

theorem panels_on (hg : Loads g) {E : Env ℝ} : ∀ {m m' : Option String} {l l' : List (Shell ℝ)},
    rebuildPanels E m l = .ok (m', l') → rebuildPanels E m (l.map g) = .ok (m', l'.map g)
  | m, m', [], l', h => by cases h; rfl
  | m, m', p :: l, l', h => by
    unfold rebuildPanels at h
    obtain ⟨q, h1, h⟩ := bind_ok.1 h
    rw [List.map_cons]
    unfold rebuildPanels
    refine bind_ok.2 ⟨_, hg.rebuild h1, ?_⟩
    rw [hg.model]
    cases m with
    | none =>
      obtain ⟨⟨m1, l1⟩, h2, h⟩ := bind_ok.1 h
      cases h
      exact bind_ok.2 ⟨_, panels_on hg h2, rfl⟩
    | some x =>
      simp only at h ⊢
      split at h
      · cases h
      · next c =>
        rw [if_neg c]
        obtain ⟨⟨m1, l1⟩, h2, h⟩ := bind_ok.1 h
        cases h
        exact bind_ok.2 ⟨_, panels_on hg h2, rfl⟩

theorem mapE_on {α : Type} {F F' : α → Except Fail α} {k : α → α} (hk : ∀ a b, F a = .ok b → F' (k a) = .ok (k b)) :
    ∀ {l l' : List α}, mapE F l = .ok l' → mapE F' (l.map k) = .ok (l'.map k)
  | [], l', h => by cases h; rfl
  | a :: l, l', h => by
    obtain ⟨b, h1, h⟩ := bind_ok.1 h
    obtain ⟨bs, h2, h⟩ := bind_ok.1 h
    cases h
    exact bind_ok.2 ⟨_, hk a b h1, bind_ok.2 ⟨_, mapE_on hk h2, rfl⟩⟩

theorem rebuild_on (hg : Loads g) (h : B.rebuild E = .ok R) : (onBay g B).rebuild E = .ok (onBay g R) := by
  unfold Bay.rebuild at h
  obtain ⟨⟨m, ps⟩, h1, h⟩ := bind_ok.1 h
  obtain ⟨b1, h2, h⟩ := bind_ok.1 h
  obtain ⟨b2, h3, h⟩ := bind_ok.1 h
  cases h
  refine bind_ok.2 ⟨_, panels_on hg h1, bind_ok.2 ⟨b1, ?_, bind_ok.2 ⟨_,
    mapE_on (fun s t => blade2_on hg rfl) h3, rfl⟩⟩⟩
  have := mapE_on (F' := Blade1.rebuild E { onBay g B with model := m, panels := ps.map g }) (k := id)
    (fun s t (e : Blade1.rebuild E { B with model := m, panels := ps } s = .ok t) =>
      blade1_on (B := { B with model := m, panels := ps }) (B' := { onBay g B with model := m, panels := ps.map g })
        hg rfl rfl rfl e) h2
  rwa [List.map_id, List.map_id] at this

theorem width_on (hg : Loads g) (s : Blade2 ℝ) : C52.width (onFlange g s) = C52.width s := by
  cases hf : s.flange <;> simp [C52.width, onFlange, hf, hg.pan]

theorem start_on (hg : Loads g) (R : Bay ℝ) (i : ℕ) : C52.start (onBay g R) i = C52.start R i := by
  unfold C52.start
  simp only [onBay, ← List.map_take, List.map_map, Function.comp_def, width_on hg]

theorem size_on (hg : Loads g) (h : R.getSize = .ok N) : (onBay g R).getSize = .ok N := by
  obtain ⟨n1, n2, n3⟩ := (C52.size_iff R N).1 h
  refine (C52.size_iff _ _).2 ⟨n1, ?_, ?_⟩
  · intro s hs
    obtain ⟨s, hs', rfl⟩ := List.mem_map.1 hs
    obtain ⟨f, hf, hk⟩ := n2 s hs'
    exact ⟨g f, by simp only [onFlange, hf, Option.map_some], by rwa [hg.model]⟩
  · rw [n3]
    simp only [onBay, List.map_map, Function.comp_def, width_on hg]

theorem terms_on (hg : Loads g) (h : C52.Terms B) : C52.Terms (onBay g B) := by
  refine ⟨?_, h.base1, ?_⟩
  · intro p hp
    obtain ⟨p, hp', rfl⟩ := List.mem_map.1 hp
    rw [hg.pan]
    exact h.panels p hp'
  · intro s hs b hb
    obtain ⟨s, hs', rfl⟩ := List.mem_map.1 hs
    exact h.base2 s hs' b hb

theorem ready_on (hg : Loads g) (h : Ready E R) : Ready E (onBay g R) := by
  refine ⟨h.base1, ?_, ?_⟩
  · intro s hs b hb
    obtain ⟨s, hs', rfl⟩ := List.mem_map.1 hs
    exact h.base2 s hs' b hb
  · intro s hs f hf
    obtain ⟨s, hs', rfl⟩ := List.mem_map.1 hs
    obtain ⟨f, hf', rfl⟩ := Option.map_eq_some_iff.1 hf
    obtain ⟨t, ht⟩ := h.flange s hs' f hf'
    exact ⟨_, hg.rebuild ht⟩

/-! ## The parts -/

theorem own_pre {E : Env ℝ} {off : ℕ} {o : Option (Shell ℝ)} (ho : ∀ b, o = some b → ∃ t, b.rebuild E = .ok t) {r : ℝ}
    {q' q qG : (ℕ → ℝ) → ℝ} (h' : C52.Own (fun b => b.calcKC E {}) off (o.map (pre r)) q')
    (h : C52.Own (fun b => b.calcKC E {}) off (o.map (pre 0)) q) (hG : C52.Own (fun b => b.calcKG E {}) off o qG)
    (v : ℕ → ℝ) : q' v = q v + r * qG v := by
  cases o with
  | none => rw [show q' v = 0 from h' v, show q v = 0 from h v, show qG v = 0 from hG v, mul_zero, add_zero]
  | some b =>
    obtain ⟨t, ht⟩ := ho b rfl
    obtain ⟨K, G, e1, e2, -, -, e3⟩ := panel ht (A := {}) ⟨fun x hx => (by cases hx), fun x hx => (by cases hx),
      fun x hx => (by cases hx), by simp [C38.sizeOf], by simp [C38.sizeOf]⟩ rfl rfl rfl
    obtain ⟨K', e4, -, e5⟩ := e3 r
    obtain ⟨L, u, a1, a2⟩ := h'
    obtain ⟨L0, u0, b1, b2⟩ := h
    obtain ⟨LG, uG, c1, c2⟩ := hG
    cases e1.symm.trans b1
    cases e2.symm.trans c1
    cases e4.symm.trans a1
    rw [a2, b2, c2, e5]

theorem joint_pre (hb : C52.Built E R) (hr : Ready E R) {off : ℕ} {s : Blade2 ℝ} (hs : s ∈ R.blade2) {r : ℝ}
    {q : (ℕ → ℝ) → ℝ} (h : C52.Joint E (onBay (pre r) R) off (onFlange (pre r) s) q) : C52.Joint E R off s q := by
  unfold C52.Joint at h ⊢
  cases hf : s.flange with
  | none =>
    simp only [onFlange, hf, Option.map_none] at h
    exact h
  | some f =>
    simp only [onFlange, hf, Option.map_some] at h
    obtain ⟨p, p', f', l1, l2, kt, kr, a1, a2, a3, a4, a5, a6, w⟩ := h
    obtain ⟨tf, htf⟩ := hr.flange s hs f hf
    cases a3.symm.trans (rebuild_pre r htf)
    cases hbase : s.base with
    | some b =>
      rw [hbase] at a1
      exact ⟨p, p', tf, l1, l2, kt, kr, a1, a2, htf, a4, a5, a6, w⟩
    | none =>
      rw [hbase] at a1
      have a1 : (R.panels.map (pre r))[s.panel1]? = some p := a1
      rw [List.getElem?_map] at a1
      obtain ⟨p0, e, rfl⟩ := Option.map_eq_some_iff.1 a1
      have e0 := hb.panels p0 (List.mem_of_getElem? e)
      cases a2.symm.trans (rebuild_pre r e0)
      exact ⟨p0, p0, tf, l1, l2, kt, kr, e, e0, htf, a4, a5, a6, w⟩

theorem beam_zero {s : Blade1 ℝ} (hF : s.Fx.getD 0 = 0) {q : (ℕ → ℝ) → ℝ} (h : C52.BeamG E R s q) (v : ℕ → ℝ) : q v = 0 := by
  unfold C52.BeamG at h
  cases hs : s.sec with
  | none =>
    rw [hs] at h
    exact h v
  | some c =>
    rw [hs] at h
    rw [h v, hF]
    have e : fkGf E.S E.I R.skin s.ys 0 0 0 = scale 0 (fkGf E.S E.I R.skin s.ys 0 0 0) := by
      unfold fkGf
      rw [scale_pad]
      refine congrArg _ ?_
      refine scale_symBuild (fun i k j l α β => ?_) ..
      unfold Gen.Blade1D.fkGf
      split
      · unfold Gen.Blade1D.fkGf_22
        ring
      · ring
    rw [e, scale_finalizeSym, quad_scale, zero_mul]

theorem sum_index {Q' Q G : List ((ℕ → ℝ) → ℝ)} {r : ℝ} {v : ℕ → ℝ} (h1 : Q'.length = Q.length) (h2 : Q.length = G.length)
    (h : ∀ (i : ℕ) (a b c : (ℕ → ℝ) → ℝ), Q'[i]? = some a → Q[i]? = some b → G[i]? = some c → a v = b v + r * c v) :
    (Q'.map fun q => q v).sum = (Q.map fun q => q v).sum + r * (G.map fun q => q v).sum := by
  induction Q' generalizing Q G with
  | nil =>
    cases Q with
    | nil =>
      cases G with
      | nil => simp
      | cons c G => cases h2
    | cons b Q => cases h1
  | cons a Q' ih =>
    cases Q with
    | nil => cases h1
    | cons b Q =>
      cases G with
      | nil => cases h2
      | cons c G =>
        simp only [List.map_cons, List.sum_cons]
        rw [h 0 a b c rfl rfl rfl, ih (by simpa using h1) (by simpa using h2) fun i x y z hx hy hz =>
          h (i + 1) x y z hx hy hz]
        ring

theorem forall₂_at {α β : Type} {P : α → β → Prop} {l : List α} {Q : List β} (h : List.Forall₂ P l Q) {i : ℕ} {b : β}
    (hb : Q[i]? = some b) : ∃ a, l[i]? = some a ∧ P a b := by
  induction h generalizing i with
  | nil => cases hb
  | cons h1 h2 ih =>
    cases i with
    | zero => cases hb; exact ⟨_, rfl, h1⟩
    | succ i => exact ih hb

/-- **C111, bays.** -/
theorem bay (hT : C52.Terms B) (hne : B.panels ≠ []) (hR : B.rebuild E = .ok R) (hN : R.getSize = .ok N)
    (hr : Ready E R) (hF : ∀ s ∈ R.blade1, s.Fx.getD 0 = 0) :
    ∃ K G w g, (onBay (pre 0) B).calcKC E = .ok (K, w) ∧ B.calcKG E none = .ok (G, g) ∧ C80.Sym K ∧ C80.Sym G ∧
      ∀ r, ∃ K' w', (onBay (pre r) B).calcKC E = .ok (K', w') ∧ Shifted K' K G r ∧ Results K' K G r := by
  have hb := C52.built hT hR
  have key := fun r => C57.kC_exists E (onBay (pre r) B) _ N (terms_on (loads_pre r) hT)
    (by simpa [onBay] using hne) (rebuild_on (loads_pre r) hR) (size_on (loads_pre r) hN) (ready_on (loads_pre r) hr)
  obtain ⟨⟨G, g⟩, hG⟩ := C57.kG_exists E B R N hT hne hR hN hr
  obtain ⟨R1, N1, g1, g2, Gp, G1, G2, gp, gb, gl, gf, ge⟩ := C52.kG_energy E B g G hT hG
  cases hR.symm.trans g1
  obtain ⟨⟨K, w⟩, hK⟩ := key 0
  have sK := C81.symmetric.1 hK
  have sG := C81.symmetric.2.1 _ hG
  refine ⟨K, G, w, g, hK, hG, sK, sG, fun r => ?_⟩
  obtain ⟨⟨K', w'⟩, hK'⟩ := key r
  have hs : Shifted K' K G r := fun i j => by
    refine (C110.entry_mix (C81.symmetric.1 hK') sK sG (r := 1) (s := r) (fun v => ?_) i j).trans (by rw [one_mul])
    obtain ⟨R2, N2, a1, a2, Ap, A1, A2, ap, ab, al, af, ae⟩ := C52.kC_energy E _ _ _ (terms_on (loads_pre r) hT) hK'
    cases (rebuild_on (loads_pre r) hR).symm.trans a1
    obtain ⟨R3, N3, b1, b2, Bp, B1, B2, bp, bb, bl, bf, be⟩ := C52.kC_energy E _ _ _ (terms_on (loads_pre 0) hT) hK
    cases (rebuild_on (loads_pre 0) hR).symm.trans b1
    have lp : (onBay (pre r) R).panels.length = R.panels.length := List.length_map _
    have lp0 : (onBay (pre 0) R).panels.length = R.panels.length := List.length_map _
    have l2 : (onBay (pre r) R).blade2.length = R.blade2.length := List.length_map _
    have l20 : (onBay (pre 0) R).blade2.length = R.blade2.length := List.length_map _
    have e1 : (Ap.map fun q => q v).sum = (Bp.map fun q => q v).sum + r * (Gp.map fun q => q v).sum := by
      refine sum_index (by rw [← ap.length_eq, ← bp.length_eq, lp, lp0]) (by rw [← bp.length_eq, ← gp.length_eq, lp0])
        fun i a b c ha hb' hc => ?_
      obtain ⟨x, hx, x1⟩ := forall₂_at ap ha
      obtain ⟨y, hy, y1⟩ := forall₂_at bp hb'
      obtain ⟨p, hp, p1⟩ := forall₂_at gp hc
      have hx : (R.panels.map (pre r))[i]? = some x := hx
      have hy : (R.panels.map (pre 0))[i]? = some y := hy
      rw [List.getElem?_map, hp] at hx hy
      cases hx
      cases hy
      exact own_pre (o := some p) (fun q hq => ⟨q, by cases hq; exact hb.panels p (List.mem_of_getElem? hp)⟩) x1 y1 p1 v
    have e2 : (A1.map fun q => q v).sum = (B1.map fun q => q v).sum + r * (G1.map fun q => q v).sum := by
      refine sum_index (by rw [← ab.length_eq, ← bb.length_eq]; rfl) (by rw [← bb.length_eq, ← gb.length_eq]; rfl)
        fun i a b c ha hb' hc => ?_
      obtain ⟨x, hx, x1⟩ := forall₂_at ab ha
      obtain ⟨y, hy, y1⟩ := forall₂_at bb hb'
      obtain ⟨p, hp, p1⟩ := forall₂_at gb hc
      have hx : R.blade1[i]? = some x := hx
      have hy : R.blade1[i]? = some y := hy
      obtain rfl : p = x := Option.some.inj (hp.symm.trans hx)
      obtain rfl : p = y := Option.some.inj (hp.symm.trans hy)
      rw [blade1C_one x1 y1, beam_zero (hF p (List.mem_of_getElem? hp)) p1, mul_zero, add_zero]
    have e3 : (A2.map fun q => q v).sum = (B2.map fun q => q v).sum + r * (G2.map fun q => q v).sum := by
      refine sum_index (by rw [al, bl, l2, l20]) (by rw [bl, gl, l20]) fun i a b c ha hb' hc => ?_
      have hi : i < R.blade2.length := by
        rw [← gl]
        exact (List.getElem?_eq_some_iff.1 hc).1
      have hm := List.getElem?_eq_getElem hi
      have mem := List.getElem_mem hi
      obtain ⟨x1, x2, x3, u1, u2, u3, u4⟩ := af i (onFlange (pre r) R.blade2[i]) a (by simp [onBay, hm]) ha
      obtain ⟨y1, y2, y3, v1, v2, v3, v4⟩ := bf i (onFlange (pre 0) R.blade2[i]) b (by simp [onBay, hm]) hb'
      have z := gf i _ c hm hc
      rw [start_on (loads_pre _)] at u2 u3 v2 v3
      have j1 := joint_pre hb hr mem u3
      have j2 := joint_pre hb hr mem v3
      rw [u4, v4, show x1 = y1 from own_one u1 v1, joint_one j1 j2,
        own_pre (fun f hf => hr.flange _ mem f hf) u2 v2 z v]
      ring
    rw [ae, be, ge, e1, e2, e3]
    ring
  exact ⟨K', w', hK', hs, results hs sK sG⟩

end

/-! ## A concrete case -/

theorem loads_load (x y z : ℝ) : Loads fun s => { s with Nxx := x, Nyy := y, Nxy := z } :=
  ⟨C106.load_rebuild x y z, fun _ => rfl, fun _ => rfl, fun _ => rfl, fun _ => rfl, fun _ => rfl, fun _ => rfl, fun _ _ => rfl⟩

/-- The hypotheses of `bay`: a bay of two panels with a flange where they meet, pressed along `x`. -/
example : ∃ B C, C106.inner = .ok B ∧ C = onBay (fun s => { s with Nxx := -2, Nyy := 0, Nxy := 1 }) B ∧
    ∃ K G w g, (onBay (pre 0) C).calcKC C106.envG = .ok (K, w) ∧ C.calcKG C106.envG none = .ok (G, g) ∧ C80.Sym K ∧
      C80.Sym G ∧ ∀ r, ∃ K' w', (onBay (pre r) C).calcKC C106.envG = .ok (K', w') ∧ Shifted K' K G r ∧ Results K' K G r := by
  obtain ⟨B, R, N, hB, hne, hR, hr, hN, hs, hk, h1, -⟩ := C106.pieces
  have hg := loads_load (-2) 0 1
  have h := C106.inner_solid hB hne hR hN hs hr hk h1
  exact ⟨B, _, hB, rfl, bay (terms_on hg h.terms) (by simpa [onBay] using hne) (rebuild_on hg hR) (size_on hg hN)
    (ready_on hg hr) fun s hs => by
      rw [show (onBay _ R).blade1 = R.blade1 from rfl, h1] at hs
      cases hs⟩

end Verif.C111
