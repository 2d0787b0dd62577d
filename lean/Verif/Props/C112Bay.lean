import Verif.Props.C111Bay
import Verif.Props.C112

/-!
# C112: combined loads of bays

The same for stiffened bays: each panel of the skin, each flange of a 2D stiffener and each 1D stiffener has its own
forces.
-/

set_option linter.unusedSectionVars false

namespace Verif.C112

open Model Spec Indep C111

theorem loads_load (n : ℝ × ℝ × ℝ) : Loads (load n) :=
  ⟨load_rebuild n, fun _ => rfl, fun _ => rfl, fun _ => rfl, fun _ => rfl, fun _ => rfl, fun _ => rfl, fun _ _ => rfl⟩

/-- Forces of the panels, of the flanges and of the 1D stiffeners of a bay, by number. -/
abbrev Forces : Type := (ℕ → ℝ × ℝ × ℝ) × (ℕ → ℝ × ℝ × ℝ) × (ℕ → ℝ)

/-- The 1D stiffener with the force `x`. -/
def push (x : ℝ) (s : Blade1 ℝ) : Blade1 ℝ := { s with Fx := some x }

/-- The bay with forces `n`. -/
def laden (n : Forces) (B : Bay ℝ) : Bay ℝ :=
  { B with
    panels := B.panels.mapIdx fun i => load (n.1 i)
    blade1 := B.blade1.mapIdx fun i => push (n.2.2 i)
    blade2 := B.blade2.mapIdx fun i => onFlange (load (n.2.1 i)) }

section
variable {E : BayEnv ℝ} {B R : Bay ℝ} {N : ℕ}

theorem pair_laden {g : ℕ → Shell ℝ → Shell ℝ} (hg : ∀ i, Loads (g i)) {B B' : Bay ℝ} (hp : B'.panels = B.panels.mapIdx g)
    {i j : ℕ} {pq : Shell ℝ × Shell ℝ} (h : B.pair i j = .ok pq) : B'.pair i j = .ok (g i pq.1, g j pq.2) := by
  unfold Bay.pair at h ⊢
  rw [hp, List.getElem?_mapIdx, List.getElem?_mapIdx]
  cases hi : B.panels[i]? with
  | none => rw [hi] at h; cases h
  | some p =>
    cases hj : B.panels[j]? with
    | none => rw [hi, hj] at h; cases h
    | some q =>
      rw [hi, hj] at h
      simp only [Option.map_some, (hg i).model, (hg i).pan, (hg i).radius, (hg j).model, (hg j).pan, (hg j).radius] at h ⊢
      split at h
      · next c =>
        rw [if_pos c]
        cases h
        rfl
      · cases h

theorem thick_laden {g g' : Shell ℝ → Shell ℝ} (hg : Loads g) (hg' : Loads g') (p q : Shell ℝ) :
    skinThick (g p) (g' q) = skinThick p q := by
  unfold skinThick
  rw [hg.plyts, hg'.plyts]

theorem blade1_laden {g : ℕ → Shell ℝ → Shell ℝ} (hg : ∀ i, Loads (g i)) {B B' : Bay ℝ}
    (hp : B'.panels = B.panels.mapIdx g) (hs : B'.skin = B.skin) (hr : B'.r = B.r) (x : ℝ) {s t : Blade1 ℝ}
    (h : s.rebuild E B = .ok t) : (push x s).rebuild E B' = .ok (push x t) := by
  unfold Blade1.rebuild at h ⊢
  obtain ⟨pq, h1, h⟩ := bind_ok.1 h
  obtain ⟨pl, h2, h⟩ := bind_ok.1 h
  obtain ⟨b, h3, h⟩ := bind_ok.1 h
  obtain ⟨bf, h4, h⟩ := bind_ok.1 h
  obtain ⟨c, h5, h⟩ := bind_ok.1 h
  cases h
  refine bind_ok.2 ⟨_, pair_laden hg hp h1, ?_⟩
  simp only [thick_laden (hg _) (hg _)]
  refine bind_ok.2 ⟨pl, h2, bind_ok.2 ⟨b, ?_, bind_ok.2 ⟨bf, h4, bind_ok.2 ⟨c, h5, rfl⟩⟩⟩⟩
  refine Eq.trans ?_ h3
  unfold Blade1.freshBase Bay.newBase
  rw [hs, hr]
  rfl

theorem blade2_laden {g : ℕ → Shell ℝ → Shell ℝ} (hg : ∀ i, Loads (g i)) {k : Shell ℝ → Shell ℝ} (hk : Loads k)
    {B B' : Bay ℝ} (hp : B'.panels = B.panels.mapIdx g) {s t : Blade2 ℝ} (h : s.rebuild E B = .ok t) :
    (onFlange k s).rebuild E B' = .ok (onFlange k t) := by
  unfold Blade2.rebuild at h
  obtain ⟨pq, h1, h⟩ := bind_ok.1 h
  obtain ⟨f, h2, h⟩ := bind_ok.1 h
  obtain ⟨b, h3, h⟩ := bind_ok.1 h
  cases h
  unfold Blade2.rebuild
  refine bind_ok.2 ⟨_, pair_laden hg hp h1, ?_⟩
  simp only [thick_laden (hg _) (hg _)]
  cases hf : s.flange with
  | none =>
    rw [hf] at h2
    cases h2
    refine bind_ok.2 ⟨none, ?_, bind_ok.2 ⟨b, h3, rfl⟩⟩
    simp [onFlange, hf, optLam]
  | some a =>
    rw [hf] at h2
    obtain ⟨l, h4, h2⟩ := bind_ok.1 h2
    cases h2
    refine bind_ok.2 ⟨some (k { a with lam := some l }), ?_, bind_ok.2 ⟨b, h3, rfl⟩⟩
    rw [hk.lam a (some l), show (onFlange k s).flange = some (k a) by simp only [onFlange, hf, Option.map_some]]
    refine bind_ok.2 ⟨l, ?_, rfl⟩
    simp only [hk.stack, hk.plyts, hk.laminaprops]
    exact h4

theorem panels_laden {E : Env ℝ} : ∀ {g : ℕ → Shell ℝ → Shell ℝ} (_ : ∀ i, Loads (g i)) {m m' : Option String}
    {l l' : List (Shell ℝ)}, rebuildPanels E m l = .ok (m', l') →
      rebuildPanels E m (l.mapIdx g) = .ok (m', l'.mapIdx g)
  | g, hg, m, m', [], l', h => by cases h; rfl
  | g, hg, m, m', p :: l, l', h => by
    unfold rebuildPanels at h
    obtain ⟨q, h1, h⟩ := bind_ok.1 h
    rw [List.mapIdx_cons]
    unfold rebuildPanels
    refine bind_ok.2 ⟨_, (hg 0).rebuild h1, ?_⟩
    rw [(hg 0).model]
    cases m with
    | none =>
      obtain ⟨⟨m1, l1⟩, h2, h⟩ := bind_ok.1 h
      cases h
      rw [List.mapIdx_cons]
      exact bind_ok.2 ⟨_, panels_laden (fun i => hg (i + 1)) h2, rfl⟩
    | some x =>
      simp only at h ⊢
      split at h
      · cases h
      · next c =>
        rw [if_neg c]
        obtain ⟨⟨m1, l1⟩, h2, h⟩ := bind_ok.1 h
        cases h
        rw [List.mapIdx_cons]
        exact bind_ok.2 ⟨_, panels_laden (fun i => hg (i + 1)) h2, rfl⟩

theorem mapE_laden {α : Type} {F F' : α → Except Fail α} : ∀ {k : ℕ → α → α}
    (_ : ∀ i a b, F a = .ok b → F' (k i a) = .ok (k i b)) {l l' : List α}, mapE F l = .ok l' →
      mapE F' (l.mapIdx k) = .ok (l'.mapIdx k)
  | k, hk, [], l', h => by cases h; rfl
  | k, hk, a :: l, l', h => by
    obtain ⟨b, h1, h⟩ := bind_ok.1 h
    obtain ⟨bs, h2, h⟩ := bind_ok.1 h
    cases h
    rw [List.mapIdx_cons, List.mapIdx_cons]
    exact bind_ok.2 ⟨_, hk 0 a b h1, bind_ok.2 ⟨_, mapE_laden (fun i => hk (i + 1)) h2, rfl⟩⟩

theorem rebuild_laden (n : Forces) (h : B.rebuild E = .ok R) : (laden n B).rebuild E = .ok (laden n R) := by
  unfold Bay.rebuild at h
  obtain ⟨⟨m, ps⟩, h1, h⟩ := bind_ok.1 h
  obtain ⟨b1, h2, h⟩ := bind_ok.1 h
  obtain ⟨b2, h3, h⟩ := bind_ok.1 h
  cases h
  have hg := fun i => loads_load (n.1 i)
  refine bind_ok.2 ⟨_, panels_laden hg h1, bind_ok.2 ⟨_, mapE_laden
      (F' := Blade1.rebuild E { laden n B with model := m, panels := ps.mapIdx fun i => load (n.1 i) })
      (k := fun i => push (n.2.2 i)) (fun i s t e =>
      blade1_laden (B := { B with model := m, panels := ps })
        (B' := { laden n B with model := m, panels := ps.mapIdx fun i => load (n.1 i) }) hg rfl rfl rfl (n.2.2 i) e) h2,
    bind_ok.2 ⟨_, mapE_laden (k := fun i => onFlange (load (n.2.1 i))) (fun i s t e =>
      blade2_laden (B := { B with model := m, panels := ps, blade1 := b1 }) hg (loads_load (n.2.1 i)) rfl e) h3, rfl⟩⟩⟩

theorem width_laden (n : Forces) (B : Bay ℝ) : (laden n B).blade2.map C52.width = B.blade2.map C52.width := by
  refine List.ext_getElem? fun i => ?_
  simp only [laden, List.getElem?_map, List.getElem?_mapIdx, Option.map_map]
  congr 1
  funext s
  exact width_on (loads_load _) s

theorem start_laden (n : Forces) (R : Bay ℝ) (i : ℕ) : C52.start (laden n R) i = C52.start R i := by
  unfold C52.start
  simp only [List.map_take, width_laden]
  rfl

theorem mem_laden {α : Type} {k : ℕ → α → α} {l : List α} {b : α} (h : b ∈ l.mapIdx k) : ∃ i, ∃ a ∈ l, b = k i a := by
  obtain ⟨i, hi, rfl⟩ := List.mem_mapIdx.1 h
  exact ⟨i, _, List.getElem_mem hi, rfl⟩

theorem size_laden (n : Forces) (h : R.getSize = .ok N) : (laden n R).getSize = .ok N := by
  obtain ⟨n1, n2, n3⟩ := (C52.size_iff R N).1 h
  refine (C52.size_iff _ _).2 ⟨n1, ?_, ?_⟩
  · intro s hs
    obtain ⟨i, s, hs', rfl⟩ := mem_laden hs
    obtain ⟨f, hf, hk⟩ := n2 s hs'
    exact ⟨load (n.2.1 i) f, by simp only [onFlange, hf, Option.map_some], hk⟩
  · rw [n3, width_laden]
    rfl

theorem terms_laden (n : Forces) (h : C52.Terms B) : C52.Terms (laden n B) := by
  refine ⟨?_, ?_, ?_⟩
  · intro p hp
    obtain ⟨i, p, hp', rfl⟩ := mem_laden hp
    exact h.panels p hp'
  · intro s hs b hb
    obtain ⟨i, s, hs', rfl⟩ := mem_laden hs
    exact h.base1 s hs' b hb
  · intro s hs b hb
    obtain ⟨i, s, hs', rfl⟩ := mem_laden hs
    exact h.base2 s hs' b hb

theorem ready_laden (n : Forces) (h : Ready E R) : Ready E (laden n R) := by
  refine ⟨?_, ?_, ?_⟩
  · intro s hs b hb
    obtain ⟨i, s, hs', rfl⟩ := mem_laden hs
    exact h.base1 s hs' b hb
  · intro s hs b hb
    obtain ⟨i, s, hs', rfl⟩ := mem_laden hs
    exact h.base2 s hs' b hb
  · intro s hs f hf
    obtain ⟨i, s, hs', rfl⟩ := mem_laden hs
    obtain ⟨f, hf', rfl⟩ := Option.map_eq_some_iff.1 hf
    obtain ⟨t, ht⟩ := h.flange s hs' f hf'
    exact ⟨_, load_rebuild _ ht⟩

/-! ## The parts -/

theorem own_mix {E : Env ℝ} {off : ℕ} {o : Option (Shell ℝ)} (ho : ∀ b, o = some b → ∃ t, b.rebuild E = .ok t) {r q : ℝ}
    {n n' : ℝ × ℝ × ℝ} {x y z : (ℕ → ℝ) → ℝ} (hx : C52.Own (fun b => b.calcKG E {}) off (o.map (load (r • n + q • n'))) x)
    (hy : C52.Own (fun b => b.calcKG E {}) off (o.map (load n)) y)
    (hz : C52.Own (fun b => b.calcKG E {}) off (o.map (load n')) z) (v : ℕ → ℝ) : x v = r * y v + q * z v := by
  cases o with
  | none => rw [show x v = 0 from hx v, show y v = 0 from hy v, show z v = 0 from hz v, mul_zero, mul_zero, add_zero]
  | some b =>
    obtain ⟨t, ht⟩ := ho b rfl
    obtain ⟨G, e1, -, e2⟩ := panel ht (A := {}) ⟨fun x hx => (by cases hx), fun x hx => (by cases hx),
      fun x hx => (by cases hx), by simp [C38.sizeOf], by simp [C38.sizeOf]⟩ rfl rfl rfl
    obtain ⟨L, u, a1, a2⟩ := hx
    obtain ⟨L0, u0, b1, b2⟩ := hy
    obtain ⟨LG, uG, c1, c2⟩ := hz
    cases (e1 _).symm.trans a1
    cases (e1 _).symm.trans b1
    cases (e1 _).symm.trans c1
    rw [a2, b2, c2, e2]

theorem beam_mix {n n1 n2 : Forces} {s : Blade1 ℝ} {r q f f' : ℝ} {x y z : (ℕ → ℝ) → ℝ}
    (hx : C52.BeamG E (laden n R) (push (r * f + q * f') s) x) (hy : C52.BeamG E (laden n1 R) (push f s) y)
    (hz : C52.BeamG E (laden n2 R) (push f' s) z) (v : ℕ → ℝ) : x v = r * y v + q * z v := by
  unfold C52.BeamG at hx hy hz
  simp only [push] at hx hy hz
  cases hs : s.sec with
  | none =>
    rw [hs] at hx hy hz
    rw [hx v, hy v, hz v, mul_zero, mul_zero, add_zero]
  | some c =>
    rw [hs] at hx hy hz
    rw [hx v, hy v, hz v, Coo.quad_finalizeSym, Coo.quad_finalizeSym, Coo.quad_finalizeSym]
    change W v _ = r * W v _ + q * W v _
    simp only [fkGf, W_pad, Option.getD_some]
    refine W_build (fun i k j l α β => ?_) ..
    unfold Gen.Blade1D.fkGf
    split
    · simp only [laden]
      unfold Gen.Blade1D.fkGf_22
      ring
    · ring

theorem sum_mix {P Q G : List ((ℕ → ℝ) → ℝ)} {r q : ℝ} {v : ℕ → ℝ} (h1 : P.length = Q.length) (h2 : Q.length = G.length)
    (h : ∀ (i : ℕ) (a b c : (ℕ → ℝ) → ℝ), P[i]? = some a → Q[i]? = some b → G[i]? = some c → a v = r * b v + q * c v) :
    (P.map fun q => q v).sum = r * (Q.map fun q => q v).sum + q * (G.map fun q => q v).sum := by
  induction P generalizing Q G with
  | nil =>
    cases Q with
    | nil =>
      cases G with
      | nil => simp
      | cons c G => cases h2
    | cons b Q => cases h1
  | cons a P ih =>
    cases Q with
    | nil => cases h1
    | cons b Q =>
      cases G with
      | nil => cases h2
      | cons c G =>
        simp only [List.map_cons, List.sum_cons]
        rw [h 0 a b c rfl rfl rfl, ih (by simpa using h1) (by simpa using h2) fun i x y z hx hy hz =>
          h (i + 1) x y z hx hy hz]
        ring

/-- **C112, bays.**  Each part has its own forces. -/
theorem bay (hT : C52.Terms B) (hne : B.panels ≠ []) (hR : B.rebuild E = .ok R) (hN : R.getSize = .ok N)
    (hr : Ready E R) :
    ∃ (G : Forces → Coo ℝ) (w : Forces → Bay ℝ), (∀ n, (laden n B).calcKG E none = .ok (G n, w n)) ∧ Combined G := by
  have hb := C52.built hT hR
  have key : ∀ n, ∃ G w, (laden n B).calcKG E none = .ok (G, w) := fun n => by
    obtain ⟨⟨G, w⟩, h⟩ := C57.kG_exists E (laden n B) _ N (terms_laden n hT) (by simpa [laden] using hne)
      (rebuild_laden n hR) (size_laden n hN) (ready_laden n hr)
    exact ⟨G, w, h⟩
  choose G w hG using key
  refine ⟨G, w, hG, combined (fun n => C81.symmetric.2.1 _ (hG n)) fun r q n n' v => ?_⟩
  have parts : ∀ n, ∃ Qp Q1 Q2 : List ((ℕ → ℝ) → ℝ), Qp.length = R.panels.length ∧ Q1.length = R.blade1.length ∧
      Q2.length = R.blade2.length ∧
      (∀ i x, Qp[i]? = some x → ∃ p, R.panels[i]? = some p ∧
        C52.Own (fun b => b.calcKG E.toEnv {}) 0 ((some p).map (load (n.1 i))) x) ∧
      (∀ i x, Q1[i]? = some x → ∃ s, R.blade1[i]? = some s ∧ C52.BeamG E (laden n R) (push (n.2.2 i) s) x) ∧
      (∀ i x, Q2[i]? = some x → ∃ s, R.blade2[i]? = some s ∧
        C52.Own (fun b => b.calcKG E.toEnv {}) (C52.start R i) (s.flange.map (load (n.2.1 i))) x) ∧
      Coo.quad (G n) v = (Qp.map fun q => q v).sum + (Q1.map fun q => q v).sum + (Q2.map fun q => q v).sum := fun n => by
    obtain ⟨R1, N1, g1, g2, Gp, G1, G2, gp, gb, gl, gf, ge⟩ := C52.kG_energy E _ _ _ (terms_laden n hT) (hG n)
    cases (rebuild_laden n hR).symm.trans g1
    have l2 : G2.length = R.blade2.length := gl.trans (List.length_mapIdx ..)
    refine ⟨Gp, G1, G2, gp.length_eq.symm.trans (List.length_mapIdx ..), gb.length_eq.symm.trans (List.length_mapIdx ..),
      l2, fun i x hx => ?_, fun i x hx => ?_, fun i x hx => ?_, ge v⟩
    · obtain ⟨a, ha, hP⟩ := C111.forall₂_at gp hx
      simp only [laden, List.getElem?_mapIdx] at ha
      obtain ⟨p, hp, rfl⟩ := Option.map_eq_some_iff.1 ha
      exact ⟨p, hp, hP⟩
    · obtain ⟨a, ha, hP⟩ := C111.forall₂_at gb hx
      simp only [laden, List.getElem?_mapIdx] at ha
      obtain ⟨p, hp, rfl⟩ := Option.map_eq_some_iff.1 ha
      exact ⟨p, hp, hP⟩
    · have hi : i < R.blade2.length := by
        rw [← l2]
        exact (List.getElem?_eq_some_iff.1 hx).1
      have hm := List.getElem?_eq_getElem hi
      have := gf i (onFlange (load (n.2.1 i)) R.blade2[i]) x (by simp [laden, List.getElem?_mapIdx, hm]) hx
      rw [start_laden] at this
      exact ⟨_, hm, this⟩
  obtain ⟨Ap, A1, A2, a1, a2, a3, a4, a5, a6, a7⟩ := parts (r • n + q • n')
  obtain ⟨Bp, B1, B2, b1, b2, b3, b4, b5, b6, b7⟩ := parts n
  obtain ⟨Cp, C1, C2, c1, c2, c3, c4, c5, c6, c7⟩ := parts n'
  rw [a7, b7, c7,
    sum_mix (P := Ap) (Q := Bp) (G := Cp) (r := r) (q := q) (a1.trans b1.symm) (b1.trans c1.symm) fun i x y z hx hy hz => by
      obtain ⟨p, hp, ex⟩ := a4 i x hx
      obtain ⟨p1, hp1, ey⟩ := b4 i y hy
      obtain ⟨p2, hp2, ez⟩ := c4 i z hz
      obtain rfl : p = p1 := Option.some.inj (hp.symm.trans hp1)
      obtain rfl : p = p2 := Option.some.inj (hp.symm.trans hp2)
      exact own_mix (fun s hs => ⟨s, by cases hs; exact hb.panels p (List.mem_of_getElem? hp)⟩) ex ey ez v,
    sum_mix (P := A1) (Q := B1) (G := C1) (r := r) (q := q) (a2.trans b2.symm) (b2.trans c2.symm) fun i x y z hx hy hz => by
      obtain ⟨p, hp, ex⟩ := a5 i x hx
      obtain ⟨p1, hp1, ey⟩ := b5 i y hy
      obtain ⟨p2, hp2, ez⟩ := c5 i z hz
      obtain rfl : p = p1 := Option.some.inj (hp.symm.trans hp1)
      obtain rfl : p = p2 := Option.some.inj (hp.symm.trans hp2)
      exact beam_mix ex ey ez v,
    sum_mix (P := A2) (Q := B2) (G := C2) (r := r) (q := q) (a3.trans b3.symm) (b3.trans c3.symm) fun i x y z hx hy hz => by
      obtain ⟨p, hp, ex⟩ := a6 i x hx
      obtain ⟨p1, hp1, ey⟩ := b6 i y hy
      obtain ⟨p2, hp2, ez⟩ := c6 i z hz
      obtain rfl : p = p1 := Option.some.inj (hp.symm.trans hp1)
      obtain rfl : p = p2 := Option.some.inj (hp.symm.trans hp2)
      exact own_mix (fun f hf => hr.flange p (List.mem_of_getElem? hp) f hf) ex ey ez v]
  ring

end

/-- The hypotheses of `bay`: the bay of `C81`, with both kinds of stiffeners. -/
example : ∃ B, C81.full = .ok B ∧ ∃ (G : Forces → Coo ℝ) (w : Forces → Bay ℝ),
    (∀ n, (laden n B).calcKG C81.env none = .ok (G n, w n)) ∧ Combined G := by
  obtain ⟨B, hB, R, N, h, -⟩ := C81.full_solid
  exact ⟨B, hB, bay h.terms h.panels h.rebuilt h.size h.ready⟩

end Verif.C112
