import Verif.Proofs.BayTotal

/-!
# C58: the base of a stiffener lies on the skin

`Laid p q b`: the offset of the base `b` puts it on a skin with the mean thickness of the panels `p`
and `q`.  It holds for 1D stiffeners in every rebuilt bay (`base1`).  The base of a 2D stiffener has the
offset for the thickness that the panels had when it was added (`base2`), and keeps it: for a skin given
by one ply thickness that is no thickness at all, so the claim fails (`base2_violated`).  It holds if
the panels had their lists of thicknesses (`base2_partial`).
-/

set_option linter.unusedSectionVars false

namespace Verif.C58

open Model

variable {K : Type} [Field K] [LinearOrder K]

/-- The base touches the skin: distance of the middle planes, half of both thicknesses, downwards. -/
def Laid (p q b : Shell K) : Prop := b.offset = -((p.plyts.sum + q.plyts.sum) / 2 + b.plyts.sum) / 2

/-- The `i`-th and `j`-th panels. -/
def At (B : Bay K) (i j : ℕ) (p q : Shell K) : Prop := B.panels[i]? = some p ∧ B.panels[j]? = some q

theorem newBase_laid (B : Bay K) (ys bb rho : K) (st pl : List K) (lp : List (List K)) (p q : Shell K) :
    Laid p q (B.newBase ys bb rho st pl lp (skinThick p q)) := by
  show -(skinThick p q) / 2 - pl.sum / 2 = -((p.plyts.sum + q.plyts.sum) / 2 + pl.sum) / 2
  unfold skinThick
  ring

/-- A 1D stiffener in a rebuilt bay: its base lies on the skin. -/
theorem base1 (E : BayEnv K) (B R : Bay K) (hR : B.rebuild E = .ok R) (s : Blade1 K)
    (hs : s ∈ R.blade1) (hst : s.bstack ≠ none) :
    ∃ b p q, s.base = some b ∧ At R s.panel1 s.panel2 p q ∧ Laid p q b := by
  obtain ⟨m, ps, -, e1, -, e2, -, h1, -⟩ := bay_rebuild_ok hR
  obtain ⟨a, -, hr⟩ := C52.forall₂_mem_right h1 s hs
  unfold Blade1.rebuild at hr
  obtain ⟨pq, g1, hr⟩ := bind_ok.1 hr
  obtain ⟨pl, g2, hr⟩ := bind_ok.1 hr
  obtain ⟨ba, g3, hr⟩ := bind_ok.1 hr
  obtain ⟨bf, g4, hr⟩ := bind_ok.1 hr
  obtain ⟨se, g5, hr⟩ := bind_ok.1 hr
  cases hr
  obtain ⟨k1, k2⟩ := C52.pair_panels g1
  unfold Blade1.freshBase at g3
  cases hb : a.bstack with
  | none => exact absurd hb hst
  | some st =>
    simp only [hb] at g3
    obtain ⟨bb, -, g3⟩ := bind_ok.1 g3
    cases g3
    refine ⟨_, pq.1, pq.2, rfl, ⟨?_, ?_⟩, newBase_laid ..⟩
    · rw [e1]; exact k1
    · rw [e1]; exact k2

/-- A 2D stiffener is added with a base on the skin as it is at that moment. -/
theorem base2 (E : BayEnv K) (B B' : Bay K) (ys : K) (rho bb bf : Option K) (b f : LamArgs K)
    (mf nf : ℕ) (hst : b.stack ≠ none) (h : B.addBlade2 E ys rho bb bf b f mf nf = .ok B') :
    B'.panels = B.panels ∧ ∃ s sh p q, B'.blade2 = B.blade2 ++ [s] ∧ s.base = some sh ∧
      At B s.panel1 s.panel2 p q ∧ Laid p q sh := by
  unfold Bay.addBlade2 at h
  split at h
  · cases h
  · obtain ⟨x, hx, h⟩ := bind_ok.1 h
    obtain ⟨y, -, h⟩ := bind_ok.1 h
    obtain ⟨z, -, h⟩ := bind_ok.1 h
    obtain ⟨ob, hob, h⟩ := bind_ok.1 h
    obtain ⟨of, -, h⟩ := bind_ok.1 h
    obtain ⟨s, hs, h⟩ := bind_ok.1 h
    cases h
    obtain ⟨st, hst⟩ := Option.ne_none_iff_exists'.1 hst
    have hx1 : ∃ st, x.1 = some st := by
      unfold LamArgs.resolve at hx
      simp only [hst] at hx
      split at hx <;> cases hx
      exact ⟨st, rfl⟩
    obtain ⟨st', hx1⟩ := hx1
    unfold Bay.baseOf at hob
    simp only [hx1] at hob
    obtain ⟨v, -, hob⟩ := bind_ok.1 hob
    split at hob
    · rename_i p q hp hq
      cases hob
      obtain ⟨-, hbase, -, e1, e2, -⟩ := blade2_kept hs
      rcases hbase with ⟨e, -⟩ | ⟨g, w, e, e'⟩
      · cases e
      · cases e
        refine ⟨rfl, s, _, p, q, rfl, e', ⟨?_, ?_⟩, newBase_laid B ys v (rho.getD B.rho) st' x.2.1 x.2.2 p q⟩
        · rw [e1]; exact hp
        · rw [e2]; exact hq
    · cases hob

/-- A rebuild of the bay keeps the offsets of the bases of 2D stiffeners. -/
theorem kept (E : BayEnv K) (B R : Bay K) (hR : B.rebuild E = .ok R) (i : ℕ) (s : Blade2 K)
    (hi : B.blade2[i]? = some s) (b : Shell K) (hb : s.base = some b) :
    ∃ t b', R.blade2[i]? = some t ∧ t.panel1 = s.panel1 ∧ t.panel2 = s.panel2 ∧ t.base = some b' ∧
      b'.offset = b.offset ∧ b'.plyts = b.plyts := by
  obtain ⟨m, ps, -, e1, -, e2, -, -, h2⟩ := bay_rebuild_ok hR
  obtain ⟨hlt, hs⟩ := List.getElem?_eq_some_iff.1 hi
  have hlt' : i < R.blade2.length := by rw [← h2.length_eq]; exact hlt
  have hr := (List.forall₂_iff_get.1 h2).2 i hlt hlt'
  simp only [List.get_eq_getElem, hs] at hr
  obtain ⟨-, hbase, -, k1, k2, -⟩ := blade2_kept hr
  rcases hbase with ⟨e, -⟩ | ⟨g, w, e, e'⟩
  · rw [hb] at e; cases e
  · rw [hb] at e
    cases e
    exact ⟨_, _, List.getElem?_eq_getElem hlt', k1, k2, e', rfl, rfl⟩

/-- The thicknesses of a panel after a rebuild of the bay. -/
theorem panel_after {E : BayEnv K} {B R : Bay K} (hR : B.rebuild E = .ok R) {i : ℕ} {p : Shell K}
    (hi : B.panels[i]? = some p) :
    ∃ p', R.panels[i]? = some p' ∧ p'.plyts = orFill p.plyts (p.plyt.getD 0) p.stack := by
  obtain ⟨m, ps, hp, e1, -⟩ := bay_rebuild_ok hR
  have g := (rebuildPanels_ok hp).1
  obtain ⟨hlt, hs⟩ := List.getElem?_eq_some_iff.1 hi
  have hlt' : i < ps.length := by rw [← g.length_eq]; exact hlt
  have hr := (List.forall₂_iff_get.1 g).2 i hlt hlt'
  simp only [List.get_eq_getElem, hs] at hr
  refine ⟨_, by rw [e1]; exact List.getElem?_eq_getElem hlt', ?_⟩
  obtain ⟨-, -, -, -, lam, -, e⟩ := (C54.rebuild_ok_iff E.toEnv _ _).1 hr
  exact congrArg Shell.plyts e

/-- What becomes of the base of a new 2D stiffener in the rebuilt bay. -/
theorem after (E : BayEnv K) (B B' R : Bay K) (ys : K) (rho bb bf : Option K) (b f : LamArgs K)
    (mf nf : ℕ) (hst : b.stack ≠ none) (h : B.addBlade2 E ys rho bb bf b f mf nf = .ok B')
    (hR : B'.rebuild E = .ok R) :
    ∃ s sh p q p' q', R.blade2[B.blade2.length]? = some s ∧ s.base = some sh ∧
      At B s.panel1 s.panel2 p q ∧ At R s.panel1 s.panel2 p' q' ∧ Laid p q sh ∧
      p'.plyts = orFill p.plyts (p.plyt.getD 0) p.stack ∧
      q'.plyts = orFill q.plyts (q.plyt.getD 0) q.stack := by
  obtain ⟨hp, s, sh, p, q, e1, e2, e3, e4⟩ := base2 E B B' ys rho bb bf b f mf nf hst h
  have hi : B'.blade2[B.blade2.length]? = some s := by rw [e1]; simp
  obtain ⟨t, b', k1, k2, k3, k4, k5, k6⟩ := kept E B' R hR _ s hi sh e2
  obtain ⟨p', a1, a2⟩ := panel_after hR (i := s.panel1) (p := p) (by rw [hp]; exact e3.1)
  obtain ⟨q', a3, a4⟩ := panel_after hR (i := s.panel2) (p := q) (by rw [hp]; exact e3.2)
  refine ⟨t, b', p, q, p', q', k1, k4, ?_, ?_, ?_, a2, a4⟩
  · rw [k2, k3]; exact e3
  · rw [k2, k3]; exact ⟨a1, a3⟩
  · unfold Laid
    rw [k5, k6]
    exact e4

/-- The base is a strip of the width `bb` along the line `y = ys`: it has the terms and the edges of the
skin, and its domain is the whole length and `bb / 2` to both sides of the line. -/
def Strip (P : Panel K) (ys bb : K) (b : Shell K) : Prop :=
  b.pan.y2 - b.pan.y1 = bb ∧ (b.pan.y1 + b.pan.y2) / 2 = ys ∧ (b.pan.x1 = -1 ∨ b.pan.x2 = -1) ∧
  { b.pan with x1 := P.x1, x2 := P.x2, y1 := P.y1, y2 := P.y2 } = P

theorem newBase_strip [CharZero K] (B : Bay K) (ys bb rho h : K) (st pl : List K) (lp : List (List K)) :
    Strip B.skin ys bb (B.newBase ys bb rho st pl lp h) := by
  refine ⟨?_, ?_, .inl rfl, rfl⟩
  · show ys + bb / 2 - (ys - bb / 2) = bb
    ring
  · show (ys - bb / 2 + (ys + bb / 2)) / 2 = ys
    ring

/-- The base of a 1D stiffener in a rebuilt bay is the strip along its line. -/
theorem strip1 [CharZero K] (E : BayEnv K) (B R : Bay K) (hR : B.rebuild E = .ok R) (s : Blade1 K)
    (hs : s ∈ R.blade1) (hst : s.bstack ≠ none) :
    ∃ b bb, s.base = some b ∧ s.bb = some bb ∧ Strip B.skin s.ys bb b := by
  obtain ⟨m, ps, -, e1, -, e2, -, h1, -⟩ := bay_rebuild_ok hR
  obtain ⟨a, -, hr⟩ := C52.forall₂_mem_right h1 s hs
  unfold Blade1.rebuild at hr
  obtain ⟨pq, g1, hr⟩ := bind_ok.1 hr
  obtain ⟨pl, g2, hr⟩ := bind_ok.1 hr
  obtain ⟨ba, g3, hr⟩ := bind_ok.1 hr
  obtain ⟨bf, g4, hr⟩ := bind_ok.1 hr
  obtain ⟨se, g5, hr⟩ := bind_ok.1 hr
  cases hr
  unfold Blade1.freshBase at g3
  cases hb : a.bstack with
  | none => exact absurd hb hst
  | some st =>
    simp only [hb] at g3
    obtain ⟨bb, hbb, g3⟩ := bind_ok.1 g3
    cases g3
    refine ⟨_, bb, rfl, ?_, newBase_strip ..⟩
    show a.bb = some bb
    cases h : a.bb with
    | none => rw [h] at hbb; cases hbb
    | some v => rw [h] at hbb; cases hbb; rfl

/-- The base of a new 2D stiffener in the rebuilt bay is the strip along its line. -/
theorem strip2 [CharZero K] (E : BayEnv K) (B B' R : Bay K) (ys : K) (rho bb bf : Option K)
    (b f : LamArgs K) (mf nf : ℕ) (hst : b.stack ≠ none)
    (h : B.addBlade2 E ys rho bb bf b f mf nf = .ok B') (hR : B'.rebuild E = .ok R) :
    ∃ s sh v, R.blade2[B.blade2.length]? = some s ∧ s.ys = ys ∧ s.base = some sh ∧ bb = some v ∧
      Strip B.skin ys v sh := by
  have h0 : ∃ s sh v, B'.blade2 = B.blade2 ++ [s] ∧ s.ys = ys ∧ s.base = some sh ∧ bb = some v ∧
      Strip B.skin ys v sh := by
    unfold Bay.addBlade2 at h
    split at h
    · cases h
    · obtain ⟨x, hx, h⟩ := bind_ok.1 h
      obtain ⟨y, -, h⟩ := bind_ok.1 h
      obtain ⟨z, -, h⟩ := bind_ok.1 h
      obtain ⟨ob, hob, h⟩ := bind_ok.1 h
      obtain ⟨of, -, h⟩ := bind_ok.1 h
      obtain ⟨s, hs, h⟩ := bind_ok.1 h
      cases h
      obtain ⟨st, hst⟩ := Option.ne_none_iff_exists'.1 hst
      have hx1 : ∃ st, x.1 = some st := by
        unfold LamArgs.resolve at hx
        simp only [hst] at hx
        split at hx <;> cases hx
        exact ⟨st, rfl⟩
      obtain ⟨st', hx1⟩ := hx1
      unfold Bay.baseOf at hob
      simp only [hx1] at hob
      obtain ⟨v, hv, hob⟩ := bind_ok.1 hob
      split at hob
      · rename_i p q hp hq
        cases hob
        obtain ⟨-, hbase, ey, -⟩ := blade2_kept hs
        rcases hbase with ⟨e, -⟩ | ⟨g, w, e, e'⟩
        · cases e
        · cases e
          refine ⟨s, _, v, rfl, ey, e', ?_,
            newBase_strip B ys v (rho.getD B.rho) (skinThick p q) st' x.2.1 x.2.2⟩
          cases h : bb with
          | none => rw [h] at hv; cases hv
          | some v => rw [h] at hv; cases hv; rfl
      · cases hob
  obtain ⟨s, sh, v, e1, e2, e3, e4, e5⟩ := h0
  have hi : B'.blade2[B.blade2.length]? = some s := by rw [e1]; simp
  obtain ⟨m, ps, -, -, -, -, -, -, h2⟩ := bay_rebuild_ok hR
  obtain ⟨hlt, hs⟩ := List.getElem?_eq_some_iff.1 hi
  have hlt' : B.blade2.length < R.blade2.length := by rw [← h2.length_eq]; exact hlt
  have hr := (List.forall₂_iff_get.1 h2).2 _ hlt hlt'
  simp only [List.get_eq_getElem, hs] at hr
  obtain ⟨-, hbase, ey, -⟩ := blade2_kept hr
  rcases hbase with ⟨e, -⟩ | ⟨g, w, e, e'⟩
  · rw [e3] at e; cases e
  · rw [e3] at e
    cases e
    exact ⟨_, _, v, List.getElem?_eq_getElem hlt', ey.trans e2, e', e4, e5⟩

/-- Panels that have their lists of thicknesses: the base lies on the skin. -/
theorem base2_partial (E : BayEnv K) (B B' R : Bay K) (ys : K) (rho bb bf : Option K) (b f : LamArgs K)
    (mf nf : ℕ) (hst : b.stack ≠ none) (h : B.addBlade2 E ys rho bb bf b f mf nf = .ok B')
    (hR : B'.rebuild E = .ok R) (hpl : ∀ p ∈ B.panels, p.plyts ≠ []) :
    ∃ s sh p q, R.blade2[B.blade2.length]? = some s ∧ s.base = some sh ∧
      At R s.panel1 s.panel2 p q ∧ Laid p q sh := by
  obtain ⟨s, sh, p, q, p', q', h1, h2, h3, h4, h5, h6, h7⟩ :=
    after E B B' R ys rho bb bf b f mf nf hst h hR
  refine ⟨s, sh, p', q', h1, h2, h4, ?_⟩
  unfold Laid
  rw [h6, h7, C54.orFill_of_ne (hpl p (List.mem_of_getElem? h3.1)),
    C54.orFill_of_ne (hpl q (List.mem_of_getElem? h3.2))]
  exact h5

/-- Panels given by one ply thickness: the base lies in the middle plane of the skin, so not on it
unless the skin is nothing. -/
theorem base2_violated [IsStrictOrderedRing K] (E : BayEnv K) (B B' R : Bay K) (ys : K)
    (rho bb bf : Option K) (b f : LamArgs K)
    (mf nf : ℕ) (hst : b.stack ≠ none) (h : B.addBlade2 E ys rho bb bf b f mf nf = .ok B')
    (hR : B'.rebuild E = .ok R) (hpl : ∀ p ∈ B.panels, p.plyts = []) :
    ∃ s sh p q, R.blade2[B.blade2.length]? = some s ∧ s.base = some sh ∧
      At R s.panel1 s.panel2 p q ∧ sh.offset = -sh.plyts.sum / 2 ∧
      (Laid p q sh ↔ p.plyts.sum + q.plyts.sum = 0) := by
  obtain ⟨s, sh, p, q, p', q', h1, h2, h3, h4, h5, h6, h7⟩ :=
    after E B B' R ys rho bb bf b f mf nf hst h hR
  have h0 : sh.offset = -sh.plyts.sum / 2 := by
    rw [h5, hpl p (List.mem_of_getElem? h3.1), hpl q (List.mem_of_getElem? h3.2)]
    simp
  refine ⟨s, sh, p', q', h1, h2, h4, h0, ?_⟩
  unfold Laid
  rw [h0]
  constructor
  · intro e
    have h2 : (2 : K) ≠ 0 := two_ne_zero
    field_simp at e
    linear_combination e
  · intro e
    rw [e]
    simp

/-! ## Two descriptions of one skin -/

/-- Surroundings in which the laminate depends on its offset. -/
def env : BayEnv ℚ where
  toEnv := { C52.env with
    mkLam := fun _ plyts _ _ d => .ok ⟨fun i j => if i = j then plyts.sum * (1 + d ^ 2) else
      if i + 3 = j ∨ j + 3 = i then plyts.sum * d else 0, plyts.sum, plyts.sum⟩ }
  plies := C46.benv.plies

/-- A bay of two panels with one 2D stiffener on a base; the skin is given by the list `pl` of
thicknesses, or by one thickness `t` of its two plies. -/
def bay (pl : List ℚ) (t : Option ℚ) : Except Fail (Bay ℚ) :=
  let B := { C46.bay with skin := { Witness.panel with m := 1, n := 2 }, stack := [0, 0], plyts := pl, plyt := t }
  let B := B.addPanel 0 (1 / 2) none none none none none none none
  let B := B.addPanel (1 / 2) 1 none none none none none none none
  B.addBlade2 env (1 / 2) none (some (1 / 2)) (some (1 / 3)) C52.ply
    { stack := some [0], plyt := some (1 / 2), laminaprop := some [1] } 2 1

/-- The stiffness in one state. -/
def energy (B : Except Fail (Bay ℚ)) : Option ℚ :=
  (B.bind fun B => (B.calcKC env).map fun x => Coo.quad x.1 fun i => (i : ℚ)).toOption

/-- The same skin, given by the list or by the thickness: two energies. -/
example : ∃ x y, energy (bay [1 / 8, 1 / 8] none) = some x ∧ energy (bay [] (some (1 / 8))) = some y ∧
    x ≠ y := by
  have h : (match energy (bay [1 / 8, 1 / 8] none), energy (bay [] (some (1 / 8))) with
    | some x, some y => decide (x ≠ y)
    | _, _ => false) = true := by decide +kernel
  cases h1 : energy (bay [1 / 8, 1 / 8] none) with
  | none => rw [h1] at h; cases h
  | some x =>
    cases h2 : energy (bay [] (some (1 / 8))) with
    | none => rw [h1, h2] at h; cases h
    | some y =>
      rw [h1, h2] at h
      exact ⟨x, y, rfl, rfl, by simpa using h⟩

/-- The panels have no lists when the stiffener is added, and a thickness after the rebuild. -/
example : (bay [] (some (1 / 8))).toOption.bind (fun B => (B.rebuild env).toOption.map fun R =>
    (B.panels.map fun p => p.plyts, R.panels.map fun p => p.plyts,
      R.blade2.map fun s => s.base.map fun b => (b.offset, b.plyts)))
    = some ([[], []], [[1 / 8, 1 / 8], [1 / 8, 1 / 8]], [some (-1 / 4, [1 / 2])]) := by
  decide +kernel

/-- The strip of the width `1 / 2` along `y = 1 / 2`. -/
example : (bay [1 / 8, 1 / 8] none).toOption.bind (fun B => (B.rebuild env).toOption.map fun R =>
      R.blade2.map fun s => s.base.map fun b => (b.pan.y1, b.pan.y2)) = some [some (1 / 4, 3 / 4)] := by
  decide +kernel

/-- With the list the offset is right. -/
example : (bay [1 / 8, 1 / 8] none).toOption.bind (fun B => (B.rebuild env).toOption.map fun R =>
      R.blade2.map fun s => s.base.map fun b => b.offset) = some [some (-(1 / 4 + 1 / 2) / 2)] := by
  decide +kernel

end Verif.C58
