import Verif.Proofs.TState

/-!
# C66: matrices and forces of the panel with one T stiffener
-/

set_option linter.unusedSectionVars false

namespace Verif.C66

open Model Spec Finset

variable {E : Env ℝ} {q : TArgs ℝ} {T : ℕ → Shell ℝ} {lam : ℕ → LamObj ℝ}

/-- No joint is written twice. -/
theorem conns_once (x1u : ℝ) (dn : ℕ) : ((q.assy x1u dn).conns.map fun d => (d.p1, d.p2)).Nodup := by
  have : (q.assy x1u dn).conns.map (fun d => (d.p1, d.p2))
      = if q.hasDefect then [(0, 1), (0, 3), (1, 2), (1, 4), (2, 5), (3, 4), (3, 6), (4, 5), (4, 7),
          (5, 8), (6, 7), (7, 8), (1, 9), (7, 13), (9, 11), (11, 13), (9, 10), (11, 12),
          (13, 14), (10, 12), (12, 14)]
        else [(0, 1), (0, 3), (1, 2), (1, 4), (2, 5), (3, 4), (3, 6), (4, 5), (4, 7),
          (5, 8), (6, 7), (7, 8), (1, 9), (4, 11), (7, 13), (9, 11), (11, 13), (9, 10), (11, 12),
          (13, 14), (10, 12), (12, 14)] := by
    unfold TArgs.assy tConns
    cases q.hasDefect <;> rfl
  rw [this]
  split <;> decide

/-- Twice the energy of the fifteen panels and of the joints with constants `kt`, `kr`.  The laminates
have plies of equal thickness. -/
noncomputable def stored (S : Shape ℝ) (q : TArgs ℝ) (A : Assy ℝ) (lam : ℕ → LamObj ℝ)
    (kt kr : ConnD ℝ → ℝ) (v : ℕ → ℝ) : ℝ :=
  ((List.range A.count).map fun k =>
    strainWork S (A.part k).shell.panel (lam k).ABD fun i => v (A.start k + i)).sum
  + (A.conns.map fun d => tJoint S (A.part d.p1).shell.panel (A.part d.p2).shell.panel d.func (kt d) (kr d)
      (((tStack q (A.part d.p1).group).length * q.plyt + (tStack q (A.part d.p2).group).length * q.plyt) / 2)
      (A.start d.p1) (A.start d.p2) v).sum

/-- Positive constants of all joints; a bond has no rotational springs. -/
def Springs (A : Assy ℝ) (kt kr : ConnD ℝ → ℝ) : Prop :=
  ∀ d ∈ A.conns, 0 < kt d ∧ (d.func ≠ "SB" → 0 < kr d)

theorem energy {x1u : ℝ} {dn : ℕ} (h : TBuilt E q x1u dn T lam) :
    ∃ k0 M kt kr, (q.assy x1u dn).multi.calcKC E (some (q.assy x1u dn).conns) none = .ok (k0, M) ∧
      Springs (q.assy x1u dn) kt kr ∧ (∀ v, Coo.quad k0 v = stored E.S q (q.assy x1u dn) lam kt kr v) ∧
      (∀ p < (q.assy x1u dn).count, M.shells p = (T p).fixR) ∧ M.place = (q.assy x1u dn).multi.place ∧
      M.panels = (q.assy x1u dn).multi.panels := by
  obtain ⟨own, h1, k0, M, es, h2, h3, h4, h5, h6, h7⟩ := h.fit.kC
  refine ⟨k0, M, fun d => (tConst T lam d).1, fun d => (tConst T lam d).2, h2, fun d hd => h.const_pos hd,
    fun v => ?_, h5, h6, h7⟩
  rw [h4 v, stored]
  congr 1
  · congr 1
    refine List.map_congr_left fun k hk => ?_
    have hk' : k < 15 := List.mem_range.1 hk
    obtain ⟨s1, s2⟩ := h.sides hk'
    exact shell_kC_strain h.exact h.smooth (h.built k hk') s1.ne' s2.ne' (tPart_kind h hk')
      (tPart_loads hk').2.1 (h.hlam k hk') (h.sym k hk') (h1 k hk') _
  · refine sum_forall₂ h3 _ v fun d hd e he => ?_
    rw [h.joint hd he v]
    obtain ⟨i, j, g1, g2, g3⟩ := tConn_cases hd
    have e1 : d.p1 < 15 := by rcases g3 with ⟨rfl, -⟩ | ⟨rfl, -⟩ | ⟨rfl, -⟩ | ⟨rfl, -⟩ <;> exact g1.trans g2
    have e2 : d.p2 < 15 := by rcases g3 with ⟨rfl, -⟩ | ⟨rfl, -⟩ | ⟨rfl, -⟩ | ⟨rfl, -⟩ <;> exact g2
    rw [h.thick e1, h.thick e2]
    rfl

/-- Work of the axial load of each group through the slopes. -/
noncomputable def loadWork (S : Shape ℝ) (q : TArgs ℝ) (A : Assy ℝ) (v : ℕ → ℝ) : ℝ :=
  ((List.range A.count).map fun k => slopeWork S (A.part k).shell.panel (tNxx q (A.part k).group) 0 0
    fun i => v (A.start k + i)).sum

theorem kG_loads {x1u : ℝ} {dn : ℕ} (h : TBuilt E q x1u dn T lam) {M : Multi ℝ}
    (hs : ∀ p < (q.assy x1u dn).count, M.shells p = (T p).fixR)
    (hp : M.place = (q.assy x1u dn).multi.place) (hl : M.panels = (q.assy x1u dn).multi.panels) :
    ∃ kG, M.calcKG E none = .ok (kG, M) ∧ ∀ v, Coo.quad kG v = loadWork E.S q (q.assy x1u dn) v := by
  obtain ⟨own, g1, kG, g2, g3⟩ := h.fit.kG_same hs hp hl
  refine ⟨kG, g2, fun v => ?_⟩
  rw [g3 v, loadWork]
  congr 1
  refine List.map_congr_left fun k hk => ?_
  have hk' : k < 15 := List.mem_range.1 hk
  obtain ⟨s1, s2⟩ := h.sides hk'
  obtain ⟨-, -, e1, e2, -⟩ := tPart_loads (q := q) (x1u := x1u) (dn := dn) hk'
  rw [shell_kG_slope h.exact h.smooth (h.built k hk') s1.ne' s2.ne' (g1 k hk')]
  have e3 := (tPart_group (q := q) (x1u := x1u) (dn := dn) hk').1
  show slopeWork _ _ (q.part x1u dn k).shell.Nxx (q.part x1u dn k).shell.Nyy (q.part x1u dn k).shell.Nxy _ = _
  rw [e1, e2, e3]
  rfl

/-- Kinetic energy of all panels. -/
noncomputable def moving (S : Shape ℝ) (q : TArgs ℝ) (A : Assy ℝ) (v : ℕ → ℝ) : ℝ :=
  ((List.range A.count).map fun k => kineticWork S (A.part k).shell.panel q.rho
    ((tStack q (A.part k).group).length * q.plyt) 0 fun i => v (A.start k + i)).sum

theorem kM_moving {x1u : ℝ} {dn : ℕ} (h : TBuilt E q x1u dn T lam) {M : Multi ℝ}
    (hs : ∀ p < (q.assy x1u dn).count, M.shells p = (T p).fixR)
    (hp : M.place = (q.assy x1u dn).multi.place) (hl : M.panels = (q.assy x1u dn).multi.panels) :
    ∃ kM, M.calcKM E = .ok (kM, M) ∧ ∀ v, Coo.quad kM v = moving E.S q (q.assy x1u dn) v := by
  obtain ⟨kM, g2, g3⟩ := h.fit.kM_same hs hp hl
  refine ⟨kM, g2, fun v => ?_⟩
  rw [g3 v, moving]
  congr 1
  refine List.map_congr_left fun k hk => ?_
  have hk' : k < 15 := List.mem_range.1 hk
  obtain ⟨-, -, -, -, e1, e2⟩ := tPart_loads (q := q) (x1u := x1u) (dn := dn) hk'
  rw [h.thick hk']
  show kineticWork _ _ (q.part x1u dn k).shell.rho _ (q.part x1u dn k).shell.offset _ = _
  rw [e1, e2]
  rfl

/-- **C66, buckling of given loads.**  The stiffness matrix stores the energy of the panels and of the
joints; the geometric matrix is the work of the axial load of each group through the slopes. -/
theorem compression (h : TBuilt E q 0 1 T lam) (solve : Coo ℝ → (ℕ → ℝ) → Except Fail (ℕ → ℝ)) :
    ∃ k0 kG kt kr, let A := q.assy 0 1
      tstiffCompression E solve q false = .ok (A, k0, none, kG) ∧ Springs A kt kr ∧
      (∀ v, Coo.quad k0 v = stored E.S q A lam kt kr v) ∧
      ∀ v, Coo.quad kG v = loadWork E.S q A v := by
  obtain ⟨k0, M, kt, kr, h1, h2, h3, h4, h5, h6⟩ := energy h
  obtain ⟨kG, g1, g2⟩ := kG_loads h h4 h5 h6
  refine ⟨k0, kG, kt, kr, ?_, h2, h3, g2⟩
  unfold tstiffCompression
  simp only [Bool.false_eq_true, if_false, h1, bind, Except.bind, g1]
  rfl

/-- **C66, static case.**  The forces do the work of the axial load of each group on the edge `x = 0` of
exactly the panels that reach it.  For the displacements `c` that the solver gives, the geometric matrix
is the work of the membrane forces of `c` through the slopes; the given axial loads do not count again. -/
theorem static (h : TBuilt E q 1 1 T lam) (solve : Coo ℝ → (ℕ → ℝ) → Except Fail (ℕ → ℝ)) :
    ∃ A' k0 f kt kr, let A := q.assy 1 1
      Springs A kt kr ∧ (∀ v, Coo.quad k0 v = stored E.S q A lam kt kr v) ∧
      (∀ c, ∑ k ∈ range A.multi.getSize, f k * c k = (((List.range A.count).filter fun k =>
        (A.part k).x0 = 0).map fun k => endWork E.G E.S (A.part k).shell.panel (tNxx q (A.part k).group)
          (A.start k) c).sum) ∧
      (∀ e, solve k0 f = .error e → tstiffCompression E solve q true = .error e) ∧
      ∀ c, solve k0 f = .ok c →
        ∃ kG, tstiffCompression E solve q true = .ok (A', k0, some (f, c), kG) ∧
          ∀ v, Coo.quad kG v = tStateWork E A lam c v := by
  obtain ⟨k0, M, kt, kr, h1, h2, h3, h4, h5, h6⟩ := energy h
  obtain ⟨A', M', f, g1, g2, g3, g4, g5, g6⟩ := h.tStatic solve k0 h4 h5 h6
  refine ⟨A', k0, f, kt, kr, h2, h3, g6, fun e he => ?_, fun c hc => ?_⟩
  · unfold tstiffCompression
    simp only [if_true, h1, bind, Except.bind, g1 e he]
  · obtain ⟨kG, e1, e2⟩ := h.kGstate g3 g4 g5 c
    refine ⟨kG, ?_, e2⟩
    unfold tstiffCompression
    simp only [if_true, h1, bind, Except.bind, g2 c hc, e1]
    rfl

/-- **C66, frequencies.**  The mass matrix is the kinetic energy of the panels. -/
theorem freq (h : TBuilt E q 1 2 T lam) :
    ∃ k0 kM kt kr, let A := q.assy 1 2
      tstiffFreq E q = .ok (A, k0, kM) ∧ Springs A kt kr ∧
      (∀ v, Coo.quad k0 v = stored E.S q A lam kt kr v) ∧
      ∀ v, Coo.quad kM v = moving E.S q A v := by
  obtain ⟨k0, M, kt, kr, h1, h2, h3, h4, h5, h6⟩ := energy h
  obtain ⟨kM, g2, g3⟩ := kM_moving h h4 h5 h6
  refine ⟨k0, kM, kt, kr, ?_, h2, h3, g3⟩
  unfold tstiffFreq
  simp only [h1, bind, Except.bind, g2]
  rfl

/-! ## A concrete panel -/

/-- A curved panel with a stiffener in the middle, a quarter of it loose. -/
noncomputable def args : TArgs ℝ where
  a := 4
  b := 3
  ys := 3 / 2
  bb := 1
  bf := 1 / 2
  defectA := 1 / 4
  rho := 7
  plyt := 1 / 8
  laminaprop := [1]
  stackSkin := [0, 90, 0]
  stackBase := [0, 0]
  stackFlange := [45]
  NxxSkin := -1
  NxxBase := -2
  NxxFlange := -3
  r := some 10
  m := 4
  n := 5
  mf := some 6

theorem args_dims : TDims args := by
  constructor <;> norm_num [args]

theorem part_built {q : TArgs ℝ} {E : Env ℝ} (hE : E.mkLam = C40.env.mkLam) (hp : 0 < q.plyt)
    (hq : q.laminaprop ≠ []) (p : Model.Part ℝ) (hm : p.shell.model = none) (hs : p.shell.stack ≠ [])
    (h1 : p.shell.plyt = some q.plyt) (h2 : p.shell.plyts = []) (h3 : p.shell.laminaprop = q.laminaprop)
    (h4 : p.shell.forceOrtho = false) (ha : 0 < p.shell.pan.a) (hb : 0 < p.shell.pan.b) : ∃ t lam,
      p.shell.rebuild E = .ok t ∧ t.lam = some lam ∧ ABDSym lam.ABD ∧ C44.Pos (penOf t lam) := by
  have hk : ∃ k, kindOf (defaultModel p.shell.r) = some k := by
    cases p.shell.r <;> exact ⟨_, by simp [defaultModel, kindOf]; rfl⟩
  rw [show defaultModel p.shell.r = p.shell.model.getD (defaultModel p.shell.r) by rw [hm]; rfl] at hk
  refine ⟨_, _, (C54.rebuild_ok_iff _ _ _).2 ⟨hk, hs, .inr (by simp [h3, hq]),
    .inr (by simp [h1]), _, by rw [hE]; rfl, rfl⟩, rfl, ?_, ?_⟩
  · constructor <;> simp [lamABD, h4]
    intro s t
    by_cases h : s = t
    · subst h; rfl
    · rw [if_neg h, if_neg (Ne.symm h)]
  · have hl : 0 < p.shell.stack.length := List.length_pos_iff.2 hs
    constructor <;> simp [penOf, lamABD, orFill, h1, h2, h4, ha, hb, hl, hp]

/-- Panels of these dimensions can be built. -/
theorem built_of {q : TArgs ℝ} {E : Env ℝ} (hS : E.S = C40.env.S) (hI : E.I = C40.env.I)
    (hE : E.mkLam = C40.env.mkLam) (hd : TDims q) (hp : 0 < q.plyt)
    (hq : q.laminaprop ≠ []) (n1 : q.stackSkin ≠ []) (n2 : q.stackBase ≠ []) (n3 : q.stackFlange ≠ [])
    (m1 : 0 < q.m ∧ 0 < q.n) (m2 : 0 < q.mb.getD q.m ∧ 0 < q.nb.getD q.n)
    (m3 : 0 < q.mf.getD q.m ∧ 0 < q.nf.getD q.n) (hr : ∀ r, q.r = some r → r ≠ 0)
    (x1u : ℝ) (dn : ℕ) : ∃ T lam, TBuilt E q x1u dn T lam := by
  have hb : ∀ k, ∃ t lam, k < 15 → (q.part x1u dn k).shell.rebuild E = .ok t ∧
      t.lam = some lam ∧ ABDSym lam.ABD ∧ C44.Pos (penOf t lam) := by
    intro k
    by_cases hk : k < 15
    · suffices ∃ t lam, (q.part x1u dn k).shell.rebuild E = .ok t ∧
          t.lam = some lam ∧ ABDSym lam.ABD ∧ C44.Pos (penOf t lam) by
        obtain ⟨t, lam, h⟩ := this
        exact ⟨t, lam, fun _ => h⟩
      obtain ⟨s1, s2⟩ := hd.sides x1u dn hk
      have e : (q.part x1u dn k).shell.model = none ∧ (q.part x1u dn k).shell.plyt = some q.plyt ∧
          (q.part x1u dn k).shell.plyts = [] ∧ (q.part x1u dn k).shell.laminaprop = q.laminaprop ∧
          (q.part x1u dn k).shell.forceOrtho = false := by
        interval_cases k <;> exact ⟨rfl, rfl, rfl, rfl, rfl⟩
      have e2 : (q.part x1u dn k).shell.stack ≠ [] := by
        interval_cases k <;> first | exact n1 | exact n2 | exact n3
      exact part_built hE hp hq _ e.1 e2 e.2.1 e.2.2.1 e.2.2.2.1 e.2.2.2.2 s1 s2
    · exact ⟨(q.part 0 0 0).shell, ⟨fun _ _ => 0, 0, 0⟩, fun h => absurd h hk⟩
  choose T lam hb using hb
  refine ⟨T, lam, ?_, ?_, hd, m1, m2, m3, hr,
    fun k hk => (hb k hk).1, fun k hk => (hb k hk).2.1, fun k hk => (hb k hk).2.2.1,
    fun k hk => (hb k hk).2.2.2⟩
  · rw [hS, hI]
    exact Tab.of_exact _ _
  · rw [hS]
    exact bardellShape_C2

theorem args_built (x1u : ℝ) (dn : ℕ) : ∃ T lam, TBuilt C40.env args x1u dn T lam := by
  refine built_of rfl rfl rfl args_dims (by norm_num [args]) (by simp [args]) (by simp [args])
    (by simp [args]) (by simp [args]) (by decide) (by decide) (by decide) ?_ x1u dn
  intro r hr
  simp only [args, Option.some.injEq] at hr
  rw [← hr]
  norm_num

/-- All three functions give matrices. -/
example (solve : Coo ℝ → (ℕ → ℝ) → Except Fail (ℕ → ℝ)) (hs : ∀ k f, ∃ c, solve k f = .ok c) :
    (∃ k0 kG, tstiffCompression C40.env solve args false = .ok (args.assy 0 1, k0, none, kG)) ∧
    (∃ A k0 f c kG, tstiffCompression C40.env solve args true = .ok (A, k0, some (f, c), kG)) ∧
    ∃ k0 kM, tstiffFreq C40.env args = .ok (args.assy 1 2, k0, kM) := by
  obtain ⟨T, lam, h⟩ := args_built 0 1
  obtain ⟨k0, kG, kt, kr, h1, -⟩ := compression h solve
  obtain ⟨T, lam, h⟩ := args_built 1 1
  obtain ⟨A, k0', f, kt, kr, -, -, -, -, h2⟩ := static h solve
  obtain ⟨c, hc⟩ := hs k0' f
  obtain ⟨kG', h2, -⟩ := h2 c hc
  obtain ⟨T, lam, h⟩ := args_built 1 2
  obtain ⟨k0'', kM, kt, kr, h3, -⟩ := freq h
  exact ⟨⟨k0, kG, h1⟩, ⟨A, k0', f, c, kG', h2⟩, ⟨k0'', kM, h3⟩⟩

/-- Its dimensions meet the hypotheses on the layout. -/
example : ∃! k, k < (args.assy 0 1).count ∧
    let p := (args.assy 0 1).part k
    p.group = "skin" ∧ p.x0 ≤ 1 ∧ 1 < p.x0 + p.shell.pan.a ∧ p.y0 ≤ 2 ∧ 2 < p.y0 + p.shell.pan.b :=
  skin_tiles args_dims 0 1 (by norm_num [args]) (by norm_num [args])

/-- Its middle part is loose. -/
example : ¬ ∃ d ∈ (args.assy 0 1).conns, d.p1 = 4 ∧ d.p2 = 11 ∧ d.func = "SB" := by
  have hd : args.defect = 1 := by norm_num [TArgs.defect, args]
  have := bonded args_dims 0 1 (k := 4) (l := 11) (show 4 < 15 by decide) (show 11 < 15 by decide) rfl rfl
    (show args.alow < args.alow + args.defect by rw [hd]; linarith)
    (show args.alow < args.alow + args.defect by rw [hd]; linarith)
    (show args.ys - args.bb / 2 < args.ys - args.bb / 2 + args.bb by norm_num [args])
    (show args.ys - args.bb / 2 < args.ys - args.bb / 2 + args.bb by norm_num [args])
  rw [this, not_not]
  refine ⟨by norm_num [args], ?_⟩
  show args.alow = _
  rw [TArgs.alow, hd]
  norm_num [args]

end Verif.C66
