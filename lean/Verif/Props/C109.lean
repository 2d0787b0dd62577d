import Verif.Props.C107
import Verif.Props.C87

/-!
# C109: linear static analysis is exact for assemblies whose panels stay flat

`force`: the internal force of the assembly, after its stiffness matrix was calculated, is that matrix times
the amplitudes, for all amplitudes without deflection of any panel.
`static`: so the amplitudes that balance forces linearly do so with the internal force.
-/

set_option linter.unusedSectionVars false

namespace Verif.C109

open Model Spec Indep C16

variable {E : Env ℝ} {shells T : ℕ → Shell ℝ} {place : ℕ → Option Place} {panels : List ℕ} {l : List (ConnD ℝ)}

/-- A panel of the assembly and what becomes of it. -/
structure Plain (E : Env ℝ) (s t : Shell ℝ) : Prop where
  built : s.rebuild E = .ok t
  sides : s.pan.a ≠ 0 ∧ s.pan.b ≠ 0
  curved : t.model.bind kindOf = some .cyl → t.r.getD 0 ≠ 0
  free : ¬ C38.PreStress t
  sym : ∀ F, t.ABD = some F → ABDSym F

/-- No panel is deflected. -/
def AllFlat (E : Env ℝ) (shells : ℕ → Shell ℝ) (panels : List ℕ) (c : ℕ → ℝ) : Prop :=
  ∀ k (hk : k < panels.length), ∀ x y, u E.S (shells panels[k]).panel (C40.start shells panels k) c 2 x y = 0

theorem rebuild_again {K : Type} [Field K] [DecidableEq K] {E : Env K} {s t : Shell K}
    (ht : s.rebuild E = .ok t) : t.fixR.rebuild E = .ok t.fixR := by
  obtain ⟨⟨k', hk'⟩, q1, q2, q3, lam', q4, rfl⟩ := (C54.rebuild_ok_iff E s t).1 ht
  rw [C54.rebuild_ok_iff]
  refine ⟨⟨k', by simpa [Shell.fixR] using hk'⟩, q1, ?_, ?_, lam', ?_, ?_⟩
  · exact Or.inl (C54.orFill_ne_nil _ _ q1)
  · exact Or.inl (C54.orFill_ne_nil _ _ q1)
  · simp only [Shell.fixR, C54.orFill_of_ne (C54.orFill_ne_nil _ _ q1)]
    exact q4
  · simp only [Shell.fixR, C54.orFill_of_ne (C54.orFill_ne_nil _ _ q1), Option.getD_some]
    simp

/-- The stiffness of a panel at its place in the assembly. -/
theorem block {s t : Shell ℝ} (h : Plain E s t) {k : Kind} {F : ℕ → ℕ → ℝ} (hk : t.model.bind kindOf = some k)
    (hF : t.ABD = some F) (s0 N : ℕ) (z : ℕ → ℝ) (hN : s0 + 3 * s.pan.m * s.pan.n ≤ N) :
    s.calcKC E (C40.blockArgs (some (.vec N z)) s0 s0 N)
      = .ok (fkCnumF E k t.panel (fun _ _ => F) (fun _ => 0) s0 s0 t.nx t.ny 0, t.fixR) := by
  have hp : t.pan = s.pan := (rebuild_kept E h.built).1
  obtain ⟨k', lam, F', hk', hl, hF', e⟩ := C38.outcome_partial E s t (C40.blockArgs (some (.vec N z)) s0 s0 N) h.built
    ⟨by simp [C40.blockArgs, C38.sizeOf], by simp [C40.blockArgs], by simp [C40.blockArgs],
      by simpa [C40.blockArgs, C38.sizeOf, hp] using hN, by simpa [C40.blockArgs, C38.sizeOf, hp] using hN⟩
    (by simp [C40.blockArgs]) (by simp [C40.blockArgs])
  cases hk.symm.trans hk'
  cases hF.symm.trans hF'
  refine e.trans ?_
  have wG : C38.wantG E k t.fixR F (C40.blockArgs (some (.vec N z)) s0 s0 N)
      ((C40.blockArgs (some (.vec N z)) s0 s0 N).nx.getD t.nx)
      ((C40.blockArgs (some (.vec N z)) s0 s0 N).ny.getD t.ny) = [] := by
    unfold C38.wantG
    exact if_pos ⟨rfl, h.free⟩
  rw [wG, List.append_nil]
  unfold C38.wantC
  rw [if_neg (by simp [C40.blockArgs])]
  rfl

theorem bilin_comm {L : Coo ℝ} (h : C80.Sym L) (x y : ℕ → ℝ) : Coo.bilin L x y = Coo.bilin L y x := by
  obtain ⟨s, h1⟩ : ∃ s : Finset ℕ, ∀ t ∈ L, t.row ∈ s ∧ t.col ∈ s := by
    refine ⟨(L.map Trip.row).toFinset ∪ (L.map Trip.col).toFinset, fun t ht => ?_⟩
    simp only [Finset.mem_union, List.mem_toFinset, List.mem_map]
    exact ⟨.inl ⟨t, ht, rfl⟩, .inr ⟨t, ht, rfl⟩⟩
  have e : ∀ x y : ℕ → ℝ, Coo.bilin L x y
      = Coo.bilin L (fun k => if k ∈ s then x k else 0) (fun k => if k ∈ s then y k else 0) := fun x y => by
    unfold Coo.bilin
    refine congrArg List.sum (List.map_congr_left fun t ht => ?_)
    simp only [(h1 t ht).1, (h1 t ht).2, if_true]
  rw [e x y, e y x]
  exact C87.bilin_comm (t := s) h (fun k hk => if_neg hk) fun k hk => if_neg hk

/-- What `get_kC_conn` leaves behind: the panels, which were built before, the matrix and a list. -/
theorem conn_kept {M M2 : Multi ℝ} (hc : M.conn = some l) (h0 : M.kCconn = none)
    (hb : ∀ p ∈ M.panels, (M.shells p).rebuild E = .ok (M.shells p)) {kConn : Coo ℝ} {arg : Option (List (ConnD ℝ))}
    (h : M.getKCconn E none = .ok (kConn, arg, M2)) : M2.panels = M.panels ∧ M2.place = M.place ∧
      (∀ p ∈ M.panels, M2.shells p = M.shells p) ∧ M2.kCconn = some kConn ∧ (∃ l', M2.conn = some l') ∧
      C80.Sym kConn := by
  unfold Multi.getKCconn at h
  simp only [hc, h0] at h
  obtain ⟨⟨L, l', M'⟩, h1, h⟩ := bind_ok.1 h
  obtain ⟨L', h2, h⟩ := bind_ok.1 h
  cases h
  obtain ⟨hl, -⟩ := connLoop_ok E _ _ _ _ _ _ _ h1
  refine ⟨hl.panels, hl.place, fun p hp => ?_, rfl, ⟨l', rfl⟩, finSum_sym h2⟩
  rcases hl.shells p with e | e
  · exact e
  · exact (Except.ok.inj ((hb p hp).symm.trans e)).symm

/-- The form of the stiffness matrix of an assembly, calculated at a state. -/
theorem form (hn : panels.Nodup) (hP : ∀ p ∈ panels, Plain E (shells p) (T p)) {kind : ℕ → Kind}
    {F : ℕ → ℕ → ℕ → ℝ} (hR : ∀ p ∈ panels, C67.Ready (T p) (kind p) (F p)) {z : ℕ → ℝ} {K : Coo ℝ} {M2 : Multi ℝ}
    (hK : (Multi.init shells place panels (some l)).calcKC E none (some (.vec (C40.total shells panels) z))
      = .ok (K, M2)) :
    ∃ kConn arg, ({ Multi.init shells place panels (some l) with
        shells := fun p => if p ∈ panels then (T p).fixR else shells p } : Multi ℝ).getKCconn E none
          = .ok (kConn, arg, M2) ∧ C80.Sym K ∧
      ∀ x y, Coo.bilin K x y = ((List.range panels.length).map fun k => Coo.bilin (Coo.finalizeSym
        (fkCnumF E (kind (panels.getD k 0)) (T (panels.getD k 0)).panel (fun _ _ => F (panels.getD k 0)) (fun _ => 0)
          (C40.start shells panels k) (C40.start shells panels k) (T (panels.getD k 0)).nx (T (panels.getD k 0)).ny 0))
        x y).sum + Coo.bilin kConn x y := by
  set G : ℕ → Coo ℝ := fun k => fkCnumF E (kind (panels.getD k 0)) (T (panels.getD k 0)).panel
    (fun _ _ => F (panels.getD k 0)) (fun _ => 0) (C40.start shells panels k) (C40.start shells panels k)
    (T (panels.getD k 0)).nx (T (panels.getD k 0)).ny 0 with hG
  have hg : ∀ k (hk : k < panels.length), panels.getD k 0 = panels[k] := fun k hk => by simp [hk]
  have hb : ∀ k (hk : k < panels.length), (shells panels[k]).calcKC E (C40.blockArgs
      (some (.vec (C40.total shells panels) z)) (C40.start shells panels k) (C40.start shells panels k)
      (C40.total shells panels)) = .ok (G k, (T panels[k]).fixR) := fun k hk => by
    have hm : panels[k] ∈ panels := List.getElem_mem hk
    rw [hG]
    simp only [hg k hk]
    exact block (hP _ hm) (hR _ hm).1 (hR _ hm).2 _ _ z (C40.start_le shells panels hk)
  have hs : ∀ k, ∃ L0 : Coo ℝ, k < panels.length → ∀ v, Coo.quad (Coo.finalizeSym (G k)) v
      = Coo.quad L0 fun i => v (C40.start shells panels k + i) := fun k => by
    by_cases hk : k < panels.length
    · obtain ⟨L, L0, e, -, hq⟩ := kC_slice E _ _ (hP _ (List.getElem_mem hk)).built
        (some (.vec (C40.total shells panels) z)) _ _ (C40.start_le shells panels hk) (by simp)
      cases e.symm.trans (hb k hk)
      exact ⟨L0, fun _ => hq⟩
    · exact ⟨[], fun h => absurd h hk⟩
  choose own hown using hs
  obtain ⟨L, hL, hq⟩ := C40.superpose shells place panels (some l) hn
    (fun s q => s.calcKC E (C40.blockArgs (some (.vec (C40.total shells panels) z)) q.row0 q.col0
      (C40.total shells panels))) (fun p => (T p).fixR) (fun k _ => own k)
    (fun k hk => ⟨G k, hb k hk, hown k hk⟩)
  unfold Multi.calcKC at hK
  obtain ⟨-, -, hK⟩ := bind_ok.1 hK
  obtain ⟨⟨L', M1⟩, hL', hK⟩ := bind_ok.1 hK
  obtain ⟨k, hk, hK⟩ := bind_ok.1 hK
  obtain ⟨⟨kConn, arg, M'⟩, hc, hK⟩ := bind_ok.1 hK
  cases hK
  cases hL'.symm.trans hL
  obtain ⟨-, rfl⟩ := C25.finSum_true.1 hk
  have hsy : C80.Sym kConn := by
    unfold Multi.getKCconn at hc
    simp only [Multi.init] at hc
    obtain ⟨⟨L1, l', M3⟩, h1, hc⟩ := bind_ok.1 hc
    obtain ⟨L2, h2, hc⟩ := bind_ok.1 hc
    cases hc
    exact finSum_sym h2
  refine ⟨kConn, arg, hc, sym_append (sym_finalize _) hsy, fun x y => ?_⟩
  rw [Coo.bilin_append]
  congr 1
  have hflat : ∀ (m : List ℕ) x y, Coo.bilin (m.flatMap fun k => Coo.finalizeSym (G k)) x y
      = (m.map fun k => Coo.bilin (Coo.finalizeSym (G k)) x y).sum := fun m x y => by
    induction m with
    | nil => simp
    | cons k m ih => rw [List.flatMap_cons, Coo.bilin_append, ih, List.map_cons, List.sum_cons]
  rw [← hflat]
  refine bilin_eq_of_quad (fun x y => ?_) (fun v => ?_) x y
  · rw [hflat, hflat]
    exact congrArg List.sum (List.map_congr_left fun k _ => bilin_comm (sym_finalize _) x y)
  · rw [hq v]
    unfold Coo.quad
    rw [hflat]
    exact congrArg List.sum (List.map_congr_left fun k hk => (hown k (List.mem_range.1 hk) v).symm)

/-- **C109, internal force.** -/
theorem force (hS : E.S.C2) (hn : panels.Nodup) (hP : ∀ p ∈ panels, Plain E (shells p) (T p)) {z : ℕ → ℝ}
    {K : Coo ℝ} {M2 : Multi ℝ}
    (hK : (Multi.init shells place panels (some l)).calcKC E none (some (.vec (C40.total shells panels) z))
      = .ok (K, M2)) {c : ℕ → ℝ} (hc : AllFlat E shells panels c) (r : ℝ) :
    ∃ f M3, M2.calcFint E (.vec (C40.total shells panels) fun k => r * c k) = .ok (f, M3) ∧
      ∀ d, vdot f d = r * Coo.bilin K d c := by
  have : ∀ p, ∃ k F, p ∈ panels → C67.Ready (T p) k F := fun p => by
    by_cases hp : p ∈ panels
    · obtain ⟨k, F, h⟩ := C67.ready_of_rebuild (hP p hp).built
      exact ⟨k, F, fun _ => h⟩
    · exact ⟨.plate, fun _ _ => 0, fun h => absurd h hp⟩
  choose kind F hR using this
  obtain ⟨kConn, arg, hconn, -, hform⟩ := form hn hP hR hK
  obtain ⟨e1, e2, e3, e4, ⟨l', e5⟩, -⟩ := conn_kept (l := l) rfl rfl (fun p hp => by
    have hp' : p ∈ panels := hp
    simp only [if_pos hp']
    exact rebuild_again (hP p hp').built) hconn
  have hp1 : M2.panels = panels := e1
  have hp3 : ∀ p ∈ panels, M2.shells p = (T p).fixR := fun p hp => by
    rw [e3 p hp]
    exact if_pos hp
  have hpan : ∀ p ∈ panels, (M2.shells p).pan = (shells p).pan := fun p hp => by
    rw [hp3 p hp]
    exact (rebuild_kept E (hP p hp).built).1
  have hst : ∀ k, C40.start M2.shells M2.panels k = C40.start shells panels k := fun k => by
    unfold C40.start
    rw [hp1]
    refine congrArg List.sum (List.map_congr_left fun p hp => ?_)
    rw [hpan p (List.mem_of_mem_take hp)]
  have hsz : M2.getSize = C40.total shells panels := by
    unfold Multi.getSize C40.total
    rw [hp1]
    refine congrArg List.sum (List.map_congr_left fun p hp => ?_)
    rw [hpan p hp]
  have hM : Laid M2 := by
    have hl := laid_init shells place panels (some l) hn
    refine ⟨hp1 ▸ hn, fun k hk => ?_⟩
    have hk' : k < panels.length := by rw [← hp1]; exact hk
    obtain ⟨q, q1, q2⟩ := hl.place k hk'
    refine ⟨q, ?_, by rw [hst]; exact q2⟩
    have : M2.panels[k] = panels[k] := by simp [hp1]
    rw [this, e2]
    exact q1
  obtain ⟨f, hf, hw⟩ := C67.fint_sum E M2 hM kind F (fun p hp => by
      rw [hp1] at hp
      rw [hp3 p hp]
      exact hR p hp) (fun k => r * c k) kConn none
    { M2 with shells := fun p => if p ∈ M2.panels then (M2.shells p).fixR else M2.shells p } (by
      simp only [Multi.getKCconn, e5, e4])
  rw [hsz] at hf
  refine ⟨f, _, hf, fun d => ?_⟩
  rw [hw d, hform d c, mul_add, hp1]
  congr 1
  · rw [← List.sum_map_mul_left]
    refine congrArg List.sum (List.map_congr_left fun k hk => ?_)
    have hk := List.mem_range.1 hk
    have hg : panels.getD k 0 = panels[k] := by simp [hk]
    have hm : panels[k] ∈ panels := List.getElem_mem hk
    rw [hg, hp3 _ hm, ← hst k, hp1]
    have hpn : (T panels[k]).panel = (shells panels[k]).panel := (rebuild_kept E (hP _ hm).built).2.2.1
    have hown : C67.ownFint E (T panels[k]).fixR (kind panels[k]) (F panels[k]) (fun k => r * c k)
        (C40.start M2.shells panels k) = fintF E (kind panels[k]) (T panels[k]).panel (fun _ _ => F panels[k])
          (fun k => r * c k) (C40.start M2.shells panels k) (T panels[k]).nx (T panels[k]).ny := by
      cases kind panels[k] <;> rfl
    have hstk := hst k
    rw [hp1] at hstk
    rw [hown]
    refine flat_fint hS ?_ ?_ _ (fun e => ?_) _ (fun _ _ => (hP _ hm).sym _ (hR _ hm).2) ?_ r _ d _ _
    · rw [hpn]; exact (hP _ hm).sides.1
    · rw [hpn]; exact (hP _ hm).sides.2
    · exact (hP _ hm).curved (by rw [(hR _ hm).1, e])
    · rw [hpn, hstk]
      exact hc k hk
  · rw [show (fun k => r * c k) = fun k => r * c k from rfl]
    unfold Coo.bilin
    rw [← List.sum_map_mul_left]
    exact congrArg List.sum (List.map_congr_left fun t _ => by ring)

/-- **C109, static analysis.**  Amplitudes without deflection that balance the forces `g` linearly do so with the
internal force: its work on every motion of the unknowns is that of the forces; and `r` times the amplitudes balance
`r` times the forces. -/
theorem static (hS : E.S.C2) (hn : panels.Nodup) (hP : ∀ p ∈ panels, Plain E (shells p) (T p)) {z : ℕ → ℝ}
    {K : Coo ℝ} {M2 : Multi ℝ}
    (hK : (Multi.init shells place panels (some l)).calcKC E none (some (.vec (C40.total shells panels) z))
      = .ok (K, M2)) {c g : ℕ → ℝ} {J : Finset ℕ} (hc : AllFlat E shells panels c) (hb : Balanced J K g c) (r : ℝ) :
    ∃ f M3, M2.calcFint E (.vec (C40.total shells panels) fun k => r * c k) = .ok (f, M3) ∧
      ∀ d : ℕ → ℝ, (∀ k ∉ J, d k = 0) → vdot f d = r * ∑ k ∈ J, g k * d k := by
  obtain ⟨f, M3, h1, h2⟩ := force hS hn hP hK hc r
  exact ⟨f, M3, h1, fun d hd => by rw [h2, C87.bilin_balanced hb hd]⟩

/-! ## A concrete case -/

/-- Two of the cylindrical panels of `C16`, joined along an edge. -/
noncomputable def pair : Multi ℝ := Multi.init (fun _ => C16.shell) (fun _ => none) [4, 0] (some [C40.joint])

theorem pair_case : ∃ t, Plain C16.env C16.shell t ∧ AllFlat C16.env (fun _ => C16.shell) [4, 0] C107.pushed ∧
    ∃ K M2, pair.calcKC C16.env none (some (.vec (C40.total (fun _ => C16.shell) [4, 0]) C107.pushed)) = .ok (K, M2) := by
  obtain ⟨t, h, -⟩ := shell_call C107.pushed
  refine ⟨t, ⟨h.built, h.sides, h.curved, h.free, fun F hF => ?_⟩, fun k hk x y => ?_, ?_⟩
  · exact h.sym F hF 0 0
  · have hs : C40.start (fun _ => C16.shell) [4, 0] k % 3 = 0 := by
      have : k = 0 ∨ k = 1 := by
        have : k < 2 := hk
        omega
      rcases this with rfl | rfl <;> rfl
    unfold u
    refine Finset.sum_eq_zero fun q _ => Finset.sum_eq_zero fun p _ => ?_
    rw [show C107.pushed _ = 0 from if_pos (by omega), zero_mul]
  · obtain ⟨own, -, hk⟩ := C40.kC_energy C16.env (fun _ => C16.shell) (fun _ => none) [4, 0] (some [C40.joint]) none
      (by decide) (by simp) (fun _ => t) (fun _ _ => h.built)
      (some (.vec (C40.total (fun _ => C16.shell) [4, 0]) C107.pushed)) (by simp)
    have hl := laid_init (fun _ => C16.shell) (fun _ => none) [4, 0] (some [C40.joint]) (by decide)
    have hpan : t.fixR.pan = C16.shell.pan := (rebuild_kept _ h.built).1
    have hst : ∀ k, C40.start (fun p => if p ∈ [4, 0] then t.fixR else C16.shell) [4, 0] k
        = C40.start (fun _ => C16.shell) [4, 0] k := fun k => by
      unfold C40.start
      refine congrArg List.sum (List.map_congr_left fun p hp => ?_)
      simp only [if_pos (List.mem_of_mem_take hp), hpan]
    obtain ⟨L, arg', M2, hc⟩ := getKCconn_exists C16.env { pair with
        shells := fun p => if p ∈ [4, 0] then t.fixR else C16.shell }
      ⟨hl.1, fun k hk => by
        obtain ⟨q, q1, q2⟩ := hl.place k hk
        exact ⟨q, q1, q2.trans (hst k).symm⟩⟩ (fun p hp => C39.others_kept (fun _ => C16.shell) (fun _ => none) [4, 0] (some [C40.joint]) hp) rfl
      (fun p hp => by
        have hp : p ∈ [4, 0] := hp
        simp only [if_pos hp, hpan]
        exact ⟨Nat.succ_pos _, Nat.succ_pos _⟩)
      (fun p hp => by
        have hp : p ∈ [4, 0] := hp
        simp only [if_pos hp]
        obtain ⟨-, lam, -, -, -, hlam, -⟩ := rebuild_built C16.env _ _ h.built
        exact ⟨t.fixR, lam, rebuild_again h.built, hlam⟩)
      [C40.joint] (by simp) (fun d hd => by
        rw [List.mem_singleton.1 hd]
        exact ⟨show C40.joint.p1 ∈ [4, 0] by decide, show C40.joint.p2 ∈ [4, 0] by decide, by decide, .inl ⟨.inl rfl, 0, 3, rfl, rfl⟩⟩) none (.inr ⟨rfl, rfl⟩)
    obtain ⟨K, hK, -⟩ := hk _ _ _ hc
    exact ⟨K, M2, hK⟩

example (r : ℝ) : ∃ K M2 f M3,
    pair.calcKC C16.env none (some (.vec (C40.total (fun _ => C16.shell) [4, 0]) C107.pushed)) = .ok (K, M2) ∧
    M2.calcFint C16.env (.vec (C40.total (fun _ => C16.shell) [4, 0]) fun k => r * C107.pushed k) = .ok (f, M3) ∧
    ∀ d, vdot f d = r * Coo.bilin K d C107.pushed := by
  obtain ⟨t, h, hc, K, M2, hK⟩ := pair_case
  obtain ⟨f, M3, h1, h2⟩ := force (T := fun _ => t) bardellShape_C2 (by decide) (fun _ _ => h) hK hc r
  exact ⟨K, M2, f, M3, hK, h1, h2⟩

/-- Forces that hold this state. -/
example (r : ℝ) : ∃ K M2 g f M3,
    pair.calcKC C16.env none (some (.vec (C40.total (fun _ => C16.shell) [4, 0]) C107.pushed)) = .ok (K, M2) ∧
    Balanced (Finset.range 210) K g (fun k => if k < 210 then C107.pushed k else 0) ∧
    M2.calcFint C16.env (.vec (C40.total (fun _ => C16.shell) [4, 0])
      fun k => r * if k < 210 then C107.pushed k else 0) = .ok (f, M3) ∧
    ∀ d : ℕ → ℝ, (∀ k ∉ Finset.range 210, d k = 0) → vdot f d = r * ∑ k ∈ Finset.range 210, g k * d k := by
  obtain ⟨t, h, hc, K, M2, hK⟩ := pair_case
  have hc' : AllFlat C16.env (fun _ => C16.shell) [4, 0] fun k => if k < 210 then C107.pushed k else 0 := by
    intro k hk x y
    have hs : C40.start (fun _ => C16.shell) [4, 0] k % 3 = 0 := by
      have : k = 0 ∨ k = 1 := by
        have : k < 2 := hk
        omega
      rcases this with rfl | rfl <;> rfl
    unfold u
    refine Finset.sum_eq_zero fun q _ => Finset.sum_eq_zero fun p _ => ?_
    simp only
    rw [show C107.pushed _ = 0 from if_pos (by omega), ite_self, zero_mul]
  have hb : Balanced (Finset.range 210) K (fun k => ∑ l ∈ Finset.range 210, Coo.entry K k l *
      if l < 210 then C107.pushed l else 0) (fun k => if k < 210 then C107.pushed k else 0) :=
    ⟨fun k hk => if_neg fun h => hk (Finset.mem_range.2 h), fun k _ => rfl⟩
  obtain ⟨f, M3, h1, h2⟩ := static (T := fun _ => t) bardellShape_C2 (by decide) (fun _ _ => h) hK hc' hb r
  exact ⟨K, M2, _, f, M3, hK, hb, h1, h2⟩

end Verif.C109
