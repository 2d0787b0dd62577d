import Verif.Proofs.TLoads
import Verif.Props.C19

/-!
# Geometric stiffness of an assembly in a given state
-/

set_option linter.unusedSectionVars false

namespace Verif

open Model Spec

/-- Work, through the slopes of the deflection of `d`, of given membrane forces `N` and of those of the
linear strains of the state `c`, by the quadrature rule of the panel. -/
noncomputable def stateWork (G : GaussTab ℝ) (S : Shape ℝ) (nx ny : ℕ) (P : Panel ℝ) (F : ℕ → ℕ → ℝ)
    (N : ℕ → ℝ) (c d : ℕ → ℝ) : ℝ :=
  gaussP G nx ny P fun _ _ x y =>
    C19.initialStress (fun i => N i + resultant F (fun s => linStrain (1 / P.r) S P 0 c s x y) i)
      (u S P 0 d 2) x y

/-- The prescribed membrane forces of a panel. -/
def membrane (s : Shell ℝ) (i : ℕ) : ℝ := if i = 0 then s.Nxx else if i = 1 then s.Nyy else s.Nxy

/-- The geometric stiffness matrix of a panel in a state. -/
theorem shell_kG_state {E : Env ℝ} (hS : E.S.C2)
    {s t : Shell ℝ} (ht : s.rebuild E = .ok t) (ha : s.pan.a ≠ 0) (hb : s.pan.b ≠ 0)
    (hr : s.r.getD 0 = 0 ∧ t.model.bind kindOf = some .plate ∨
      s.r.getD 0 ≠ 0 ∧ t.model.bind kindOf = some .cyl)
    (ho : s.forceOrtho = false) {lam : LamObj ℝ} (hl : t.lam = some lam) (hF : ABDSym lam.ABD)
    (f : ℕ → ℝ) {L : Coo ℝ} {w : Shell ℝ}
    (h : s.calcKG E { c := some (.vec (3 * s.pan.m * s.pan.n) f) } = .ok (L, w)) (d : ℕ → ℝ) :
    Coo.quad L d = stateWork E.G E.S (max s.nx s.pan.m) (max s.ny s.pan.n) s.panel lam.ABD (membrane s) f d := by
  have hp : t.fixR.panel = s.panel ∧ t.fixR.Nxx = s.Nxx ∧ t.fixR.Nyy = s.Nyy ∧ t.fixR.Nxy = s.Nxy ∧
      t.fixR.pan = s.pan ∧ t.fixR.nx = max s.nx s.pan.m ∧ t.fixR.ny = max s.ny s.pan.n ∧ t.fixR.forceOrtho = s.forceOrtho := by
    obtain ⟨-, -, -, -, -, -, rfl⟩ := (C54.rebuild_ok_iff E s t).1 ht
    exact ⟨rfl, rfl, rfl, rfl, rfl, rfl, rfl, rfl⟩
  obtain ⟨h1, h2, h3, h4, h5, h6, h7, h8⟩ := hp
  obtain ⟨k, lam', F, hbt, hk, hl', hF'⟩ := rebuild_built E s t ht
  rw [hl] at hl'
  cases hl'
  have i2 : InSize s.panel 0 0 (3 * s.pan.m * s.pan.n) := by
    simp only [InSize, Shell.panel, zero_add, le_refl, and_self]
  have r2 : readable (CArg.vec (3 * s.pan.m * s.pan.n) f) 0 s.panel = .ok f := if_pos i2.2
  have h9 : t.pan = s.pan := h5
  have hA : lamABD false lam.ABD = lam.ABD := rfl
  have e : s.calcKG E { c := some (.vec (3 * s.pan.m * s.pan.n) f) }
      = .ok (Coo.finalizeSym (fkGnumF E k s.panel (fun _ _ => lam.ABD) f 0 0 (max s.nx s.pan.m)
        (max s.ny s.pan.n) 0 s.Nxx s.Nyy s.Nxy),
        t.fixR) := by
    unfold Shell.calcKG
    simp only [ht, bind, Except.bind, checkOpt, checkC, hbt, SizeArg.value, Option.isNone_some, h9,
      h1, h2, h3, h4, h6, h7, h8, ho, hA,
      Bool.false_and, Bool.false_eq_true, if_false, ne_eq, not_true_eq_false, Option.getD_some, r2,
      fkGnum_eq, lamAt, Option.getD_none, Except.map, lift,
      fkGnumF_sparse E k _ _ _ _ _ _ _ _ _ i2]
    rfl
  rw [h] at e
  cases e
  have key := C19.kG_linear hS E.G s.panel ha hb (fun _ _ => lam.ABD) (fun _ _ => hF) f d 0
    (max s.nx s.pan.m) (max s.ny s.pan.n) 0 (by decide) (membrane s)
  obtain ⟨⟨L1, e1, q1⟩, ⟨L2, e2, q2⟩⟩ := key
  rcases hr with ⟨hr, hm⟩ | ⟨hr, hm⟩
  · rw [hk] at hm
    cases hm
    have : L1 = fkGnumF E .plate s.panel (fun _ _ => lam.ABD) f 0 0 (max s.nx s.pan.m)
        (max s.ny s.pan.n) 0 s.Nxx s.Nyy s.Nxy := by
      simp only [plateFkGnum, lamAt, and_self, if_true, Except.map] at e1
      cases e1
      rfl
    rw [← this, q1]
    have h0 : s.panel.r = 0 := hr
    simp only [stateWork, h0, div_zero]
  · rw [hk] at hm
    cases hm
    have : L2 = fkGnumF E .cyl s.panel (fun _ _ => lam.ABD) f 0 0 (max s.nx s.pan.m)
        (max s.ny s.pan.n) 0 s.Nxx s.Nyy s.Nxy := by
      simp only [cylFkGnum, lamAt, and_self, if_true, Except.map] at e2
      cases e2
      rfl
    rw [← this, q2]
    rfl

/-! ## The loop leaves built panels as they are -/

theorem setShell_self (M : Multi ℝ) (p : ℕ) : M.setShell p (M.shells p) = M := by
  have : (fun q => if q = p then M.shells p else M.shells q) = M.shells := by
    funext q
    split
    · next h => rw [h]
    · rfl
  unfold Multi.setShell
  rw [this]

theorem panelLoop_id {f : Shell ℝ → Place → Except Fail (Coo ℝ × Shell ℝ)} (l : List ℕ) {M N : Multi ℝ}
    {L : Coo ℝ} (hf : ∀ p ∈ l, ∀ q L s, f (M.shells p) q = .ok (L, s) → s = M.shells p)
    (h : panelLoop f l M = .ok (L, N)) : N = M := by
  induction l generalizing L with
  | nil =>
    cases h
    rfl
  | cons p ps ih =>
    unfold panelLoop at h
    cases hq : M.place p with
    | none =>
      rw [hq] at h
      cases h
    | some q =>
    rw [hq] at h
    obtain ⟨⟨L1, s⟩, h1, h⟩ := bind_ok.1 h
    obtain ⟨⟨R, N1⟩, h2, h⟩ := bind_ok.1 h
    cases h
    rw [hf p List.mem_cons_self q L1 s h1, setShell_self] at h2
    exact ih (fun r hr => hf r (List.mem_cons_of_mem _ hr)) h2

theorem calcKM_id {E : Env ℝ} {M N : Multi ℝ} {L : Coo ℝ}
    (hs : ∀ p ∈ M.panels, (M.shells p).fixR = M.shells p) (h : M.calcKM E = .ok (L, N)) : N = M := by
  unfold Multi.calcKM at h
  obtain ⟨⟨L1, N1⟩, h1, h⟩ := bind_ok.1 h
  obtain ⟨G, -, h⟩ := bind_ok.1 h
  cases h
  refine panelLoop_id _ (fun p hp q L s h => ?_) h1
  unfold Shell.calcKM at h
  have hl : (M.shells p).fixR.lam = (M.shells p).lam := rfl
  cases hk : (M.shells p).model.bind kindOf with
  | none =>
    rw [hk] at h
    cases h
  | some k =>
  cases hm : (M.shells p).lam with
  | none =>
    simp only [hk, hl, hm] at h
    cases h
  | some lam =>
  simp only [hk, hl, hm, Option.isNone_none, Bool.and_self, if_true] at h
  change (toSparse _ _ >>= _) = _ at h
  obtain ⟨X, -, h⟩ := bind_ok.1 h
  cases h
  exact hs p hp

theorem calcKG_id {E : Env ℝ} {M N : Multi ℝ} {L : Coo ℝ} {c : Option (CArg ℝ)}
    (hs : ∀ p ∈ M.panels, (M.shells p).fixR = M.shells p ∧ (M.shells p).rebuild E = .ok (M.shells p))
    (h : M.calcKG E c = .ok (L, N)) : N = M := by
  unfold Multi.calcKG at h
  obtain ⟨-, -, h⟩ := bind_ok.1 h
  obtain ⟨⟨L1, N1⟩, h1, h⟩ := bind_ok.1 h
  obtain ⟨G, -, h⟩ := bind_ok.1 h
  cases h
  refine panelLoop_id _ (fun p hp q L s h => ?_) h1
  unfold Shell.calcKG at h
  obtain ⟨t, ht, h⟩ := bind_ok.1 h
  rw [(hs p hp).2] at ht
  cases ht
  obtain ⟨-, -, h⟩ := bind_ok.1 h
  obtain ⟨⟨k, lam, F⟩, -, h⟩ := bind_ok.1 h
  simp only at h
  split at h
  · obtain ⟨X, -, h⟩ := bind_ok.1 h
    cases h
    exact (hs p hp).1
  · obtain ⟨cs, -, h⟩ := bind_ok.1 h
    obtain ⟨X, -, h⟩ := bind_ok.1 h
    obtain ⟨Y, -, h⟩ := bind_ok.1 h
    cases h
    exact (hs p hp).1

section
variable {E : Env ℝ} {A : Assy ℝ} {T : ℕ → Shell ℝ}

theorem Fit.keep (h : Fit E A T) {M2 : Multi ℝ} (hs : ∀ p < A.count, M2.shells p = (T p).fixR)
    (hl : M2.panels = A.multi.panels) (p : ℕ) (hp : p ∈ M2.panels) :
    (M2.shells p).fixR = M2.shells p ∧ (M2.shells p).rebuild E = .ok (M2.shells p) := by
  rw [hl] at hp
  have hp' : p < A.count := List.mem_range.1 hp
  rw [hs p hp']
  exact ⟨rfl, h.fixed hp'⟩

theorem Fit.size (h : Fit E A T) {M2 : Multi ℝ} (hs : ∀ p < A.count, M2.shells p = (T p).fixR)
    (hl : M2.panels = A.multi.panels) : M2.getSize = A.multi.getSize := by
  unfold Multi.getSize
  rw [hl]
  congr 1
  refine List.map_congr_left fun p hp => ?_
  have hp' : p < A.count := List.mem_range.1 hp
  rw [hs p hp']
  show 3 * (T p).pan.m * (T p).pan.n = _
  rw [h.pan hp']
  rfl

/-- The geometric stiffness matrix in a state: the sum of those of the panels in their parts of it. -/
theorem Fit.kGstate (h : Fit E A T) {M2 : Multi ℝ} (hs : ∀ p < A.count, M2.shells p = (T p).fixR)
    (hp : M2.place = A.multi.place) (hl : M2.panels = A.multi.panels) (f : ℕ → ℝ) :
    ∃ own : ℕ → Coo ℝ, (∀ k < A.count, (A.part k).shell.calcKG E
        { c := some (.vec (3 * (A.part k).shell.pan.m * (A.part k).shell.pan.n) fun i => f (A.start k + i)) }
          = .ok (own k, (T k).fixR)) ∧
      ∃ kG, M2.calcKG E (some (.vec M2.getSize f)) = .ok (kG, M2) ∧
        ∀ v, Coo.quad kG v = ((List.range A.count).map fun k =>
          Coo.quad (own k) fun i => v (A.start k + i)).sum := by
  have hz : C40.total (A.after T).shells (List.range A.count) = M2.getSize := by
    rw [h.size hs hl]
    unfold C40.total
    simp only [h.after_pan]
    rfl
  obtain ⟨own, h1, L, M', h2, h3⟩ := C40.kG_energy E (A.after T).shells (fun _ => none)
    (List.range A.count) none List.nodup_range
    (by have := h.pos; simp [List.range_eq_nil]; omega) (fun p => (T p).fixR)
    (fun p hp => by rw [after_shell (List.mem_range.1 hp)]; exact h.fixed (List.mem_range.1 hp))
    (some (.vec M2.getSize f)) (fun x hx => ⟨f, by cases hx; rw [hz]⟩)
  obtain ⟨M3, h4⟩ := calcKG_congr E (M := M2) (by rw [hl]; exact List.nodup_range)
    (by rw [hl]; rfl) (hp.trans h.after_place) (fun p hp => by
      rw [hl] at hp
      have hp' := List.mem_range.1 hp
      rw [hs p hp']
      exact (after_shell hp').symm) h2
  have := calcKG_id (h.keep hs hl) h4
  subst this
  refine ⟨own, fun k hk => ?_, L, h4, fun v => ?_⟩
  · have := h1 k (by simpa using hk)
    simp only [List.getElem_range, C40.aloneArgs, Option.map_some, sliceC, after_shell hk, h.after_start] at this
    have hpan : (T k).fixR.pan = (A.part k).shell.pan := h.pan hk
    rw [hpan] at this
    refine Eq.trans ?_ this
    unfold Shell.calcKG
    rw [h.fixed hk, h.built k hk]
    rfl
  · rw [h3 v, List.length_range]
    simp only [h.after_start]

/-- The geometric stiffness matrix without state leaves the assembly as it is. -/
theorem Fit.kG_same (h : Fit E A T) {M2 : Multi ℝ} (hs : ∀ p < A.count, M2.shells p = (T p).fixR)
    (hp : M2.place = A.multi.place) (hl : M2.panels = A.multi.panels) :
    ∃ own : ℕ → Coo ℝ, (∀ k < A.count, (A.part k).shell.calcKG E {} = .ok (own k, (T k).fixR)) ∧
      ∃ kG, M2.calcKG E none = .ok (kG, M2) ∧
        ∀ v, Coo.quad kG v = ((List.range A.count).map fun k =>
          Coo.quad (own k) fun i => v (A.start k + i)).sum := by
  obtain ⟨own, h1, kG, M3, h2, h3⟩ := h.kG hs hp hl
  have := calcKG_id (h.keep hs hl) h2
  subst this
  exact ⟨own, h1, kG, h2, h3⟩

theorem Fit.kM_same (h : Fit E A T) {M2 : Multi ℝ} (hs : ∀ p < A.count, M2.shells p = (T p).fixR)
    (hp : M2.place = A.multi.place) (hl : M2.panels = A.multi.panels) :
    ∃ kM, M2.calcKM E = .ok (kM, M2) ∧
      ∀ v, Coo.quad kM v = ((List.range A.count).map fun k =>
        kineticWork E.S (A.part k).shell.panel (A.part k).shell.rho (T k).plyts.sum
          (A.part k).shell.offset fun i => v (A.start k + i)).sum := by
  obtain ⟨kM, M3, h2, h3⟩ := h.kM hs hp hl
  have := calcKM_id (fun p hp => (h.keep hs hl p hp).1) h2
  subst this
  exact ⟨kM, h2, h3⟩
end

/-! ## The panels without loads -/

/-- The arguments with zero axial loads. -/
def _root_.Verif.Model.TArgs.noLoad (q : TArgs ℝ) : TArgs ℝ :=
  { q with
    NxxSkin := 0
    NxxBase := 0
    NxxFlange := 0 }

section
variable {E : Env ℝ} {q : TArgs ℝ} {x1u : ℝ} {dn : ℕ} {T : ℕ → Shell ℝ} {lam : ℕ → LamObj ℝ}

theorem noLoad_part {k : ℕ} (hk : k < 15) : q.noLoad.part x1u dn k
    = { q.part x1u dn k with shell := { (q.part x1u dn k).shell with Nxx := 0 } } := by
  interval_cases k <;> rfl

theorem rebuild_noLoad {s t : Shell ℝ} (h : s.rebuild E = .ok t) :
    ({ s with Nxx := 0 } : Shell ℝ).rebuild E = .ok { t with Nxx := 0 } := by
  obtain ⟨h1, h2, h3, h4, lam, h5, rfl⟩ := (C54.rebuild_ok_iff E s t).1 h
  exact (C54.rebuild_ok_iff E _ _).2 ⟨h1, h2, h3, h4, lam, h5, rfl⟩

theorem TBuilt.noLoad (h : TBuilt E q x1u dn T lam) :
    TBuilt E q.noLoad x1u dn (fun k => { T k with Nxx := 0 }) lam where
  exact := h.exact
  smooth := h.smooth
  dims := ⟨h.dims.1, h.dims.2, h.dims.3, h.dims.4, h.dims.5, h.dims.6, h.dims.7⟩
  terms := h.terms
  termsb := h.termsb
  termsf := h.termsf
  curved := h.curved
  built k hk := by
    rw [noLoad_part hk]
    exact rebuild_noLoad (h.built k hk)
  hlam := h.hlam
  sym := h.sym
  pos := h.pos

theorem noLoad_pan {k : ℕ} (hk : k < 15) :
    (q.noLoad.part x1u dn k).shell.pan = (q.part x1u dn k).shell.pan := by
  rw [noLoad_part hk]

theorem noLoad_start (k : ℕ) : (q.noLoad.assy x1u dn).start k = (q.assy x1u dn).start k := by
  unfold Assy.start C40.start
  congr 1
  refine List.map_congr_left fun p hp => ?_
  have hp' : p < 15 := List.mem_range.1 (List.mem_of_mem_take hp)
  show 3 * (q.noLoad.part x1u dn p).shell.pan.m * (q.noLoad.part x1u dn p).shell.pan.n = _
  rw [noLoad_pan hp']
  rfl

theorem noLoad_place : (q.noLoad.assy x1u dn).multi.place = (q.assy x1u dn).multi.place := by
  funext p
  by_cases hp : p < 15
  · have e := fun q : TArgs ℝ => C39.blocks_partial (fun p => (q.part x1u dn p).shell) (fun _ => none)
      (List.range 15) none List.nodup_range p (by simpa using hp)
    simp only [List.getElem_range] at e
    refine (e q.noLoad).trans (Eq.trans ?_ (e q).symm)
    have e2 := noLoad_start (q := q) (x1u := x1u) (dn := dn)
    exact congrArg₂ (fun a b => some (Place.mk a a b b)) (e2 p) (e2 (p + 1))
  · exact (place_out (A := q.noLoad.assy x1u dn) p hp).trans (place_out (A := q.assy x1u dn) p hp).symm

/-- Exactly the panels that reach the edge `x = 0`. -/
theorem TBuilt.loaded (h : TBuilt E q x1u dn T lam) :
    (List.range (q.assy x1u dn).count).filter (fun k => ((q.assy x1u dn).part k).x0 = 0)
      = [6, 7, 8, 13, 14] := by
  have e : ∀ k ∈ List.range (q.assy x1u dn).count,
      decide (((q.assy x1u dn).part k).x0 = 0) = decide (tcol k = 0) := fun k hk => by
    have hk' : k < 15 := List.mem_range.1 hk
    obtain ⟨-, g1, -⟩ := h.dims.grid x1u dn hk'
    rw [decide_eq_decide]
    exact ⟨fun e => h.dims.gx_inj ((tcol_le k hk').trans (by omega)) (by omega) (g1.symm.trans e),
      fun e => g1.trans (by rw [e]; rfl)⟩
  rw [List.filter_congr e]
  rfl

/-- The static case. -/
theorem TBuilt.tStatic (h : TBuilt E q x1u dn T lam) (solve : Coo ℝ → (ℕ → ℝ) → Except Fail (ℕ → ℝ))
    (k0 : Coo ℝ) {M : Multi ℝ} (hs : ∀ p < (q.assy x1u dn).count, M.shells p = (T p).fixR)
    (hp : M.place = (q.assy x1u dn).multi.place) (hl : M.panels = (q.assy x1u dn).multi.panels) :
    ∃ A' M' f, (∀ e, solve k0 f = .error e → Model.tStatic E solve k0 (q.assy x1u dn) M = .error e) ∧
      (∀ c, solve k0 f = .ok c →
        Model.tStatic E solve k0 (q.assy x1u dn) M = .ok (A', M', f, c)) ∧
      (∀ p < (q.noLoad.assy x1u dn).count, M'.shells p = ({ T p with Nxx := 0 } : Shell ℝ).fixR) ∧
      M'.place = (q.noLoad.assy x1u dn).multi.place ∧ M'.panels = (q.noLoad.assy x1u dn).multi.panels ∧
      ∀ c, ∑ k ∈ Finset.range (q.assy x1u dn).multi.getSize, f k * c k
        = (((List.range (q.assy x1u dn).count).filter fun k => ((q.assy x1u dn).part k).x0 = 0).map fun k =>
          endWork E.G E.S ((q.assy x1u dn).part k).shell.panel (tNxx q ((q.assy x1u dn).part k).group)
            ((q.assy x1u dn).start k) c).sum := by
  have hlt : ∀ p ∈ [6, 7, 8, 13, 14], p < (q.assy x1u dn).count := by
    intro p hp
    show p < 15
    revert p
    decide
  obtain ⟨B, M', f, hf, i1, i2, i3, hw⟩ := h.fit.tLoads [6, 7, 8, 13, 14] (by decide) hlt
    (fun p hp => (tPart_loads (hlt p hp)).1) (q.assy x1u dn) M (fun _ => 0) (fun _ _ => rfl) hp hs
    (fun _ _ _ _ _ => rfl)
  refine ⟨B, M'.clearNxx, fun k => - f k, fun e he => ?_, fun c hc => ?_, fun p hp => ?_, ?_, ?_, fun c => ?_⟩
  · unfold Model.tStatic
    simp only [hf, bind, Except.bind, he]
  · unfold Model.tStatic
    simp only [hf, bind, Except.bind, hc]
    rfl
  · have hm : p ∈ M'.panels := by
      rw [i3, hl]
      exact List.mem_range.2 hp
    show (if p ∈ M'.panels then _ else _) = _
    rw [if_pos hm, i1 p hp]
    rfl
  · rw [noLoad_place, ← hp, ← i2]
    rfl
  · show M'.panels = _
    rw [i3, hl]
    rfl
  · rw [h.loaded]
    simp only [neg_mul, Finset.sum_neg_distrib, hw c]
    simp only [zero_mul, Finset.sum_const_zero, zero_sub, neg_neg]
    congr 1

/-- Work of the membrane forces of a state in all panels. -/
noncomputable def tStateWork (E : Env ℝ) (A : Assy ℝ) (lam : ℕ → LamObj ℝ) (c v : ℕ → ℝ) : ℝ :=
  ((List.range A.count).map fun k => let s := (A.part k).shell
    stateWork E.G E.S (max s.nx s.pan.m) (max s.ny s.pan.n) s.panel (lam k).ABD (fun _ => 0)
      (fun i => c (A.start k + i)) fun i => v (A.start k + i)).sum

/-- The geometric stiffness in a state, after the axial loads have been removed. -/
theorem TBuilt.kGstate (h : TBuilt E q x1u dn T lam) {M : Multi ℝ}
    (hs : ∀ p < (q.noLoad.assy x1u dn).count, M.shells p = ({ T p with Nxx := 0 } : Shell ℝ).fixR)
    (hp : M.place = (q.noLoad.assy x1u dn).multi.place)
    (hl : M.panels = (q.noLoad.assy x1u dn).multi.panels) (c : ℕ → ℝ) :
    ∃ kG, M.calcKG E (some (.vec M.getSize c)) = .ok (kG, M) ∧
      ∀ v, Coo.quad kG v = tStateWork E (q.assy x1u dn) lam c v := by
  have h0 := h.noLoad
  obtain ⟨own, h1, kG, h2, h3⟩ := h0.fit.kGstate hs hp hl c
  refine ⟨kG, h2, fun v => ?_⟩
  rw [h3 v, tStateWork]
  congr 1
  refine List.map_congr_left fun k hk => ?_
  have hk' : k < 15 := List.mem_range.1 hk
  obtain ⟨s1, s2⟩ := h0.sides hk'
  have ho : (q.noLoad.part x1u dn k).shell.forceOrtho = false := by interval_cases k <;> rfl
  have := shell_kG_state h.smooth (h0.built k hk') s1.ne' s2.ne' (tPart_kind h0 hk') ho (h.hlam k hk')
    (h.sym k hk') _ (h1 k hk') fun i => v ((q.noLoad.assy x1u dn).start k + i)
  rw [this]
  have hm : membrane (q.noLoad.part x1u dn k).shell = fun _ => 0 := by
    obtain ⟨-, -, e1, e2, -⟩ := tPart_loads (q := q.noLoad) (x1u := x1u) (dn := dn) hk'
    funext i
    unfold membrane
    rw [e1, e2, noLoad_part hk']
    simp
  rw [hm, noLoad_start, noLoad_part hk']
  rfl
end

end Verif
