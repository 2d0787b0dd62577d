import Verif.Basic.Exc
import Verif.Model.Assy
import Verif.Proofs.AssyTotal
import Verif.Proofs.BayLoop
import Verif.Props.C08
import Verif.Props.C11
import Verif.Props.C18
import Verif.Props.C40Conn
import Verif.Spec.Assy

/-!
# Stiffness of a ready-made assembly
-/

set_option linter.unusedSectionVars false

namespace Verif

open Model Spec

/-! ## One panel -/

/-- The stiffness matrix of a panel without state and without pre-stress. -/
theorem shell_kC_strain {E : Env ℝ} (hI : E.I.Exact E.S Mean.integral) (hS : E.S.C2)
    {s t : Shell ℝ} (ht : s.rebuild E = .ok t) (ha : s.pan.a ≠ 0) (hb : s.pan.b ≠ 0)
    (hr : s.r.getD 0 = 0 ∧ t.model.bind kindOf = some .plate ∨
      s.r.getD 0 ≠ 0 ∧ t.model.bind kindOf = some .cyl)
    (hN : ¬ C38.PreStress s) {lam : LamObj ℝ} (hl : t.lam = some lam) (hF : ABDSym lam.ABD)
    {L : Coo ℝ} {w : Shell ℝ} (h : s.calcKC E {} = .ok (L, w)) (c : ℕ → ℝ) :
    Coo.quad L c = strainWork E.S s.panel lam.ABD c := by
  have hN' : ¬ C38.PreStress t.fixR := by
    obtain ⟨-, -, -, -, -, -, rfl⟩ := (C54.rebuild_ok_iff E s t).1 ht
    exact hN
  have hp : t.fixR.panel = s.panel := by
    obtain ⟨-, -, -, -, -, -, rfl⟩ := (C54.rebuild_ok_iff E s t).1 ht
    rfl
  obtain ⟨k, lam', F, hk, hl', -, e⟩ := C38.outcome_partial E s t {} ht
    ⟨by simp, by simp, by simp, by simp [C38.sizeOf], by simp [C38.sizeOf]⟩ (by simp) (by simp)
  rw [hl] at hl'
  cases hl'
  rw [h] at e
  cases e
  have hC : C38.wantC E k t.fixR.panel lam.ABD F {} t.nx t.ny = fk0 E k s.panel lam.ABD 0 0 := by
    rw [← hp]; exact if_pos (by simp)
  have hG : C38.wantG E k t.fixR F {} t.nx t.ny = [] := if_pos ⟨rfl, hN'⟩
  simp only [Option.getD_none, hC, hG, List.append_nil, fin, if_true]
  rcases hr with ⟨hr, hm⟩ | ⟨hr, hm⟩
  · rw [hk] at hm
    cases hm
    have h0 : s.panel.r = 0 := hr
    rw [show fk0 E .plate s.panel lam.ABD 0 0 = plateFk0 E.I s.panel lam.ABD 0 0 from rfl,
      C08.plate_fk0_strain_energy hI hS s.panel ha hb lam.ABD hF]
    simp only [strainWork, linStrain, h0, div_zero]
  · rw [hk] at hm
    cases hm
    exact C11.cyl_fk0_strain_energy hI hS s.panel ha hb hr lam.ABD hF 0 c

/-- The geometric stiffness matrix of a panel without state. -/
theorem shell_kG_slope {E : Env ℝ} (hI : E.I.Exact E.S Mean.integral) (hS : E.S.C2)
    {s t : Shell ℝ} (ht : s.rebuild E = .ok t) (ha : s.pan.a ≠ 0) (hb : s.pan.b ≠ 0)
    {L : Coo ℝ} {w : Shell ℝ} (h : s.calcKG E {} = .ok (L, w)) (c : ℕ → ℝ) :
    Coo.quad L c = slopeWork E.S s.panel s.Nxx s.Nyy s.Nxy c := by
  have hp : t.fixR.panel = s.panel ∧ t.fixR.Nxx = s.Nxx ∧ t.fixR.Nyy = s.Nyy ∧ t.fixR.Nxy = s.Nxy ∧
      t.fixR.pan = s.pan := by
    obtain ⟨-, -, -, -, -, -, rfl⟩ := (C54.rebuild_ok_iff E s t).1 ht
    exact ⟨rfl, rfl, rfl, rfl, rfl⟩
  obtain ⟨k, lam, F, hbt, hk, hl, hF⟩ := rebuild_built E s t ht
  have key : Coo.quad (Coo.finalizeSym (fkG0 E k s.panel s.Nxx s.Nyy s.Nxy 0 0)) c
      = slopeWork E.S s.panel s.Nxx s.Nyy s.Nxy c := by
    have := C18.fkG0_initial_stress hI hS s.panel ha hb s.Nxx s.Nyy s.Nxy 0 c
    cases k
    · exact this.1
    · exact this.2
  have e : s.calcKG E {} = .ok (Coo.finalizeSym (fkG0 E k s.panel s.Nxx s.Nyy s.Nxy 0 0), t.fixR) := by
    have i2 : InSize s.panel 0 0 (3 * s.pan.m * s.pan.n) := by
      simp only [InSize, Shell.panel, zero_add, le_refl, and_self]
    obtain ⟨h1, h2, h3, h4, h5⟩ := hp
    have h6 : t.pan = s.pan := h5
    unfold Shell.calcKG
    simp only [ht, bind, Except.bind, checkOpt, hbt, SizeArg.value,
      Option.isNone_none, Bool.not_false, Bool.and_self, if_true, h1, h2, h3, h4, h6,
      fkG0_sparse E k _ _ _ _ i2]
    rfl
  rw [h] at e
  cases e
  exact key

/-! ## The assembly -/

/-- Everything the stiffness matrix of an assembly needs: panels that can be built, with positive
stiffnesses, and connections between different panels. -/
structure Fit (E : Env ℝ) (A : Assy ℝ) (T : ℕ → Shell ℝ) : Prop where
  exact : E.I.Exact E.S Mean.integral
  smooth : E.S.C2
  pos : 0 < A.count
  terms : ∀ p < A.count, 0 < (A.part p).shell.pan.m ∧ 0 < (A.part p).shell.pan.n
  built : ∀ p < A.count, (A.part p).shell.rebuild E = .ok (T p)
  stiff : ∀ p < A.count, ∃ lam, (T p).lam = some lam ∧ C44.Pos (penOf (T p) lam)
  sides : ∀ p < A.count, 0 < (A.part p).shell.pan.a ∧ 0 < (A.part p).shell.pan.b
  conns : A.conns ≠ []
  joined : ∀ d ∈ A.conns, Joinable (List.range A.count) d

/-- The assembly after its panels have been built. -/
noncomputable def _root_.Verif.Model.Assy.after (A : Assy ℝ) (T : ℕ → Shell ℝ) : Multi ℝ :=
  { A.multi with shells := fun p => if p ∈ List.range A.count then (T p).fixR else (A.part p).shell }

/-- First unknown of a panel. -/
def _root_.Verif.Model.Assy.start (A : Assy ℝ) (k : ℕ) : ℕ :=
  C40.start (fun p => (A.part p).shell) (List.range A.count) k

section
variable {E : Env ℝ} {A : Assy ℝ} {T : ℕ → Shell ℝ}

theorem Fit.fixed (h : Fit E A T) {p : ℕ} (hp : p < A.count) :
    (T p).fixR.rebuild E = .ok (T p).fixR :=
  fixR_fixed (C54.idempotent E _ _ (h.built p hp))

theorem Fit.pan (h : Fit E A T) {p : ℕ} (hp : p < A.count) : (T p).pan = (A.part p).shell.pan :=
  (rebuild_kept E (h.built p hp)).1

theorem after_shell {p : ℕ} (hp : p < A.count) : (A.after T).shells p = (T p).fixR :=
  if_pos (List.mem_range.2 hp)

theorem Fit.after_pan (h : Fit E A T) (p : ℕ) :
    ((A.after T).shells p).pan = (A.part p).shell.pan := by
  by_cases hp : p < A.count
  · rw [after_shell hp]
    exact h.pan hp
  · rw [show (A.after T).shells p = (A.part p).shell from if_neg fun e => hp (List.mem_range.1 e)]

theorem place_out (p : ℕ) (hp : ¬ p < A.count) : A.multi.place p = none :=
  C39.others_kept _ _ _ _ (fun e => hp (List.mem_range.1 e))

theorem Fit.laid (h : Fit E A T) : Laid (A.after T) := by
  have := laid_init (fun p => (A.part p).shell) (fun _ => none) (List.range A.count) none
    List.nodup_range
  refine ⟨this.nodup, fun k hk => ?_⟩
  obtain ⟨q, h1, h2⟩ := this.place k hk
  refine ⟨q, h1, h2.trans ?_⟩
  unfold C40.start
  simp only [h.after_pan]
  rfl

/-- The stiffness matrix of the assembly exists, and its quadratic form is the sum of those of the
panels taken alone and of the springs of the connections. -/
theorem Fit.kC (h : Fit E A T) :
    ∃ own : ℕ → Coo ℝ, (∀ k < A.count, (A.part k).shell.calcKC E {} = .ok (own k, (T k).fixR)) ∧
      ∃ k0 M2 es, A.multi.calcKC E (some A.conns) none = .ok (k0, M2) ∧
        List.Forall₂ (C40.Term E (A.after T)) A.conns es ∧
        (∀ v, Coo.quad k0 v = ((List.range A.count).map fun k =>
          Coo.quad (own k) fun i => v (A.start k + i)).sum + (es.map fun e => e v).sum) ∧
        (∀ p < A.count, M2.shells p = (T p).fixR) ∧ M2.place = A.multi.place ∧ M2.panels = A.multi.panels := by
  have hr : ∀ p ∈ List.range A.count, (A.part p).shell.rebuild E = .ok (T p) :=
    fun p hp => h.built p (List.mem_range.1 hp)
  have hx : ∃ L arg' M', (A.after T).getKCconn E (some A.conns) = .ok (Coo.finalizeSym L, arg', M') := by
    refine getKCconn_exists E (A.after T) h.laid (fun p hp => ?_) rfl (fun p hp => ?_) (fun p hp => ?_)
      A.conns h.conns h.joined _ (.inl rfl)
    · exact place_out p (fun e => hp (List.mem_range.2 e))
    · rw [h.after_pan]
      exact h.terms p (List.mem_range.1 hp)
    · have hp' := List.mem_range.1 hp
      obtain ⟨lam, hl, -⟩ := h.stiff p hp'
      rw [after_shell hp']
      exact ⟨_, lam, h.fixed hp', hl⟩
  obtain ⟨L, arg', M2, hk⟩ := hx
  obtain ⟨own, h1, h2⟩ := C40.kC_energy E (fun p => (A.part p).shell) (fun _ => none)
    (List.range A.count) none (some A.conns) List.nodup_range
    (by have := h.pos; simp [List.range_eq_nil]; omega) T hr none (by simp)
  obtain ⟨k0, h3, h4⟩ := h2 _ _ _ hk
  obtain ⟨es, h5, h6⟩ := C40.conn_energy E h.exact h.smooth (fun p => (A.part p).shell)
    (A.after T).shells (fun _ => none) (List.range A.count) none List.nodup_range h.after_pan
    (fun p hp => h.terms p (List.mem_range.1 hp))
    (fun p hp => by
      have hp' := List.mem_range.1 hp
      obtain ⟨lam, hl, hpos⟩ := h.stiff p hp'
      obtain ⟨s1, s2⟩ := h.sides p hp'
      refine ⟨?_, ?_, fun t lam' ht hl' => ?_⟩
      · rw [h.after_pan]; exact s1
      · rw [h.after_pan]; exact s2
      · rw [after_shell hp', h.fixed hp'] at ht
        cases ht
        have : lam' = lam := by
          have e : (T p).lam = some lam' := hl'
          rw [hl] at e
          cases e
          rfl
        rw [this]
        exact hpos)
    A.conns (fun d hd => ⟨(h.joined d hd).1, (h.joined d hd).2.1, (h.joined d hd).2.2.1⟩) _ _ _ hk
  have hlat : (∀ p < A.count, M2.shells p = (T p).fixR) ∧ M2.place = A.multi.place ∧
      M2.panels = A.multi.panels := by
    simp only [Multi.getKCconn, show (A.after T).kCconn = none from rfl, bind, Except.bind, pure,
      Except.pure] at hk
    split at hk; · cases hk
    rename_i x hx
    obtain ⟨L', l', M1⟩ := x
    simp only at hk
    split at hk; · cases hk
    cases hk
    obtain ⟨hl, -⟩ := connLoop_ok E _ _ _ _ _ _ _ hx
    refine ⟨fun p hp => ?_, hl.place, hl.panels⟩
    show M1.shells p = _
    rcases hl.shells p with e | e
    · rw [e, after_shell hp]
    · rw [after_shell hp, h.fixed hp] at e
      exact (Except.ok.inj e).symm
  refine ⟨own, fun k hk => ?_, k0, M2, es, h3, h5, fun v => ?_, hlat⟩
  · have := h1 k (by simpa using hk)
    simpa [C40.aloneArgs] using this
  · rw [h4 v, h6 v, List.length_range]
    rfl

theorem panelLoop_congr {f : Shell ℝ → Place → Except Fail (Coo ℝ × Shell ℝ)} (l : List ℕ) (hn : l.Nodup)
    (M M' N' : Multi ℝ) (hp : M.place = M'.place) (hs : ∀ p ∈ l, M.shells p = M'.shells p) (L : Coo ℝ)
    (h : panelLoop f l M' = .ok (L, N')) :
    ∃ N, panelLoop f l M = .ok (L, N) ∧ N.panels = M.panels ∧ N'.panels = M'.panels := by
  induction l generalizing M M' L with
  | nil =>
    cases h
    exact ⟨M, rfl, rfl, rfl⟩
  | cons p ps ih =>
    obtain ⟨n1, n2⟩ := List.nodup_cons.1 hn
    unfold panelLoop at h ⊢
    rw [hp, hs p List.mem_cons_self]
    cases hq : M'.place p with
    | none =>
      rw [hq] at h
      cases h
    | some q =>
    rw [hq] at h
    obtain ⟨⟨L1, s⟩, h1, h⟩ := bind_ok.1 h
    obtain ⟨⟨R, N1⟩, h2, h⟩ := bind_ok.1 h
    cases h
    obtain ⟨N, h3, h4, h5⟩ := ih n2 (M.setShell p s) (M'.setShell p s) hp (fun q hq => by
      have hne : q ≠ p := fun e => n1 (e ▸ hq)
      simp only [Multi.setShell, hne, if_false]
      exact hs q (List.mem_cons_of_mem _ hq)) R h2
    refine ⟨N, ?_, h4, h5⟩
    simp only [h1, h3, bind, Except.bind]
    rfl

/-- The geometric stiffness of two assemblies whose panels agree. -/
theorem calcKG_congr (E : Env ℝ) {M M' : Multi ℝ} (hn : M.panels.Nodup) (hl : M.panels = M'.panels)
    (hp : M.place = M'.place) (hs : ∀ p ∈ M.panels, M.shells p = M'.shells p) {L : Coo ℝ} {M1 : Multi ℝ}
    {c : Option (CArg ℝ)} (h : M'.calcKG E c = .ok (L, M1)) : ∃ M2, M.calcKG E c = .ok (L, M2) := by
  have hz : M.getSize = M'.getSize := by
    unfold Multi.getSize
    rw [← hl]
    congr 1
    exact List.map_congr_left fun p hp => by rw [hs p hp]
  unfold Multi.calcKG at h ⊢
  simp only at h ⊢
  obtain ⟨_, hc, h⟩ := bind_ok.1 h
  obtain ⟨⟨L1, N⟩, h1, h⟩ := bind_ok.1 h
  obtain ⟨G, h2, h⟩ := bind_ok.1 h
  cases h
  rw [← hl] at h1
  obtain ⟨N2, h3, h4, h5⟩ := panelLoop_congr M.panels hn M M' _ hp hs _ h1
  refine ⟨N2, ?_⟩
  rw [h5, ← hl, ← h4] at h2
  rw [hz]
  simp only [hc, h3, h2, bind, Except.bind]
  rfl

/-- The geometric stiffness matrix computed after the stiffness matrix: the sum of those of the
panels. -/
theorem Fit.kG (h : Fit E A T) {M2 : Multi ℝ} (hs : ∀ p < A.count, M2.shells p = (T p).fixR)
    (hp : M2.place = A.multi.place) (hl : M2.panels = A.multi.panels) :
    ∃ own : ℕ → Coo ℝ, (∀ k < A.count, (A.part k).shell.calcKG E {} = .ok (own k, (T k).fixR)) ∧
      ∃ kG M3, M2.calcKG E none = .ok (kG, M3) ∧
        ∀ v, Coo.quad kG v = ((List.range A.count).map fun k =>
          Coo.quad (own k) fun i => v (A.start k + i)).sum := by
  obtain ⟨own, h1, L, M', h2, h3⟩ := C40.kG_energy E (A.after T).shells (fun _ => none)
    (List.range A.count) none List.nodup_range
    (by have := h.pos; simp [List.range_eq_nil]; omega) (fun p => (T p).fixR)
    (fun p hp => by rw [after_shell (List.mem_range.1 hp)]; exact h.fixed (List.mem_range.1 hp))
    none (by simp)
  have hst : ∀ k, C40.start (A.after T).shells (List.range A.count) k = A.start k := fun k => by
    unfold Assy.start C40.start
    simp only [h.after_pan]
  have hpl : A.multi.place
      = (Multi.init (A.after T).shells (fun _ => none) (List.range A.count) none).place := by
    funext p
    by_cases hp : p ∈ List.range A.count
    · obtain ⟨i, hi, rfl⟩ := List.getElem_of_mem hp
      have e1 := C39.blocks_partial (fun p => (A.part p).shell) (fun _ => none) (List.range A.count)
        none List.nodup_range i hi
      have e2 := C39.blocks_partial (A.after T).shells (fun _ => none) (List.range A.count)
        none List.nodup_range i hi
      simp only [h.after_pan] at e2
      exact e1.trans e2.symm
    · exact (C39.others_kept (fun p => (A.part p).shell) (fun _ => none) _ none hp).trans
        (C39.others_kept (A.after T).shells (fun _ => none) _ none hp).symm
  obtain ⟨M3, h4⟩ := calcKG_congr E (M := M2) (by rw [hl]; exact List.nodup_range)
    (by rw [hl]; rfl) (hp.trans hpl) (fun p hp => by
      rw [hl] at hp
      have hp' := List.mem_range.1 hp
      rw [hs p hp']
      exact (after_shell hp').symm) h2
  refine ⟨own, fun k hk => ?_, L, M3, h4, fun v => ?_⟩
  · have := h1 k (by simpa using hk)
    simp only [List.getElem_range, C40.aloneArgs, Option.map_none, after_shell hk] at this
    have e : (T k).fixR.calcKG E {} = (A.part k).shell.calcKG E {} := by
      unfold Shell.calcKG
      rw [h.fixed hk, h.built k hk]
      rfl
    rw [← e, this]
    rfl
  · rw [h3 v, List.length_range]
    simp only [hst]
end

end Verif
