import Verif.Proofs.AssyEnergy
import Verif.Props.C20

/-!
# Mass of a ready-made assembly
-/

set_option linter.unusedSectionVars false

namespace Verif

open Model Spec

/-- Twice the kinetic energy of a panel of density `rho` and thickness `h`, whose mid-surface is at the
distance `d` from the reference surface. -/
noncomputable def kineticWork (S : Shape ℝ) (P : Panel ℝ) (rho h d : ℝ) (c : ℕ → ℝ) : ℝ :=
  ∫ x in (0 : ℝ)..P.a, ∫ y in (0 : ℝ)..P.b,
    C20.kinetic rho h d (u S P 0 c 0) (u S P 0 c 1) (u S P 0 c 2) x y

/-- The mass matrix of a panel. -/
theorem shell_kM_kinetic {E : Env ℝ} (hI : E.I.Exact E.S Mean.integral) (hS : E.S.C2)
    {s : Shell ℝ} {k : Kind} (hk : s.model.bind kindOf = some k) {lam : LamObj ℝ} (hl : s.lam = some lam)
    (ha : s.pan.a ≠ 0) (hb : s.pan.b ≠ 0)
    {L : Coo ℝ} {w : Shell ℝ} (h : s.calcKM E .none 0 0 none none none none true = .ok (L, w))
    (c : ℕ → ℝ) : Coo.quad L c = kineticWork E.S s.panel s.rho s.plyts.sum s.offset c := by
  have key := C20.fkM_kinetic hI hS s.panel ha hb s.offset s.plyts.sum s.rho 0 c
  have h1 : s.fixR.panel = s.panel := rfl
  have h2 : s.fixR.lam = some lam := hl
  unfold Shell.calcKM at h
  simp only [hk, h2, h1, bind, Except.bind, Option.isNone_none, Bool.and_self, if_true] at h
  cases k
  · simp only at h
    split at h
    · cases h
    rename_i x hx
    have := toSparse_ok hx
    cases h
    rw [fin, if_pos rfl, this]
    exact key.1
  · simp only at h
    split at h
    · cases h
    rename_i x hx
    have := toSparse_ok hx
    cases h
    rw [fin, if_pos rfl, this]
    exact key.2

section
variable {E : Env ℝ} {A : Assy ℝ} {T : ℕ → Shell ℝ}

theorem Fit.after_start (h : Fit E A T) (k : ℕ) :
    C40.start (A.after T).shells (List.range A.count) k = A.start k := by
  unfold Assy.start C40.start
  simp only [h.after_pan]

theorem Fit.after_place (h : Fit E A T) : A.multi.place
    = (Multi.init (A.after T).shells (fun _ => none) (List.range A.count) none).place := by
  funext p
  by_cases hp : p ∈ List.range A.count
  · obtain ⟨i, hi, rfl⟩ := List.getElem_of_mem hp
    have e1 := C39.blocks_partial (fun p => (A.part p).shell) (fun _ => none) (List.range A.count)
      none List.nodup_range i hi
    have e2 := C39.blocks_partial (A.after T).shells (fun _ => none) (List.range A.count)
      none List.nodup_range i hi
    simp only [h.after_pan] at e2
    exact e1.trans e2.symm
  · exact (C39.others_kept (fun p => (A.part p).shell) (fun _ => none) _ none hp).trans
      (C39.others_kept (A.after T).shells (fun _ => none) _ none hp).symm

/-- The mass of two assemblies whose panels agree. -/
theorem calcKM_congr (E : Env ℝ) {M M' : Multi ℝ} (hn : M.panels.Nodup) (hl : M.panels = M'.panels)
    (hp : M.place = M'.place) (hs : ∀ p ∈ M.panels, M.shells p = M'.shells p) {L : Coo ℝ} {M1 : Multi ℝ}
    (h : M'.calcKM E = .ok (L, M1)) : ∃ M2, M.calcKM E = .ok (L, M2) := by
  have hz : M.getSize = M'.getSize := by
    unfold Multi.getSize
    rw [← hl]
    congr 1
    exact List.map_congr_left fun p hp => by rw [hs p hp]
  unfold Multi.calcKM at h ⊢
  simp only at h ⊢
  obtain ⟨⟨L1, N⟩, h1, h⟩ := bind_ok.1 h
  obtain ⟨G, h2, h⟩ := bind_ok.1 h
  cases h
  rw [← hl] at h1
  obtain ⟨N2, h3, h4, h5⟩ := panelLoop_congr M.panels hn M M' _ hp hs _ h1
  refine ⟨N2, ?_⟩
  rw [h5, ← hl, ← h4] at h2
  rw [hz]
  simp only [h3, h2, bind, Except.bind]
  rfl

/-- The mass matrix computed after the stiffness matrix: the kinetic energies of the panels. -/
theorem Fit.kM (h : Fit E A T) {M2 : Multi ℝ} (hs : ∀ p < A.count, M2.shells p = (T p).fixR)
    (hp : M2.place = A.multi.place) (hl : M2.panels = A.multi.panels) :
    ∃ kM M3, M2.calcKM E = .ok (kM, M3) ∧
      ∀ v, Coo.quad kM v = ((List.range A.count).map fun k =>
        kineticWork E.S (A.part k).shell.panel (A.part k).shell.rho (T k).plyts.sum
          (A.part k).shell.offset fun i => v (A.start k + i)).sum := by
  have hm : ∀ p < A.count, ∃ k lam, (T p).fixR.model.bind kindOf = some k ∧ (T p).fixR.lam = some lam :=
    fun p hp => by
      obtain ⟨k, lam, F, -, hk, hl, -⟩ := rebuild_built E _ _ (h.built p hp)
      exact ⟨k, lam, hk, hl⟩
  obtain ⟨own, h1, L, M', h2, h3⟩ := C40.kM_energy E (A.after T).shells (fun _ => none)
    (List.range A.count) none List.nodup_range
    (by have := h.pos; simp [List.range_eq_nil]; omega)
    (fun p hp => by
      rw [after_shell (List.mem_range.1 hp)]
      obtain ⟨k, -, hk, -⟩ := hm p (List.mem_range.1 hp)
      exact ⟨k, hk⟩)
    (fun p hp => by
      rw [after_shell (List.mem_range.1 hp)]
      obtain ⟨-, lam, -, hl⟩ := hm p (List.mem_range.1 hp)
      exact ⟨lam, hl⟩)
  obtain ⟨M3, h4⟩ := calcKM_congr E (M := M2) (by rw [hl]; exact List.nodup_range)
    (by rw [hl]; rfl) (hp.trans h.after_place) (fun p hp => by
      rw [hl] at hp
      have hp' := List.mem_range.1 hp
      rw [hs p hp']
      exact (after_shell hp').symm) h2
  refine ⟨L, M3, h4, fun v => ?_⟩
  rw [h3 v, List.length_range]
  congr 1
  refine List.map_congr_left fun k hk => ?_
  have hk' := List.mem_range.1 hk
  have := h1 k (by simpa using hk')
  simp only [List.getElem_range, after_shell hk'] at this
  obtain ⟨kd, lam, e1, e2⟩ := hm k hk'
  obtain ⟨s1, s2⟩ := h.sides k hk'
  have hpan := h.pan hk'
  rw [h.after_start, shell_kM_kinetic h.exact h.smooth e1 e2 (by show (T k).pan.a ≠ 0; rw [hpan]; exact s1.ne')
    (by show (T k).pan.b ≠ 0; rw [hpan]; exact s2.ne') this]
  have f1 : (T k).fixR.panel = (A.part k).shell.panel := (rebuild_kept E (h.built _ hk')).2.2.1
  have f2 : (T k).fixR.rho = (A.part k).shell.rho ∧ (T k).fixR.offset = (A.part k).shell.offset := by
    obtain ⟨-, -, -, -, lam, -, e⟩ := (C54.rebuild_ok_iff E _ _).1 (h.built k hk')
    rw [e]
    exact ⟨rfl, rfl⟩
  rw [f1, f2.1, f2.2]
  rfl
end

end Verif
