import Verif.Proofs.AssyEnergy
import Verif.Proofs.AssyLoads
import Verif.Props.C67
import Verif.Spec.Assy

/-!
# Forces of a ready-made assembly
-/

set_option linter.unusedSectionVars false

namespace Verif

open Model Spec Finset

theorem loadWork_axial {K : Type} [Field K] [LinearOrder K] (E : Env K) (p : Model.Part K) (hp : p.loads = {})
    (N : K) (s : ℕ) (c : ℕ → K) :
    C67.loadWork E p.shell.panel (withLoad p fun _ => N).loads 1 s c = axialWork E.G E.S p.shell.panel N s c := by
  simp [C67.loadWork, constWork, incWork, withLoad, hp, distrWork, comp, axialWork, Shell.panel]

theorem fextLoop_state {K : Type} [Field K] [LinearOrder K] (E : Env K) (loads : ℕ → Loads K) (inc : K)
    (size : ℕ) (l : List ℕ) (hn : l.Nodup) (M M' : Multi K) (f0 f : ℕ → K)
    (h : fextLoop E loads inc size l f0 M = .ok (f, M')) :
    M'.place = M.place ∧ M'.panels = M.panels ∧ M'.conn = M.conn ∧ M'.kCconn = M.kCconn ∧
      (∀ p ∈ l, (M.shells p).rebuild E = .ok (M'.shells p)) ∧ ∀ p, p ∉ l → M'.shells p = M.shells p := by
  induction l generalizing M f0 with
  | nil =>
    cases h
    exact ⟨rfl, rfl, rfl, rfl, by simp, fun _ _ => rfl⟩
  | cons p ps ih =>
    obtain ⟨n1, n2⟩ := List.nodup_cons.1 hn
    unfold fextLoop at h
    cases hq : M.place p with
    | none =>
      rw [hq] at h
      cases h
    | some q =>
    rw [hq] at h
    obtain ⟨s, h1, h⟩ := bind_ok.1 h
    obtain ⟨g, h2, h⟩ := bind_ok.1 h
    obtain ⟨e1, e2, e3, e4, e5, e6⟩ := ih n2 _ _ h
    refine ⟨e1, e2, e3, e4, fun r hr => ?_, fun r hr => ?_⟩
    · rcases List.mem_cons.1 hr with rfl | hr
      · rw [e6 r n1, show (M.setShell r s).shells r = s from if_pos rfl]
        exact h1
      · have := e5 r hr
        rwa [show (M.setShell p s).shells r = M.shells r from
          if_neg fun (e : r = p) => n1 (e ▸ hr)] at this
    · rw [List.mem_cons, not_or] at hr
      rw [e6 r hr.2]
      exact if_neg hr.1

theorem loaded_shell {K : Type} [Field K] [LinearOrder K] (A : Assy K) (n : ℕ) (f : ℕ → K → K) (p : ℕ) :
    ((loaded A n f).part p).shell = (A.part p).shell := by
  unfold loaded
  dsimp only
  split <;> rfl

theorem loaded_multi {K : Type} [Field K] [LinearOrder K] (A : Assy K) (n : ℕ) (f : ℕ → K → K) :
    (loaded A n f).multi = A.multi := by
  unfold Assy.multi
  simp only [loaded_shell]
  rfl

section
variable {E : Env ℝ} {A : Assy ℝ} {T : ℕ → Shell ℝ}

/-- The assembly with its panels rebuilt. -/
def rebuilt (A : Assy ℝ) (T : ℕ → Shell ℝ) : Assy ℝ :=
  { A with
    part := fun p => if p < A.count then { A.part p with shell := T p } else A.part p }

theorem rebuilt_shell {p : ℕ} (hp : p < A.count) : ((rebuilt A T).part p).shell = T p := by
  simp [rebuilt, hp]

theorem Fit.again (h : Fit E A T) : Fit E (rebuilt A T) T where
  exact := h.exact
  smooth := h.smooth
  pos := h.pos
  terms p hp := by
    have hp' : p < A.count := hp
    rw [rebuilt_shell hp', h.pan hp']
    exact h.terms p hp'
  built p hp := by
    have hp' : p < A.count := hp
    rw [rebuilt_shell hp']
    exact C54.idempotent E _ _ (h.built p hp')
  stiff := h.stiff
  sides p hp := by
    have hp' : p < A.count := hp
    rw [rebuilt_shell hp', h.pan hp']
    exact h.sides p hp'
  conns := h.conns
  joined := h.joined

/-- After the external forces the panels are rebuilt and nothing else has changed. -/
theorem Fit.fext_multi (h : Fit E A T) {A' : Assy ℝ} (hA : A'.multi = A.multi) {f : ℕ → ℝ} {M : Multi ℝ}
    (hf : A'.fext E = .ok (f, M)) : M = (rebuilt A T).multi := by
  have hM : Laid A.multi := laid_init _ _ _ _ List.nodup_range
  unfold Assy.fext at hf
  rw [hA] at hf
  obtain ⟨e1, e2, e3, e4, e5, e6⟩ := fextLoop_state E _ _ _ _ hM.nodup _ _ _ _ hf
  have hsh : ∀ p, ((rebuilt A T).part p).shell.pan = (A.part p).shell.pan := fun p => by
    by_cases hp : p < A.count
    · rw [rebuilt_shell hp, h.pan hp]
    · simp [rebuilt, hp]
  have h1 : M.shells = (rebuilt A T).multi.shells := by
    funext p
    show M.shells p = ((rebuilt A T).part p).shell
    by_cases hp : p < A.count
    · have := e5 p (List.mem_range.2 hp)
      rw [show A.multi.shells p = (A.part p).shell from rfl, h.built p hp] at this
      rw [rebuilt_shell hp]
      exact (Except.ok.inj this).symm
    · rw [e6 p (fun e => hp (List.mem_range.1 e))]
      simp [rebuilt, hp]
      rfl
  have h2 : M.place = (rebuilt A T).multi.place := by
    rw [e1]
    funext p
    by_cases hp : p ∈ List.range A.count
    · obtain ⟨i, hi, rfl⟩ := List.getElem_of_mem hp
      have e1 := C39.blocks_partial (fun p => (A.part p).shell) (fun _ => none) (List.range A.count)
        none List.nodup_range i hi
      have e2 := C39.blocks_partial (fun p => ((rebuilt A T).part p).shell) (fun _ => none)
        (List.range A.count) none List.nodup_range i hi
      simp only [hsh] at e2
      exact e1.trans e2.symm
    · exact (C39.others_kept (fun p => (A.part p).shell) (fun _ => none) _ none hp).trans
        (C39.others_kept (fun p => ((rebuilt A T).part p).shell) (fun _ => none) _ none hp).symm
  obtain ⟨s, pl, ps, cn, kc⟩ := M
  simp only at h1 h2 e2 e3 e4
  rw [h1, h2, e2, e3, e4]
  rfl

/-- External forces of an assembly with an axial load on each panel: their work, and the stiffness
matrix computed after them. -/
theorem Fit.fext (h : Fit E A T) (hl : ∀ p < A.count, (A.part p).loads = {}) (N : ℕ → ℝ) :
    ∃ f M k0 M', (loaded A A.count fun p _ => N p).fext E = .ok (f, M) ∧
      M.calcKC E (some A.conns) none = .ok (k0, M') ∧
      ∀ c, ∑ k ∈ range A.multi.getSize, f k * c k = ((List.range A.count).map fun i =>
        axialWork E.G E.S (A.part i).shell.panel (N i) (A.start i) c).sum := by
  have hM : Laid A.multi := laid_init _ _ _ _ List.nodup_range
  have hload : ∀ p < A.count, ((loaded A A.count fun p _ => N p).part p).loads
      = (withLoad (A.part p) fun _ => N p).loads := fun p hp => by
    simp [loaded, hp]
  obtain ⟨f, M, hf, hw⟩ := C67.fext_work E A.multi hM
    (fun p => ((loaded A A.count fun p _ => N p).part p).loads) 1 T
    (fun p hp => h.built p (List.mem_range.1 hp))
    (fun p hp l hl' => by
      have hp' := List.mem_range.1 hp
      rw [hload p hp'] at hl'
      simp [withLoad, hl p hp'] at hl'
      subst hl'
      simp [OnLine])
  have hF : (loaded A A.count fun p _ => N p).fext E = .ok (f, M) := by
    unfold Assy.fext
    rw [loaded_multi]
    exact hf
  have hMr := h.fext_multi (loaded_multi A _ _) hF
  obtain ⟨own, -, k0, M2, es, hk, -⟩ := h.again.kC
  refine ⟨f, M, k0, M2, hF, by rw [hMr]; exact hk, fun c => ?_⟩
  rw [hw c]
  simp only [show A.multi.panels = List.range A.count from rfl, List.length_range]
  congr 1
  refine List.map_congr_left fun i hi => ?_
  have hi' := List.mem_range.1 hi
  have : (List.range A.count).getD i 0 = i := by simp [List.getD, hi']
  rw [this, hload i hi']
  exact loadWork_axial E (A.part i) (hl i hi') (N i) _ c

theorem Assy_size (A : Assy ℝ) : A.multi.getSize = A.start A.count := by
  unfold Assy.start C40.start
  rw [List.take_of_length_le (by simp)]
  rfl
end

end Verif
