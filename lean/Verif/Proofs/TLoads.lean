import Verif.Proofs.AssyFext
import Verif.Proofs.TFit

/-!
# Forces of the static case of the panel with a T stiffener
-/

set_option linter.unusedSectionVars false

namespace Verif

open Model Spec Finset

variable {E : Env ℝ} {A : Assy ℝ} {T : ℕ → Shell ℝ}

theorem multi_place {p : ℕ} (hp : p < A.count) : ∃ q, A.multi.place p = some q ∧ q.col0 = A.start p ∧
    q.col1 = A.start (p + 1) := by
  have := C39.blocks_partial (fun p => (A.part p).shell) (fun _ => none) (List.range A.count) none
    List.nodup_range p (by simpa using hp)
  rw [List.getElem_range] at this
  exact ⟨_, this, rfl, rfl⟩

/-- A block of a sum. -/
theorem sum_slice {n a b : ℕ} (hb : b ≤ n) (f0 g c : ℕ → ℝ)
    (h0 : ∀ k, a ≤ k → k < b → f0 k = 0) :
    ∑ k ∈ range n, (if a ≤ k ∧ k < b then g (k - a) else f0 k) * c k
      = ∑ k ∈ range n, f0 k * c k + ∑ k ∈ range (b - a), g k * c (a + k) := by
  have h1 : ∀ k, (if a ≤ k ∧ k < b then g (k - a) else f0 k) * c k
      = f0 k * c k + if a ≤ k ∧ k < b then g (k - a) * c k else 0 := fun k => by
    split
    · rename_i h
      rw [h0 k h.1 h.2]
      ring
    · ring
  simp only [h1, sum_add_distrib]
  congr 1
  rw [← sum_filter]
  have h2 : (range n).filter (fun k => a ≤ k ∧ k < b) = Finset.Ico a b := by
    ext k
    simp only [Finset.mem_filter, Finset.mem_range, Finset.mem_Ico]
    omega
  rw [h2, sum_Ico_eq_sum_range]
  refine sum_congr rfl fun k _ => ?_
  rw [Nat.add_sub_cancel_left]

theorem loadWork_end (E : Env ℝ) (P : Panel ℝ) (N : ℝ) (s : ℕ) (c : ℕ → ℝ) :
    constWork E.G P { ({} : Loads ℝ) with distrLoads := [⟨some 0, none, some fun _ => N, none, none⟩] }
        (Spec.field E.S P s c)
      + 1 * incWork E.G P
        { ({} : Loads ℝ) with distrLoads := [⟨some 0, none, some fun _ => N, none, none⟩] }
        (Spec.field E.S P s c)
      = -endWork E.G E.S P N s c := by
  simp [constWork, incWork, distrWork, comp, endWork, lineQuad]

/-- The loop over the loaded panels. -/
theorem Fit.tLoads (h : Fit E A T) (l : List ℕ) (hn : l.Nodup) (hl : ∀ p ∈ l, p < A.count)
    (hA : ∀ p ∈ l, (A.part p).loads = {}) (B : Assy ℝ) (M : Multi ℝ) (f0 : ℕ → ℝ)
    (hB : ∀ p ∈ l, B.part p = A.part p) (hp : M.place = A.multi.place)
    (hs : ∀ p < A.count, M.shells p = (T p).fixR)
    (h0 : ∀ p ∈ l, ∀ k, A.start p ≤ k → k < A.start (p + 1) → f0 k = 0) :
    ∃ B' M' f, l.foldlM (tLoadStep E) (B, M, f0) = .ok (B', M', f) ∧
      (∀ p < A.count, M'.shells p = (T p).fixR) ∧ M'.place = M.place ∧ M'.panels = M.panels ∧
      ∀ c, ∑ k ∈ range A.multi.getSize, f k * c k = ∑ k ∈ range A.multi.getSize, f0 k * c k
        - (l.map fun p => endWork E.G E.S (A.part p).shell.panel (A.part p).shell.Nxx (A.start p) c).sum := by
  induction l generalizing B M f0 with
  | nil => exact ⟨B, M, f0, rfl, hs, rfl, rfl, fun c => by simp⟩
  | cons p l ih =>
    obtain ⟨n1, n2⟩ := List.nodup_cons.1 hn
    have hpc := hl p List.mem_cons_self
    obtain ⟨q, hq, q0, q1⟩ := multi_place (A := A) hpc
    have hP : (T p).fixR.panel = (A.part p).shell.panel := (rebuild_kept E (h.built _ hpc)).2.2.1
    have hN : (T p).fixR.Nxx = (A.part p).shell.Nxx := by
      obtain ⟨-, -, -, -, lam, -, e⟩ := (C54.rebuild_ok_iff E _ _).1 (h.built p hpc)
      rw [e]
      rfl
    obtain ⟨g, hg, hw⟩ := C33.work E.S E.G (A.part p).shell.panel
      { ({} : Loads ℝ) with distrLoads := [⟨some 0, none, some fun _ => (A.part p).shell.Nxx, none, none⟩] }
      (by intro l hl; simp at hl; subst hl; simp [OnLine]) 1 .none 0 (by simp [SizeArg.value])
    have hstep : tLoadStep E (B, M, f0) p = .ok
        ({ B with
            part := fun k => if k = p then { B.part p with loads :=
              { ({} : Loads ℝ) with
                distrLoads := [⟨some 0, none, some fun _ => (A.part p).shell.Nxx, none, none⟩] } }
              else B.part k },
          M.setShell p (T p).fixR,
          fun k => if q.col0 ≤ k ∧ k < q.col1 then g (k - q.col0) else f0 k) := by
      unfold tLoadStep
      simp only [hB p List.mem_cons_self, hA p List.mem_cons_self, hs p hpc, h.fixed hpc, hP, hN,
        Loads.addDistrLoadFixedX, Option.isSome_some, Option.isSome_none, Bool.or_false,
        Bool.not_true, Bool.false_eq_true, if_false, if_true, lift, bind, Except.bind, List.nil_append, hg, hp, hq]
      rfl
    have hsz : A.start (p + 1) ≤ A.multi.getSize := by
      rw [Assy_size]
      rcases Nat.lt_or_ge (p + 1) A.count with e | e
      · exact (h.start_lt e le_rfl).le
      · rw [show p + 1 = A.count by omega]
    obtain ⟨B', M', f, hf, i1, i2, i3, hw'⟩ := ih n2 (fun r hr => hl r (List.mem_cons_of_mem _ hr))
      (fun r hr => hA r (List.mem_cons_of_mem _ hr)) { B with
            part := fun k => if k = p then { B.part p with loads :=
              { ({} : Loads ℝ) with
                distrLoads := [⟨some 0, none, some fun _ => (A.part p).shell.Nxx, none, none⟩] } }
              else B.part k } (M.setShell p (T p).fixR)
      (fun k => if q.col0 ≤ k ∧ k < q.col1 then g (k - q.col0) else f0 k)
      (fun r hr => by
        have hne : r ≠ p := fun e => n1 (e ▸ hr)
        simp only [hne, if_false]
        exact hB r (List.mem_cons_of_mem _ hr)) hp
      (fun r hr => by
        by_cases e : r = p
        · subst e
          exact if_pos rfl
        · rw [show (M.setShell p (T p).fixR).shells r = M.shells r from if_neg e]
          exact hs r hr)
      (fun r hr k k1 k2 => by
        have hne : r ≠ p := fun e => n1 (e ▸ hr)
        have hrc := hl r (List.mem_cons_of_mem _ hr)
        have : ¬ (q.col0 ≤ k ∧ k < q.col1) := by
          rw [q0, q1]
          rcases Nat.lt_or_ge r p with e | e
          · have : A.start (r + 1) ≤ A.start p := by
              rcases Nat.lt_or_ge (r + 1) p with e' | e'
              · exact (h.start_lt e' hpc.le).le
              · rw [show r + 1 = p by omega]
            omega
          · have : A.start (p + 1) ≤ A.start r := by
              rcases Nat.lt_or_ge (p + 1) r with e' | e'
              · exact (h.start_lt e' hrc.le).le
              · rw [show p + 1 = r by omega]
            omega
        rw [if_neg this]
        exact h0 r (List.mem_cons_of_mem _ hr) k k1 k2)
    refine ⟨B', M', f, ?_, i1, i2, i3, fun c => ?_⟩
    · rw [List.foldlM_cons, hstep]
      exact hf
    · rw [hw' c, q0, q1, sum_slice hsz f0 g c (h0 p List.mem_cons_self), List.map_cons,
        List.sum_cons]
      have e : A.start (p + 1) - A.start p
          = SizeArg.none.value (3 * (A.part p).shell.panel.m * (A.part p).shell.panel.n) := by
        rw [Assy_start_succ hpc, Nat.add_sub_cancel_left]
        rfl
      rw [e, hw fun k => c (A.start p + k), loadWork_end]
      have e2 : endWork E.G E.S (A.part p).shell.panel (A.part p).shell.Nxx 0 (fun k => c (A.start p + k))
          = endWork E.G E.S (A.part p).shell.panel (A.part p).shell.Nxx (A.start p) c := by
        unfold endWork
        congr 1
        funext y
        congr 1
        simp only [Spec.field, disp, zero_add, add_assoc]
      rw [e2]
      ring

end Verif
