import Verif.Model.MultiForce
import Verif.Props.C15
import Verif.Props.C33
import Verif.Props.C40Conn
import Verif.Props.C54
import Verif.Proofs.AssyTotal

/-!
# C67: force vectors of an assembly

The external force vector of an assembly does the work of the loads of all panels; the internal force
vector is the gradient of the energy of panels and connections.
-/

set_option linter.unusedSectionVars false

namespace Verif.C67

open Model Spec Finset

section
variable {K : Type} [Field K] [LinearOrder K]

/-! ## External forces -/

/-- Work of the loads `L` of a panel whose block starts at `s`, on the amplitudes `c`. -/
def loadWork (E : Env K) (P : Panel K) (L : Loads K) (inc : K) (s : ℕ) (c : ℕ → K) : K :=
  constWork E.G P L (Spec.field E.S P s c) + inc * incWork E.G P L (Spec.field E.S P s c)

theorem fextLoop_work (E : Env K) (loads : ℕ → Loads K) (inc : K) (size : ℕ) (T : ℕ → Shell K)
    (q : ℕ → Place) : ∀ (l : List ℕ) (M : Multi K) (f0 : ℕ → K), l.Nodup →
    (∀ p ∈ l, M.place p = some (q p)) → (∀ p ∈ l, (M.shells p).rebuild E = .ok (T p)) →
    (∀ p ∈ l, WellFormed (loads p)) →
    (∀ p ∈ l, (q p).col0 + 3 * (M.shells p).pan.m * (M.shells p).pan.n ≤ size) →
    ∃ f M', fextLoop E loads inc size l f0 M = .ok (f, M') ∧
      ∀ c, ∑ k ∈ range size, f k * c k = ∑ k ∈ range size, f0 k * c k
        + (l.map fun p => loadWork E (M.shells p).panel (loads p) inc (q p).col0 c).sum := by
  intro l
  induction l with
  | nil => intro M f0 _ _ _ _ _; exact ⟨f0, M, rfl, fun c => by simp⟩
  | cons p ps ih =>
    intro M f0 hn hq hT hL hs
    obtain ⟨hp, hps⟩ := List.nodup_cons.1 hn
    have m1 : p ∈ p :: ps := List.mem_cons_self
    have epan := (rebuild_kept E (hT p m1)).2.2.1
    obtain ⟨g, hg, hw⟩ := C33.work E.S E.G (T p).panel (loads p) (hL p m1) inc (.num size) (q p).col0
      (by rw [epan]; exact hs p m1)
    have keep : ∀ p' ∈ ps, (M.setShell p (T p)).shells p' = M.shells p' := fun p' h => by
      have : p' ≠ p := fun e => hp (e ▸ h)
      simp [Multi.setShell, this]
    obtain ⟨f, M', hf, hw'⟩ := ih (M.setShell p (T p)) (fun k => f0 k + g k) hps
      (fun p' h => hq p' (List.mem_cons_of_mem _ h))
      (fun p' h => by rw [keep p' h]; exact hT p' (List.mem_cons_of_mem _ h))
      (fun p' h => hL p' (List.mem_cons_of_mem _ h))
      (fun p' h => by rw [keep p' h]; exact hs p' (List.mem_cons_of_mem _ h))
    refine ⟨f, M', ?_, fun c => ?_⟩
    · unfold fextLoop
      simp only [hq p m1, hT p m1, bind, Except.bind, hg, lift]
      exact hf
    · rw [hw' c, List.map_cons, List.sum_cons, List.map_congr_left fun p' h => by rw [keep p' h]]
      have := hw c
      simp only [SizeArg.value] at this
      simp only [add_mul, sum_add_distrib, this]
      rw [loadWork, epan]
      ring

/-- **C67, external forces.**  The vector of the assembly exists and its product with the amplitudes is
the sum over the panels of the work of their loads on their own displacements. -/
theorem fext_work (E : Env K) (M : Multi K) (hM : Laid M) (loads : ℕ → Loads K) (inc : K)
    (T : ℕ → Shell K) (hT : ∀ p ∈ M.panels, (M.shells p).rebuild E = .ok (T p))
    (hL : ∀ p ∈ M.panels, WellFormed (loads p)) :
    ∃ f M', M.calcFext E loads inc = .ok (f, M') ∧ ∀ c, ∑ k ∈ range M.getSize, f k * c k
      = ((List.range M.panels.length).map fun k => loadWork E (M.shells (M.panels.getD k 0)).panel
          (loads (M.panels.getD k 0)) inc (C40.start M.shells M.panels k) c).sum := by
  classical
  obtain ⟨idx, hi⟩ := hM.index
  have : ∀ p, ∃ q, p ∈ M.panels → M.place p = some q ∧
      q.col0 = C40.start M.shells M.panels (idx p) ∧
      q.col0 + 3 * (M.shells p).pan.m * (M.shells p).pan.n ≤ M.getSize := by
    intro p
    by_cases hp : p ∈ M.panels
    · obtain ⟨q, h1, h2, -, h3⟩ := hi p hp
      exact ⟨q, fun _ => ⟨h1, h2, h3⟩⟩
    · exact ⟨⟨0, 0, 0, 0⟩, fun h => absurd h hp⟩
  choose q hq using this
  obtain ⟨f, M', hf, hw⟩ := fextLoop_work E loads inc M.getSize T q M.panels M (fun _ => 0) hM.nodup
    (fun p hp => (hq p hp).1) hT hL (fun p hp => (hq p hp).2.2)
  refine ⟨f, M', hf, fun c => ?_⟩
  rw [hw c, List.map_congr_left fun p hp => by rw [(hq p hp).2.1]]
  simp only [zero_mul, sum_const_zero, zero_add]
  exact C40.sum_by_index hM.nodup idx (fun p hp => by obtain ⟨_, _, _, h, _⟩ := hi p hp; exact h)
    fun k p => loadWork E (M.shells p).panel (loads p) inc (C40.start M.shells M.panels k) c

/-- A vector that does the same work on all amplitudes is the same vector. -/
theorem fext_unique {n : ℕ} {f g : ℕ → K}
    (h : ∀ c : ℕ → K, ∑ k ∈ range n, f k * c k = ∑ k ∈ range n, g k * c k) {k : ℕ} (hk : k < n) :
    f k = g k := by
  have := h fun i => if i = k then 1 else 0
  simpa [sum_ite_eq', hk] using this

/-! ## Internal forces -/

/-- Kind, stiffness matrix of a panel that has been built. -/
def Ready (s : Shell K) (k : Kind) (F : ℕ → ℕ → K) : Prop :=
  s.model.bind kindOf = some k ∧ s.ABD = some F

theorem ready_of_rebuild {E : Env K} {s t : Shell K} (h : s.rebuild E = .ok t) : ∃ k F, Ready t k F := by
  obtain ⟨k, lam, F, -, h1, -, h2⟩ := rebuild_built E s t h
  exact ⟨k, F, h1, h2⟩

/-- Internal force of one panel at its place. -/
def ownFint (E : Env K) (s : Shell K) (k : Kind) (F : ℕ → ℕ → K) (c : ℕ → K) (s0 : ℕ) : VecW K :=
  match k with
  | .plate => plateFintF E.S E.G s.panel (fun _ _ => F) c s0 s.nx s.ny
  | .cyl => cylFintF E.S E.G s.panel (fun _ _ => F) c s0 s.nx s.ny

theorem own_ok (E : Env K) (s : Shell K) (k : Kind) (F : ℕ → ℕ → K) (hs : Ready s k F) (c : ℕ → K)
    (size s0 : ℕ) (h : s0 + 3 * s.pan.m * s.pan.n ≤ size) :
    s.calcFint E (.vec size c) (.num size) s0 none none none = .ok (ownFint E s k F c s0, s.fixR) := by
  have hp : s.fixR.panel = s.panel := rfl
  unfold Shell.calcFint
  simp only [hs.1, bind, Except.bind, readable, hp]
  have h' : s0 + 3 * s.panel.m * s.panel.n ≤ size := h
  have h'' : s0 + 3 * s.fixR.pan.m * s.fixR.pan.n ≤ (SizeArg.num size).value (3 * s.pan.m * s.pan.n) := h
  rw [if_pos h']
  have hF : s.fixR.ABD = some F := hs.2
  simp only [hF, Option.getD_none]
  cases k <;> simp only [plateFint, cylFint, lamAt, Except.map, lift, ownFint] <;> rw [if_pos h''] <;> rfl

theorem vdot_append (f g : VecW K) (d : ℕ → K) : vdot (f ++ g) d = vdot f d + vdot g d := by
  simp [vdot]

theorem fintLoop_ok (E : Env K) (c : ℕ → K) (size : ℕ) (q : ℕ → Place) (kind : ℕ → Kind)
    (F : ℕ → ℕ → ℕ → K) : ∀ (l : List ℕ) (M : Multi K), l.Nodup →
    (∀ p ∈ l, M.place p = some (q p)) → (∀ p ∈ l, Ready (M.shells p) (kind p) (F p)) →
    (∀ p ∈ l, (q p).col0 + 3 * (M.shells p).pan.m * (M.shells p).pan.n ≤ size) →
    ∃ f, fintLoop E (.vec size c) size l M
        = .ok (f, { M with shells := fun p => if p ∈ l then (M.shells p).fixR else M.shells p }) ∧
      ∀ d, vdot f d = (l.map fun p => vdot (ownFint E (M.shells p) (kind p) (F p) c (q p).col0) d).sum := by
  intro l
  induction l with
  | nil => intro M _ _ _ _; exact ⟨[], by simp [fintLoop], fun d => by simp [vdot]⟩
  | cons p ps ih =>
    intro M hn hq hr hs
    obtain ⟨hp, hps⟩ := List.nodup_cons.1 hn
    have m1 : p ∈ p :: ps := List.mem_cons_self
    have keep : ∀ p' ∈ ps, (M.setShell p (M.shells p).fixR).shells p' = M.shells p' := fun p' h => by
      have : p' ≠ p := fun e => hp (e ▸ h)
      simp [Multi.setShell, this]
    obtain ⟨f, hf, hw⟩ := ih (M.setShell p (M.shells p).fixR) hps
      (fun p' h => hq p' (List.mem_cons_of_mem _ h))
      (fun p' h => by rw [keep p' h]; exact hr p' (List.mem_cons_of_mem _ h))
      (fun p' h => by rw [keep p' h]; exact hs p' (List.mem_cons_of_mem _ h))
    refine ⟨ownFint E (M.shells p) (kind p) (F p) c (q p).col0 ++ f, ?_, fun d => ?_⟩
    · unfold fintLoop
      simp only [hq p m1, own_ok E _ _ _ (hr p m1) c size _ (hs p m1), bind, Except.bind, hf, pure,
        Except.pure]
      congr 3
      funext p'
      simp only [Multi.setShell, List.mem_cons]
      by_cases e : p' = p
      · subst e; simp [hp]
      · simp [e]
    · rw [vdot_append, hw d, List.map_cons, List.sum_cons,
        List.map_congr_left fun p' h => by rw [keep p' h]]

/-- **C67, internal forces.**  The vector of the assembly is the sum of the panels' own vectors, each in
its block, and the forces of the connections. -/
theorem fint_sum (E : Env K) (M : Multi K) (hM : Laid M) (kind : ℕ → Kind) (F : ℕ → ℕ → ℕ → K)
    (hr : ∀ p ∈ M.panels, Ready (M.shells p) (kind p) (F p)) (c : ℕ → K) (kConn : Coo K)
    (arg : Option (List (ConnD K))) (M' : Multi K)
    (hk : { M with shells := fun p => if p ∈ M.panels then (M.shells p).fixR else M.shells p }.getKCconn
      E none = .ok (kConn, arg, M')) :
    ∃ f, M.calcFint E (.vec M.getSize c) = .ok (f, M') ∧ ∀ d, vdot f d
      = ((List.range M.panels.length).map fun k => vdot (ownFint E (M.shells (M.panels.getD k 0))
          (kind (M.panels.getD k 0)) (F (M.panels.getD k 0)) c (C40.start M.shells M.panels k)) d).sum
        + Coo.bilin kConn d c := by
  classical
  obtain ⟨idx, hi⟩ := hM.index
  have : ∀ p, ∃ q, p ∈ M.panels → M.place p = some q ∧
      q.col0 = C40.start M.shells M.panels (idx p) ∧
      q.col0 + 3 * (M.shells p).pan.m * (M.shells p).pan.n ≤ M.getSize := by
    intro p
    by_cases hp : p ∈ M.panels
    · obtain ⟨q, h1, h2, -, h3⟩ := hi p hp
      exact ⟨q, fun _ => ⟨h1, h2, h3⟩⟩
    · exact ⟨⟨0, 0, 0, 0⟩, fun h => absurd h hp⟩
  choose q hq using this
  obtain ⟨f, hf, hw⟩ := fintLoop_ok E c M.getSize q kind F M.panels M hM.nodup
    (fun p hp => (hq p hp).1) hr (fun p hp => (hq p hp).2.2)
  refine ⟨f ++ kConn.map fun t => (t.row, t.val * c t.col), ?_, fun d => ?_⟩
  · unfold Multi.calcFint
    simp only [hf, bind, Except.bind, hk, Coo.mulVec, ne_eq, not_true_eq_false, if_false]
    rfl
  · rw [vdot_append, hw d, List.map_congr_left fun p hp => by rw [(hq p hp).2.1]]
    congr 1
    · exact C40.sum_by_index hM.nodup idx
        (fun p hp => by obtain ⟨_, _, _, h, _⟩ := hi p hp; exact h)
        fun k p => vdot (ownFint E (M.shells p) (kind p) (F p) c (C40.start M.shells M.panels k)) d
    · simp only [vdot, Coo.bilin, List.map_map, Function.comp_def]
      congr 1
      refine List.map_congr_left fun t _ => ?_
      ring

/-- Without a list of connections in the assembly itself there are no internal forces, even if the
matrix of the connections is known already. -/
theorem fint_needs_conn (E : Env K) (M : Multi K) (hc : M.conn = none) (c : CArg K) (x : VecW K × Multi K) :
    M.calcFint E c ≠ .ok x := by
  intro h
  unfold Multi.calcFint at h
  obtain ⟨⟨f, M1⟩, h1, h⟩ := bind_ok.1 h
  have keep : ∀ (l : List ℕ) (size : ℕ) (M : Multi K) f M1,
      fintLoop E c size l M = .ok (f, M1) → M1.conn = M.conn := by
    intro l size
    induction l with
    | nil => intro M f M1 h; cases h; rfl
    | cons p ps ih =>
      intro M f M1 h
      unfold fintLoop at h
      split at h
      · cases h
      · obtain ⟨⟨g, s⟩, -, h⟩ := bind_ok.1 h
        obtain ⟨⟨g', M2⟩, h2, h⟩ := bind_ok.1 h
        cases h
        have := ih _ _ _ h2
        exact this
  have hc1 : M1.conn = none := (keep _ _ _ _ _ h1).trans hc
  obtain ⟨y, h2, h⟩ := bind_ok.1 h
  simp only [Multi.getKCconn, hc1] at h2
  cases h2

end

/-! ## Energy -/

/-- Curvature seen by the strains of a panel. -/
noncomputable def curv (s : Shell ℝ) (k : Kind) : ℝ :=
  match k with
  | .plate => 0
  | .cyl => 1 / s.panel.r

/-- Strain energy of a panel whose block starts at `s0`. -/
noncomputable def panelEnergy (E : Env ℝ) (s : Shell ℝ) (k : Kind) (F : ℕ → ℕ → ℝ) (s0 : ℕ)
    (c : ℕ → ℝ) : ℝ :=
  energy (curv s k) E.S E.G s.nx s.ny s.panel s0 (fun _ _ => F) c

/-- Energy of the assembly: the panels and the springs of the connections. -/
noncomputable def totalEnergy (E : Env ℝ) (M : Multi ℝ) (kind : ℕ → Kind) (F : ℕ → ℕ → ℕ → ℝ)
    (kConn : Coo ℝ) (c : ℕ → ℝ) : ℝ :=
  ((List.range M.panels.length).map fun k => panelEnergy E (M.shells (M.panels.getD k 0))
    (kind (M.panels.getD k 0)) (F (M.panels.getD k 0)) (C40.start M.shells M.panels k) c).sum
  + 1 / 2 * Coo.quad kConn c

theorem hasDerivAt_list {ι : Type} (l : List ι) (g : ι → ℝ → ℝ) (g' : ι → ℝ) (t : ℝ)
    (h : ∀ i ∈ l, HasDerivAt (g i) (g' i) t) :
    HasDerivAt (fun t => (l.map fun i => g i t).sum) (l.map g').sum t := by
  induction l with
  | nil => simpa using hasDerivAt_const t (0 : ℝ)
  | cons i l ih =>
    simp only [List.map_cons, List.sum_cons]
    exact (h i List.mem_cons_self).add (ih fun j hj => h j (List.mem_cons_of_mem _ hj))

theorem bilin_line (L : Coo ℝ) (c d : ℕ → ℝ) (t : ℝ) :
    Coo.quad L (fun k => c k + t * d k)
      = Coo.quad L c + t * (Coo.bilin L c d + Coo.bilin L d c) + t ^ 2 * Coo.quad L d := by
  induction L with
  | nil => simp [Coo.quad]
  | cons a L ih =>
    simp only [Coo.quad, Coo.bilin_cons] at ih ⊢
    rw [ih]
    ring

theorem bilin_finalizeSym_comm (L : Coo ℝ) (c d : ℕ → ℝ) :
    Coo.bilin (Coo.finalizeSym L) c d = Coo.bilin (Coo.finalizeSym L) d c := by
  induction L with
  | nil => rfl
  | cons t L ih =>
    simp only [Coo.finalizeSym, Coo.bilin_append] at ih ⊢
    rcases lt_trichotomy t.row t.col with h | h | h
    · simp only [List.filter_cons, h.le, h, decide_true, if_true, Coo.bilin_cons, List.map_cons]
      linear_combination ih
    · have h2 : ¬ t.row < t.col := by omega
      simp only [List.filter_cons, h.le, h2, decide_true, decide_false, if_true, Coo.bilin_cons,
        Bool.false_eq_true, if_false]
      rw [h]
      linear_combination ih
    · have h1 : ¬ t.row ≤ t.col := by omega
      have h2 : ¬ t.row < t.col := by omega
      simp only [List.filter_cons, h1, h2, decide_false, Bool.false_eq_true, if_false]
      linear_combination ih

theorem hasDerivAt_conn (L : Coo ℝ) (c d : ℕ → ℝ) :
    HasDerivAt (fun t : ℝ => 1 / 2 * Coo.quad (Coo.finalizeSym L) fun k => c k + t * d k)
      (Coo.bilin (Coo.finalizeSym L) d c) 0 := by
  have h : (fun t : ℝ => 1 / 2 * Coo.quad (Coo.finalizeSym L) fun k => c k + t * d k)
      = fun t : ℝ => 1 / 2 * Coo.quad (Coo.finalizeSym L) c + t * Coo.bilin (Coo.finalizeSym L) d c
        + t ^ 2 * (1 / 2 * Coo.quad (Coo.finalizeSym L) d) + t ^ 3 * 0 + t ^ 4 * 0 := by
    funext t
    rw [bilin_line, bilin_finalizeSym_comm L c d]
    ring
  rw [h]
  exact hasDerivAt_poly _ _ _ _ _

/-- The deflection of the panel varies in one direction only at every point. -/
def OneWay (E : Env ℝ) (s : Shell ℝ) (s0 : ℕ) (c : ℕ → ℝ) : Prop :=
  ∀ x y, dx (u E.S s.panel s0 c 2) x y * dy (u E.S s.panel s0 c 2) x y = 0

theorem own_gradient {E : Env ℝ} (hS : E.S.C2) (s : Shell ℝ) (k : Kind) (F : ℕ → ℕ → ℝ)
    (hF : ABDSym F) (ha : s.pan.a ≠ 0) (hb : s.pan.b ≠ 0) (hr : k = .cyl → s.panel.r ≠ 0) (s0 : ℕ)
    (c d : ℕ → ℝ) (hc : OneWay E s s0 c) :
    HasDerivAt (fun t : ℝ => panelEnergy E s k F s0 fun i => c i + t * d i)
      (vdot (ownFint E s k F c s0) d) 0 := by
  have hD := hasDerivAt_energy hS (curv s k) E.G s.nx s.ny s.panel s0 (fun _ _ => F)
    (fun _ _ => hF.symm) c d
  obtain ⟨h1, h2⟩ := C15.fint_gradient_partial hS E.G s.panel ha hb (fun _ _ => F) (fun _ _ => hF) c d
    s0 s.nx s.ny hc
  have e : vdot (ownFint E s k F c s0) d = dirDeriv (energy (curv s k) E.S E.G s.nx s.ny s.panel s0
      fun _ _ => F) c d := by
    cases k
    · exact h1
    · exact h2 (hr rfl)
  rw [e, dirDeriv, hD.deriv]
  exact hD

/-- **C67, gradient.**  The internal force vector of an assembly is the gradient of the energy of its
panels and connections.  Missing: states in which a panel deflects in both directions at a point, for
which the claim is false already for one panel (`C15.fint_gradient_violated`). -/
theorem fint_gradient_partial {E : Env ℝ} (hS : E.S.C2) (M : Multi ℝ) (hM : Laid M)
    (kind : ℕ → Kind) (F : ℕ → ℕ → ℕ → ℝ)
    (hr : ∀ p ∈ M.panels, Ready (M.shells p) (kind p) (F p) ∧ ABDSym (F p) ∧
      (M.shells p).pan.a ≠ 0 ∧ (M.shells p).pan.b ≠ 0 ∧
      (kind p = .cyl → (M.shells p).panel.r ≠ 0))
    (c : ℕ → ℝ)
    (hc : ∀ k (hk : k < M.panels.length), OneWay E (M.shells M.panels[k])
      (C40.start M.shells M.panels k) c)
    (L : Coo ℝ) (arg : Option (List (ConnD ℝ))) (M' : Multi ℝ)
    (hk : { M with shells := fun p => if p ∈ M.panels then (M.shells p).fixR else M.shells p }.getKCconn
      E none = .ok (Coo.finalizeSym L, arg, M')) :
    ∃ f, M.calcFint E (.vec M.getSize c) = .ok (f, M') ∧ ∀ d,
      HasDerivAt (fun t : ℝ => totalEnergy E M kind F (Coo.finalizeSym L) fun i => c i + t * d i)
        (vdot f d) 0 := by
  obtain ⟨f, hf, hw⟩ := fint_sum E M hM kind F (fun p hp => (hr p hp).1) c _ arg M' hk
  refine ⟨f, hf, fun d => ?_⟩
  rw [hw d]
  refine HasDerivAt.add ?_ (hasDerivAt_conn L c d)
  refine hasDerivAt_list _ _ _ 0 fun k hk => ?_
  have hk' : k < M.panels.length := List.mem_range.1 hk
  have e : M.panels.getD k 0 = M.panels[k] := by simp [hk']
  rw [e]
  obtain ⟨-, h2, h3, h4, h5⟩ := hr _ (List.getElem_mem hk')
  exact own_gradient hS _ _ _ h2 h3 h4 h5 _ c d (hc k hk')

/-! ## Concrete case -/

/-- The panel of `C40` once it is built. -/
noncomputable def ready : Shell ℝ := { C40.shell with
  model := some "plate_clpt_donnell_bardell"
  nx := 5
  plyts := [1, 1]
  laminaprops := [[142], [142]]
  rhos := [3, 3]
  lam := some ⟨fun i j => if i = j then 2 else 0, 2, 6⟩
  ABD := some fun i j => if i = j then 2 else 0
  size := some 105 }

/-- Two panels with one joint. -/
noncomputable def pair : Multi ℝ :=
  Multi.init (fun _ => ready) (fun _ => none) [4, 0] (some [C40.joint])

/-- Amplitudes in the plane of the panels. -/
noncomputable def flat (k : ℕ) : ℝ := if k % 3 = 2 then 0 else k

theorem ready_ok : ∃ t lam, ready.fixR.rebuild C40.env = .ok t ∧ t.lam = some lam := ⟨_, _, rfl, rfl⟩

theorem flat_oneWay (k : ℕ) (hk : k < pair.panels.length) :
    OneWay C40.env (pair.shells pair.panels[k]) (C40.start pair.shells pair.panels k) flat := by
  have hs : C40.start pair.shells pair.panels k % 3 = 0 := by
    have : k = 0 ∨ k = 1 := by
      have : pair.panels.length = 2 := rfl
      omega
    rcases this with rfl | rfl <;> rfl
  intro x y
  have z : u C40.env.S (pair.shells pair.panels[k]).panel (C40.start pair.shells pair.panels k) flat 2
      = fun _ _ => 0 := by
    funext x y
    unfold u
    refine Finset.sum_eq_zero fun q _ => Finset.sum_eq_zero fun p _ => ?_
    rw [show flat _ = 0 from if_pos (by omega), zero_mul]
  rw [z]
  simp [dx, dy]

example : Laid pair ∧ (∀ p ∈ pair.panels, Ready (pair.shells p) .plate (fun i j => if i = j then 2 else 0)
      ∧ ABDSym (fun i j => if i = j then (2 : ℝ) else 0)) ∧
    ∃ L arg M', ({ pair with
      shells := fun p => if p ∈ pair.panels then (pair.shells p).fixR else pair.shells p } :
      Multi ℝ).getKCconn C40.env none = .ok (Coo.finalizeSym L, arg, M') := by
  refine ⟨laid_init _ _ _ _ (by decide), fun p _ => ⟨⟨rfl, rfl⟩, ?_⟩, ?_⟩
  · exact ⟨fun s t => by simp [eq_comm], by simp, by simp, by simp⟩
  · have hl := laid_init (fun p => if p ∈ [4, 0] then ready.fixR else ready) (fun _ => none) [4, 0]
      (some [C40.joint]) (by decide)
    refine getKCconn_exists C40.env _ ⟨hl.1, hl.2⟩ (fun p hp => C39.others_kept _ _ _ _ hp) rfl ?_ ?_
      [C40.joint] (by simp) ?_ none (.inr ⟨rfl, rfl⟩)
    · intro p _
      have : ∀ x : Prop, [Decidable x] → 0 < (if x then ready.fixR else ready).pan.m ∧
          0 < (if x then ready.fixR else ready).pan.n := fun x _ => by
        split <;> exact ⟨Nat.succ_pos _, Nat.succ_pos _⟩
      exact this (p ∈ [4, 0])
    · intro p hp
      have : ∀ x : Prop, [Decidable x] → x → ∃ t lam,
          (if x then ready.fixR else ready).rebuild C40.env = .ok t ∧ t.lam = some lam := fun x _ h => by
        rw [if_pos h]
        exact ready_ok
      exact this (p ∈ [4, 0]) hp
    · intro d hd
      rw [List.mem_singleton.1 hd]
      exact ⟨by decide, by decide, by decide, .inl ⟨.inl rfl, 0, 3, rfl, rfl⟩⟩

example (t : Shell ℚ) (ht : C54.shell.rebuild C54.env = .ok t) (M : Multi ℚ)
    (hM : M = Multi.init (fun _ => C54.shell) (fun _ => none) [7, 2, 5] none) :
    ∃ f M', M.calcFext C54.env (fun _ => C33.loads) (1 / 2) = .ok (f, M') ∧
      ∀ c, ∑ k ∈ range M.getSize, f k * c k
        = ((List.range M.panels.length).map fun k => loadWork C54.env (M.shells (M.panels.getD k 0)).panel
          C33.loads (1 / 2) (C40.start M.shells M.panels k) c).sum := by
  have hp : ∀ p, M.shells p = C54.shell := fun p => by rw [hM]; rfl
  exact fext_work C54.env M (hM ▸ laid_init _ _ _ _ (by decide)) (fun _ => C33.loads) (1 / 2)
    (fun _ => t) (fun p _ => by rw [hp]; exact ht) (fun _ _ => C33.loads_wf)

example : ∃ t, C54.shell.rebuild C54.env = .ok t := exists_ok (by decide +kernel)

end Verif.C67
