import Verif.Model.Multi
import Verif.Proofs.ShellSlice
import Verif.Props.C39

/-!
# C40: matrices of an assembly
-/

set_option linter.unusedSectionVars false

namespace Verif.C40

open Model

variable {K : Type} [Field K] [LinearOrder K]

/-- Arguments for a panel alone, with its slice of the state. -/
def aloneArgs (c : Option (CArg K)) (s n : ℕ) : KArgs K := { c := c.map (sliceC s n) }

/-- Arguments for a panel inside the matrix of the assembly. -/
def blockArgs (c : Option (CArg K)) (row0 col0 N : ℕ) : KArgs K :=
  { c := c, row0 := row0, col0 := col0, size := .num N, finalize := false }

/-- First position of the `k`-th panel: the sizes of the panels before it. -/
def start (shells : ℕ → Shell K) (panels : List ℕ) (k : ℕ) : ℕ :=
  ((panels.take k).map fun p => 3 * (shells p).pan.m * (shells p).pan.n).sum

/-- Total number of unknowns. -/
def total (shells : ℕ → Shell K) (panels : List ℕ) : ℕ :=
  (panels.map fun p => 3 * (shells p).pan.m * (shells p).pan.n).sum

theorem start_le (shells : ℕ → Shell K) (panels : List ℕ) {k : ℕ} (hk : k < panels.length) :
    start shells panels k + 3 * (shells panels[k]).pan.m * (shells panels[k]).pan.n
      ≤ total shells panels := by
  have := C39.take_sum_le (fun p => 3 * (shells p).pan.m * (shells p).pan.n) panels
    (show k + 1 ≤ panels.length from hk)
  rw [List.take_length, List.take_succ_eq_append_getElem hk, List.map_append, List.sum_append] at this
  simpa [start, total] using this

/-- The panel loop when every call succeeds. -/
theorem loop (f : Shell K → Place → Except Fail (Coo K × Shell K)) (l : List ℕ) (hn : l.Nodup)
    (M : Multi K) (q : ℕ → Place) (G : ℕ → Coo K) (S : ℕ → Shell K)
    (hq : ∀ p ∈ l, M.place p = some (q p)) (hf : ∀ p ∈ l, f (M.shells p) (q p) = .ok (G p, S p)) :
    panelLoop f l M = .ok (l.flatMap G,
      { M with shells := fun p => if p ∈ l then S p else M.shells p }) := by
  induction l generalizing M with
  | nil => simp [panelLoop]
  | cons a l ih =>
    obtain ⟨ha, hl⟩ := List.nodup_cons.1 hn
    have h1 := hf a List.mem_cons_self
    have h2 := ih hl (M.setShell a (S a)) (fun p hp => hq p (List.mem_cons_of_mem _ hp))
      (fun p hp => by
        have : p ≠ a := fun h => ha (h ▸ hp)
        simp only [Multi.setShell, this, if_false]
        exact hf p (List.mem_cons_of_mem _ hp))
    unfold panelLoop
    simp only [hq a List.mem_cons_self, h1, bind, Except.bind, h2]
    simp only [List.flatMap_cons, Multi.setShell, pure, Except.pure, List.mem_cons]
    congr 3
    funext p
    by_cases hp : p = a
    · subst hp; simp [ha]
    · simp [hp]

theorem quad_flatMap (l : List ℕ) (G : ℕ → Coo K) (v : ℕ → K) :
    Coo.quad (Coo.finalizeSym (l.flatMap G)) v
      = (l.map fun p => Coo.quad (Coo.finalizeSym (G p)) v).sum := by
  induction l with
  | nil => rfl
  | cons a l ih => rw [List.flatMap_cons, Coo.finalizeSym_append_quad, ih]; rfl

theorem exists_index {panels : List ℕ} (P : ℕ → ℕ → Prop)
    (h : ∀ k (hk : k < panels.length), P k panels[k]) :
    ∃ idx : ℕ → ℕ, ∀ p ∈ panels, idx p < panels.length ∧ P (idx p) p ∧ panels[idx p]? = some p := by
  classical
  have : ∀ p, ∃ k, p ∈ panels → k < panels.length ∧ P k p ∧ panels[k]? = some p := by
    intro p
    by_cases hp : p ∈ panels
    · obtain ⟨k, hk, rfl⟩ := List.getElem_of_mem hp
      exact ⟨k, fun _ => ⟨hk, h k hk, List.getElem?_eq_getElem hk⟩⟩
    · exact ⟨0, fun h => absurd h hp⟩
  choose idx hidx using this
  exact ⟨idx, fun p hp => hidx p hp⟩

theorem sum_by_index {panels : List ℕ} (hn : panels.Nodup) (idx : ℕ → ℕ)
    (hidx : ∀ p ∈ panels, panels[idx p]? = some p) (g : ℕ → ℕ → K) :
    (panels.map fun p => g (idx p) p).sum
      = ((List.range panels.length).map fun k => g k (panels.getD k 0)).sum := by
  have key : panels.map (fun p => g (idx p) p)
      = (List.range panels.length).map fun k => g k (panels.getD k 0) := by
    refine List.ext_getElem (by simp) fun k h1 h2 => ?_
    simp only [List.length_map] at h1
    have hp := hidx panels[k] (List.getElem_mem h1)
    have hlt : idx panels[k] < panels.length := by
      by_contra hc
      rw [List.getElem?_eq_none (by omega)] at hp
      cases hp
    rw [List.getElem?_eq_getElem hlt, Option.some.injEq] at hp
    have : idx panels[k] = k := (List.Nodup.getElem_inj_iff hn).1 hp
    simp [this, h1]
  rw [key]

/-- The panels of an assembly superpose: general form for one of the three matrices. -/
theorem superpose (shells : ℕ → Shell K) (place : ℕ → Option Place) (panels : List ℕ)
    (conn : Option (List (ConnD K))) (hn : panels.Nodup)
    (f : Shell K → Place → Except Fail (Coo K × Shell K)) (S : ℕ → Shell K) (own : ℕ → ℕ → Coo K)
    (hf : ∀ k (hk : k < panels.length), ∃ L,
      f (shells panels[k]) ⟨start shells panels k, start shells panels k,
        start shells panels (k + 1), start shells panels (k + 1)⟩ = .ok (L, S panels[k]) ∧
      ∀ v, Coo.quad (Coo.finalizeSym L) v
        = Coo.quad (own k panels[k]) fun i => v (start shells panels k + i)) :
    ∃ L, panelLoop f panels (Multi.init shells place panels conn)
        = .ok (L, { Multi.init shells place panels conn with
            shells := fun p => if p ∈ panels then S p else shells p }) ∧
      ∀ v, Coo.quad (Coo.finalizeSym L) v
        = ((List.range panels.length).map fun k =>
            Coo.quad (own k (panels.getD k 0)) fun i => v (start shells panels k + i)).sum := by
  classical
  have hb := C39.blocks_partial shells place panels conn hn
  obtain ⟨idx, hidx⟩ := exists_index (panels := panels) (fun k p =>
    (Multi.init shells place panels conn).place p = some ⟨start shells panels k, start shells panels k,
        start shells panels (k + 1), start shells panels (k + 1)⟩ ∧
    ∃ L, f (shells p) ⟨start shells panels k, start shells panels k,
        start shells panels (k + 1), start shells panels (k + 1)⟩ = .ok (L, S p) ∧
      ∀ v, Coo.quad (Coo.finalizeSym L) v
        = Coo.quad (own k p) fun i => v (start shells panels k + i))
    (fun k hk => ⟨hb k hk, hf k hk⟩)
  have : ∀ p, ∃ L : Coo K, p ∈ panels → f (shells p) ⟨start shells panels (idx p),
        start shells panels (idx p),
        start shells panels (idx p + 1), start shells panels (idx p + 1)⟩ = .ok (L, S p) ∧
      ∀ v, Coo.quad (Coo.finalizeSym L) v
        = Coo.quad (own (idx p) p) fun i => v (start shells panels (idx p) + i) := by
    intro p
    by_cases hp : p ∈ panels
    · obtain ⟨L, hL⟩ := (hidx p hp).2.1.2
      exact ⟨L, fun _ => hL⟩
    · exact ⟨[], fun h => absurd h hp⟩
  choose G hG using this
  refine ⟨_, loop f panels hn _ _ G S (fun p hp => (hidx p hp).2.1.1) (fun p hp => (hG p hp).1),
    fun v => ?_⟩
  rw [quad_flatMap, List.map_congr_left fun p hp => (hG p hp).2 v]
  exact sum_by_index hn idx (fun p hp => (hidx p hp).2.2)
    fun k p => Coo.quad (own k p) fun i => v (start shells panels k + i)

/-- `calc_kC` of an assembly of distinct panels: with `kConn` the matrix of the connections, the
quadratic form is the sum of the panels' own ones, each on its slice of the state, plus that of the
connections.  `c` is an optional state of the right size. -/
theorem kC_energy (E : Env K) (shells : ℕ → Shell K) (place : ℕ → Option Place) (panels : List ℕ)
    (conn arg : Option (List (ConnD K))) (hn : panels.Nodup) (h0 : panels ≠ [])
    (T : ℕ → Shell K) (hT : ∀ p ∈ panels, (shells p).rebuild E = .ok (T p))
    (c : Option (CArg K)) (hc : ∀ x, c = some x → ∃ f, x = .vec (total shells panels) f) :
    let M := Multi.init shells place panels conn
    let M1 := { M with shells := fun p => if p ∈ panels then (T p).fixR else shells p }
    ∃ own : ℕ → Coo K,
      (∀ k (hk : k < panels.length), (shells panels[k]).calcKC E (aloneArgs c
          (start shells panels k) (3 * (shells panels[k]).pan.m * (shells panels[k]).pan.n))
        = .ok (own k, (T panels[k]).fixR)) ∧
      ∀ kConn arg' M2, M1.getKCconn E arg = .ok (kConn, arg', M2) →
        ∃ L, M.calcKC E arg c = .ok (L, M2) ∧
          ∀ v, Coo.quad L v = ((List.range panels.length).map fun k =>
            Coo.quad (own k) fun i => v (start shells panels k + i)).sum + Coo.quad kConn v := by
  intro M M1
  have hs : ∀ k (hk : k < panels.length), ∃ L L0, (shells panels[k]).calcKC E
        (blockArgs c (start shells panels k) (start shells panels k) (total shells panels)) = .ok (L, (T panels[k]).fixR) ∧
      (shells panels[k]).calcKC E (aloneArgs c
          (start shells panels k) (3 * (shells panels[k]).pan.m * (shells panels[k]).pan.n))
        = .ok (L0, (T panels[k]).fixR) ∧
      ∀ v, Coo.quad (Coo.finalizeSym L) v
        = Coo.quad L0 fun i => v (start shells panels k + i) := fun k hk =>
    kC_slice E _ _ (hT _ (List.getElem_mem hk)) c _ _ (start_le shells panels hk) hc
  have hs' : ∀ k, ∃ L0 : Coo K, ∀ hk : k < panels.length, ∃ L, (shells panels[k]).calcKC E
        (blockArgs c (start shells panels k) (start shells panels k) (total shells panels)) = .ok (L, (T panels[k]).fixR) ∧
      (shells panels[k]).calcKC E (aloneArgs c
          (start shells panels k) (3 * (shells panels[k]).pan.m * (shells panels[k]).pan.n))
        = .ok (L0, (T panels[k]).fixR) ∧
      ∀ v, Coo.quad (Coo.finalizeSym L) v
        = Coo.quad L0 fun i => v (start shells panels k + i) := by
    intro k
    by_cases hk : k < panels.length
    · obtain ⟨L, L0, h⟩ := hs k hk
      exact ⟨L0, fun _ => ⟨L, h⟩⟩
    · exact ⟨[], fun h => absurd h hk⟩
  choose own hown using hs'
  refine ⟨own, fun k hk => ?_, fun kConn arg' M2 hconn => ?_⟩
  · obtain ⟨L, -, h, -⟩ := hown k hk
    exact h
  · obtain ⟨L, hL, hq⟩ := superpose shells place panels conn hn
      (fun s q => s.calcKC E (blockArgs c q.row0 q.col0 (total shells panels))) (fun p => (T p).fixR)
      (fun k _ => own k) (fun k hk => by
        obtain ⟨L, h1, -, h2⟩ := hown k hk
        exact ⟨L, h1, h2⟩)
    simp only [blockArgs] at hL
    refine ⟨Coo.finalizeSym L ++ kConn, ?_, fun v => ?_⟩
    · unfold Multi.calcKC
      have hsz : M.getSize = total shells panels := rfl
      simp only [hsz, C38.check_doc c hc, bind, Except.bind]
      simp only [show M.panels = panels from rfl]
      rw [show M = Multi.init shells place panels conn from rfl, hL]
      have hfs : finSum (Multi.init shells place panels conn).panels true L
          = .ok (Coo.finalizeSym L) := by
        simp [Multi.init, finSum, fin, h0]
      simp only [hfs]
      have hconn' := hconn
      simp only [M1, M] at hconn'
      simp only [hconn']
      rfl
    · rw [← hq v, Coo.quad_append]

/-- `calc_kG` of an assembly of distinct panels. -/
theorem kG_energy (E : Env K) (shells : ℕ → Shell K) (place : ℕ → Option Place) (panels : List ℕ)
    (conn : Option (List (ConnD K))) (hn : panels.Nodup) (h0 : panels ≠ [])
    (T : ℕ → Shell K) (hT : ∀ p ∈ panels, (shells p).rebuild E = .ok (T p))
    (c : Option (CArg K)) (hc : ∀ x, c = some x → ∃ f, x = .vec (total shells panels) f) :
    ∃ own : ℕ → Coo K,
      (∀ k (hk : k < panels.length), (shells panels[k]).calcKG E (aloneArgs c
          (start shells panels k) (3 * (shells panels[k]).pan.m * (shells panels[k]).pan.n))
        = .ok (own k, (T panels[k]).fixR)) ∧
      ∃ L M', (Multi.init shells place panels conn).calcKG E c = .ok (L, M') ∧
          ∀ v, Coo.quad L v = ((List.range panels.length).map fun k =>
            Coo.quad (own k) fun i => v (start shells panels k + i)).sum := by
  have hs' : ∀ k, ∃ L0 : Coo K, ∀ hk : k < panels.length, ∃ L, (shells panels[k]).calcKG E
        (blockArgs c (start shells panels k) (start shells panels k) (total shells panels))
        = .ok (L, (T panels[k]).fixR) ∧
      (shells panels[k]).calcKG E (aloneArgs c
          (start shells panels k) (3 * (shells panels[k]).pan.m * (shells panels[k]).pan.n))
        = .ok (L0, (T panels[k]).fixR) ∧
      ∀ v, Coo.quad (Coo.finalizeSym L) v
        = Coo.quad L0 fun i => v (start shells panels k + i) := by
    intro k
    by_cases hk : k < panels.length
    · obtain ⟨L, L0, h⟩ := kG_slice E _ _ (hT _ (List.getElem_mem hk)) c _ _
        (start_le shells panels hk) hc
      exact ⟨L0, fun _ => ⟨L, h⟩⟩
    · exact ⟨[], fun h => absurd h hk⟩
  choose own hown using hs'
  refine ⟨own, fun k hk => ?_, ?_⟩
  · obtain ⟨L, -, h, -⟩ := hown k hk
    exact h
  · obtain ⟨L, hL, hq⟩ := superpose shells place panels conn hn
      (fun s q => s.calcKG E (blockArgs c q.row0 q.col0 (total shells panels))) (fun p => (T p).fixR)
      (fun k _ => own k) (fun k hk => by
        obtain ⟨L, h1, -, h2⟩ := hown k hk
        exact ⟨L, h1, h2⟩)
    simp only [blockArgs] at hL
    refine ⟨Coo.finalizeSym L, { Multi.init shells place panels conn with
      shells := fun p => if p ∈ panels then (T p).fixR else shells p }, ?_, hq⟩
    unfold Multi.calcKG
    have hsz : (Multi.init shells place panels conn).getSize = total shells panels := rfl
    simp only [hsz, C38.check_doc c hc, bind, Except.bind]
    simp only [show (Multi.init shells place panels conn).panels = panels from rfl]
    rw [hL]
    have hfs : finSum panels true L = .ok (Coo.finalizeSym L) := by
      simp [finSum, fin, h0]
    simp only [show (Multi.init shells place panels conn).panels = panels from rfl, hfs]
    rfl

/-- `calc_kM` of an assembly of distinct panels that were rebuilt before. -/
theorem kM_energy (E : Env K) (shells : ℕ → Shell K) (place : ℕ → Option Place) (panels : List ℕ)
    (conn : Option (List (ConnD K))) (hn : panels.Nodup) (h0 : panels ≠ [])
    (hk : ∀ p ∈ panels, ∃ k, (shells p).model.bind kindOf = some k)
    (hl : ∀ p ∈ panels, ∃ lam, (shells p).lam = some lam) :
    ∃ own : ℕ → Coo K,
      (∀ k (hk : k < panels.length), (shells panels[k]).calcKM E .none 0 0 none none none none true
        = .ok (own k, (shells panels[k]).fixR)) ∧
      ∃ L M', (Multi.init shells place panels conn).calcKM E = .ok (L, M') ∧
          ∀ v, Coo.quad L v = ((List.range panels.length).map fun k =>
            Coo.quad (own k) fun i => v (start shells panels k + i)).sum := by
  have hs' : ∀ k, ∃ L0 : Coo K, ∀ hk : k < panels.length, ∃ L, (shells panels[k]).calcKM E
        (.num (total shells panels)) (start shells panels k) (start shells panels k)
        none none none none false = .ok (L, (shells panels[k]).fixR) ∧
      (shells panels[k]).calcKM E .none 0 0 none none none none true
        = .ok (L0, (shells panels[k]).fixR) ∧
      ∀ v, Coo.quad (Coo.finalizeSym L) v
        = Coo.quad L0 fun i => v (start shells panels k + i) := by
    intro k
    by_cases hlen : k < panels.length
    · obtain ⟨kd, h1⟩ := hk _ (List.getElem_mem hlen)
      obtain ⟨lam, h2⟩ := hl _ (List.getElem_mem hlen)
      obtain ⟨L, L0, h⟩ := kM_slice E _ h1 h2 _ _ (start_le shells panels hlen)
      exact ⟨L0, fun _ => ⟨L, h⟩⟩
    · exact ⟨[], fun h => absurd h hlen⟩
  choose own hown using hs'
  refine ⟨own, fun k hk => ?_, ?_⟩
  · obtain ⟨L, -, h, -⟩ := hown k hk
    exact h
  · obtain ⟨L, hL, hq⟩ := superpose shells place panels conn hn
      (fun s q => s.calcKM E (.num (total shells panels)) q.row0 q.col0 none none none none false)
      (fun p => (shells p).fixR) (fun k _ => own k) (fun k hk => by
        obtain ⟨L, h1, -, h2⟩ := hown k hk
        exact ⟨L, h1, h2⟩)
    refine ⟨Coo.finalizeSym L, { Multi.init shells place panels conn with
      shells := fun p => if p ∈ panels then (shells p).fixR else shells p }, ?_, hq⟩
    unfold Multi.calcKM
    have hsz : (Multi.init shells place panels conn).getSize = total shells panels := rfl
    simp only [hsz, bind, Except.bind]
    simp only [show (Multi.init shells place panels conn).panels = panels from rfl]
    rw [hL]
    have hfs : finSum panels true L = .ok (Coo.finalizeSym L) := by
      simp [finSum, fin, h0]
    simp only [show (Multi.init shells place panels conn).panels = panels from rfl, hfs]
    rfl

end Verif.C40
