import Verif.Props.C80
import Verif.Props.C79
import Verif.Proofs.AssyMass
import Verif.Props.C66Energy

/-!
# C80 for panels and for the ready-made assemblies
-/

set_option linter.unusedSectionVars false

namespace Verif

open Finset Spec Model Indep C80

/-! ## Symmetry -/

theorem sym_finalize (L : Coo ℝ) : Sym (Coo.finalizeSym L) := Coo.entry_finalizeSym_comm L

theorem sym_append {A B : Coo ℝ} (hA : Sym A) (hB : Sym B) : Sym (A ++ B) := fun k l => by
  rw [Coo.entry_append, Coo.entry_append, hA, hB]

theorem finSum_sym {α : Type*} {items : List α} {L R : Coo ℝ} (h : finSum items true L = .ok R) :
    Sym R := by
  unfold finSum at h
  split at h
  · cases h
  · cases h
    exact sym_finalize L

theorem panelLoop_kCconn {f : Shell ℝ → Place → Except Fail (Coo ℝ × Shell ℝ)} (l : List ℕ) :
    ∀ {M M' : Multi ℝ} {L : Coo ℝ}, panelLoop f l M = .ok (L, M') → M'.kCconn = M.kCconn := by
  induction l with
  | nil =>
    intro M M' L h
    cases h
    rfl
  | cons p ps ih =>
    intro M M' L h
    unfold panelLoop at h
    cases hq : M.place p with
    | none =>
      rw [hq] at h
      cases h
    | some q =>
    rw [hq] at h
    obtain ⟨⟨L1, s⟩, h1, h⟩ := bind_ok.1 h
    obtain ⟨⟨R, M1⟩, h2, h⟩ := bind_ok.1 h
    cases h
    exact (ih h2).trans rfl

theorem getKCconn_sym {E : Env ℝ} {M M' : Multi ℝ} (hk : M.kCconn = none) {conn : Option (List (ConnD ℝ))}
    {l' : Option (List (ConnD ℝ))} {L : Coo ℝ} (h : M.getKCconn E conn = .ok (L, l', M')) : Sym L := by
  unfold Multi.getKCconn at h
  rw [hk] at h
  split at h
  · cases h
  · obtain ⟨⟨L1, l1, M1⟩, h1, h⟩ := bind_ok.1 h
    obtain ⟨R, h2, h⟩ := bind_ok.1 h
    split at h <;> cases h <;> exact finSum_sym h2

/-- The stiffness matrix of an assembly is symmetric. -/
theorem Assy.calcKC_sym {E : Env ℝ} {A : Assy ℝ} {conn : List (ConnD ℝ)} {c : Option (CArg ℝ)}
    {k0 : Coo ℝ} {M' : Multi ℝ} (h : A.multi.calcKC E (some conn) c = .ok (k0, M')) : Sym k0 := by
  unfold Multi.calcKC at h
  obtain ⟨_, -, h⟩ := bind_ok.1 h
  obtain ⟨⟨L, M1⟩, h1, h⟩ := bind_ok.1 h
  obtain ⟨kC, h2, h⟩ := bind_ok.1 h
  obtain ⟨⟨kConn, l', M2⟩, h3, h⟩ := bind_ok.1 h
  cases h
  refine sym_append (finSum_sym h2) (getKCconn_sym ?_ h3)
  rw [panelLoop_kCconn _ h1]
  rfl

theorem Multi.calcKG_sym {E : Env ℝ} {M M' : Multi ℝ} {c : Option (CArg ℝ)} {kG : Coo ℝ}
    (h : M.calcKG E c = .ok (kG, M')) : Sym kG := by
  unfold Multi.calcKG at h
  obtain ⟨_, -, h⟩ := bind_ok.1 h
  obtain ⟨⟨L, M1⟩, h1, h⟩ := bind_ok.1 h
  obtain ⟨kC, h2, h⟩ := bind_ok.1 h
  cases h
  exact finSum_sym h2

theorem Multi.calcKM_sym {E : Env ℝ} {M M' : Multi ℝ} {kM : Coo ℝ}
    (h : M.calcKM E = .ok (kM, M')) : Sym kM := by
  unfold Multi.calcKM at h
  obtain ⟨⟨L, M1⟩, h1, h⟩ := bind_ok.1 h
  obtain ⟨kC, h2, h⟩ := bind_ok.1 h
  cases h
  exact finSum_sym h2

/-! ## Mass of an assembly -/

theorem active_shift (P : Panel ℝ) (s : ℕ) (v : ℕ → ℝ) :
    (∀ k, Active P 0 k → v (s + k) = 0) ↔ ∀ k, Active P s k → v k = 0 := by
  constructor
  · rintro h _ ⟨α, hα, i, hi, j, hj, h1, h2, rfl⟩
    have := h _ ⟨α, hα, i, hi, j, hj, h1, h2, rfl⟩
    rw [← this]
    congr 1
    omega
  · rintro h _ ⟨α, hα, i, hi, j, hj, h1, h2, rfl⟩
    have := h _ ⟨α, hα, i, hi, j, hj, h1, h2, rfl⟩
    rw [← this]
    congr 1
    omega

/-- The kinetic energy of a panel vanishes at rest only. -/
theorem kineticWork_zero {S : Shape ℝ} (hC : S.C2) {N : ℕ} (hS : Hier S N) {P : Panel ℝ} (hm : P.m ≤ N)
    (hn : P.n ≤ N) (ha : 0 < P.a) (hb : 0 < P.b) {rho h : ℝ} (hr : 0 < rho) (hh : 0 < h) (off : ℝ)
    (s : ℕ) (v : ℕ → ℝ) : 0 ≤ kineticWork S P rho h off (fun i => v (s + i)) ∧
      (kineticWork S P rho h off (fun i => v (s + i)) = 0 ↔ ∀ k, Active P s k → v k = 0) := by
  have e : kineticWork S P rho h off (fun i => v (s + i)) = ∫ x in (0 : ℝ)..P.a, ∫ y in (0 : ℝ)..P.b,
      C76.kin S P 0 (fun i => v (s + i)) off h rho x y := by
    unfold kineticWork
    simp only [C20.kinetic_disp hC]
    rfl
  rw [e, ← active_shift, C76.rest_iff P 0 fun i => v (s + i)]
  refine ⟨intervalIntegral.integral_nonneg ha.le fun x _ =>
    intervalIntegral.integral_nonneg hb.le fun y _ => C76.kin_nonneg _ P 0 _ off hh hr x y, ?_, ?_⟩
  · intro hz
    refine C76.rest_of_kin hS hm hn ha.ne' hb.ne' (dense_Icc P.m ha) (dense_Icc P.n hb) 0 _ off
      fun x hx y hy => ⟨h, hh, rho, hr, integral2_zero ha hb ?_
        (fun x y => C76.kin_nonneg _ P 0 _ off hh hr x y) hz x y hx hy⟩
    have hD := disp_continuous hC P 0 fun i => v (s + i)
    have h1 := hD 0 0 0
    have h2 := hD 1 0 0
    have h3 := hD 2 0 0
    have h4 := hD 2 1 0
    have h5 := hD 2 0 1
    unfold C76.kin
    fun_prop
  · intro hz
    simp only [C76.kin_of_rest hS hm hn hz, intervalIntegral.integral_zero]

theorem sum_map_zero {l : List ℕ} {g : ℕ → ℝ} (h : ∀ k ∈ l, 0 ≤ g k) :
    0 ≤ (l.map g).sum ∧ ((l.map g).sum = 0 ↔ ∀ k ∈ l, g k = 0) := by
  induction l with
  | nil => simp
  | cons a l ih =>
    obtain ⟨h1, h2⟩ := ih fun k hk => h k (List.mem_cons_of_mem _ hk)
    have ha := h a List.mem_cons_self
    rw [List.map_cons, List.sum_cons]
    refine ⟨by linarith, ?_⟩
    rw [List.forall_mem_cons, ← h2]
    constructor
    · intro e
      exact ⟨by linarith, by linarith⟩
    · rintro ⟨e1, e2⟩
      rw [e1, e2, add_zero]

/-- The mass matrix of an assembly is definite. -/
theorem Fit.mass {E : Env ℝ} {A : Assy ℝ} {T : ℕ → Shell ℝ} (h : Fit E A T) {N : ℕ} (hS : Hier E.S N)
    (hmn : ∀ k < A.count, (A.panel k).m ≤ N ∧ (A.panel k).n ≤ N)
    (hr : ∀ k < A.count, 0 < (A.part k).shell.rho) (hh : ∀ k < A.count, 0 < (T k).plyts.sum)
    {M2 : Multi ℝ} (hs : ∀ p < A.count, M2.shells p = (T p).fixR)
    (hp : M2.place = A.multi.place) (hl : M2.panels = A.multi.panels) :
    ∃ kM, M2.calcKM E = .ok (kM, M2) ∧ AssyDefinite A.count A.panel A.start kM := by
  obtain ⟨kM, h1, h2⟩ := h.kM_same hs hp hl
  refine ⟨kM, h1, fun v => ?_⟩
  have key := fun k (hk : k < A.count) => kineticWork_zero h.smooth hS (hmn k hk).1 (hmn k hk).2
    (h.sides k hk).1 (h.sides k hk).2 (hr k hk) (hh k hk) (A.part k).shell.offset (A.start k) v
  obtain ⟨g0, g1⟩ := sum_map_zero (l := List.range A.count) (g := fun k =>
    kineticWork E.S (A.part k).shell.panel (A.part k).shell.rho (T k).plyts.sum
      (A.part k).shell.offset fun i => v (A.start k + i)) fun k hk => (key k (List.mem_range.1 hk)).1
  rw [h2 v]
  refine ⟨?_, fun hz => g1.2 fun k hk => (key k (List.mem_range.1 hk)).2.2 (hz k (List.mem_range.1 hk))⟩
  rintro ⟨k, hk, i, hi, hne⟩
  exact lt_of_le_of_ne g0 fun e => hne ((key k hk).2.1 (g1.1 e.symm k (List.mem_range.2 hk)) i hi)

namespace C80

/-! ## Panels -/

theorem pos_of {P : Panel ℝ} {s : ℕ} {L : Coo ℝ} (h : C76.Definite P s L) : Pos (C76.actives P s) L :=
  fun v ⟨k, hk, hne⟩ _ => (h v).1 ⟨k, (C76.mem_actives P s k).1 hk, hne⟩

theorem pos_of_assy {n : ℕ} {P : ℕ → Panel ℝ} {start : ℕ → ℕ} {L : Coo ℝ}
    (h : AssyDefinite n P start L) : Pos (C78.actives n P start) L := by
  rintro v ⟨i, hi, hne⟩ -
  simp only [C78.actives, Finset.mem_biUnion, Finset.mem_range, C76.mem_actives] at hi
  obtain ⟨k, hk, hi⟩ := hi
  exact (h v).1 ⟨k, hk, i, hi, hne⟩

/-- **C80, panel in closed form.**  Frequencies of a panel that the supports hold. -/
theorem panel_frequencies {I : Tab ℝ} (hI : I.Exact (bardellShape ℝ) Mean.integral) (P : Panel ℝ)
    (ha : 0 < P.a) (hb : 0 < P.b) (m4 : 4 ≤ P.m) (n4 : 4 ≤ P.n) (F : ℕ → ℕ → ℝ) (hF : ABDSym F)
    (hpos : C76.ABDDef F) (off h rho : ℝ) (hh : 0 < h) (hr : 0 < rho) (s : ℕ) :
    (Restrained 0 P → Vibrates (C76.actives P s) (Coo.finalizeSym (plateFk0 I P F s s))
      (Coo.finalizeSym (plateFkM I P off h rho s s))) ∧
    (P.r ≠ 0 → Restrained (1 / P.r) P → Vibrates (C76.actives P s)
      (Coo.finalizeSym (cylFk0 I P F s s)) (Coo.finalizeSym (cylFkM I P off h rho s s))) := by
  obtain ⟨k1, k2⟩ := C77.stiffness_ana hI P ha hb m4 n4 F hF hpos s
  obtain ⟨m1, m2⟩ := C76.mass_ana hI P ha hb off h rho hh hr s
  exact ⟨fun h => vibrates (sym_finalize _) (sym_finalize _) (pos_of (k1.2 h)) (pos_of m1),
    fun r h => vibrates (sym_finalize _) (sym_finalize _) (pos_of ((k2 r).2 h)) (pos_of m2)⟩

/-- Buckling of such a panel under constant membrane loads. -/
theorem panel_buckling {I : Tab ℝ} (hI : I.Exact (bardellShape ℝ) Mean.integral) (P : Panel ℝ)
    (ha : 0 < P.a) (hb : 0 < P.b) (m4 : 4 ≤ P.m) (n4 : 4 ≤ P.n) (F : ℕ → ℕ → ℝ) (hF : ABDSym F)
    (hpos : C76.ABDDef F) (Nxx Nyy Nxy : ℝ) (s : ℕ) :
    (Restrained 0 P → Buckles (C76.actives P s) (Coo.finalizeSym (plateFk0 I P F s s))
      (Coo.finalizeSym (plateFkG0 I P Nxx Nyy Nxy s s))) ∧
    (P.r ≠ 0 → Restrained (1 / P.r) P → Buckles (C76.actives P s)
      (Coo.finalizeSym (cylFk0 I P F s s)) (Coo.finalizeSym (cylFkG0 I P Nxx Nyy Nxy s s))) := by
  obtain ⟨k1, k2⟩ := C77.stiffness_ana hI P ha hb m4 n4 F hF hpos s
  exact ⟨fun h => buckles (sym_finalize _) (sym_finalize _) (pos_of (k1.2 h)),
    fun r h => buckles (sym_finalize _) (sym_finalize _) (pos_of ((k2 r).2 h))⟩

/-- The same by quadrature, with the state of a static analysis. -/
theorem panel_num (P : Panel ℝ) (hm : P.m ≤ 30) (hn : P.n ≤ 30) (ha : P.a ≠ 0) (hb : P.b ≠ 0)
    (m4 : 4 ≤ P.m) (n4 : 4 ≤ P.n) (dx : (xdom P).1 < (xdom P).2) (dy : (ydom P).1 < (ydom P).2)
    (F : ℕ → ℕ → ℕ → ℕ → ℝ) (hF : ∀ p q, ABDSym (F p q)) (hpos : ∀ p q, C76.ABDDef (F p q))
    (off : ℝ) (h rho : ℕ → ℕ → ℝ) (hh : ∀ p q, 0 < h p q) (hr : ∀ p q, 0 < rho p q)
    (c : ℕ → ℝ) (s nx ny : ℕ) (R : C76.Rule P nx ny) (G : Coo ℝ) :
    (Restrained 0 P →
      let K := Coo.finalizeSym (plateFkCnumF (vecShape ℝ) (gaussTab ℝ) P F c s s nx ny 0)
      Vibrates (C76.actives P s) K
        (Coo.finalizeSym (fkMnumF (vecShape ℝ) (gaussTab ℝ) P off h rho s s nx ny)) ∧
      Buckles (C76.actives P s) K (Coo.finalizeSym G)) ∧
    (P.r ≠ 0 → Restrained (1 / P.r) P →
      let K := Coo.finalizeSym (cylFkCnumF (vecShape ℝ) (gaussTab ℝ) P F c s s nx ny 0)
      Vibrates (C76.actives P s) K
        (Coo.finalizeSym (fkMnumF (vecShape ℝ) (gaussTab ℝ) P off h rho s s nx ny)) ∧
      Buckles (C76.actives P s) K (Coo.finalizeSym G)) := by
  obtain ⟨k1, k2⟩ := C77.stiffness_num P hm hn ha hb m4 n4 dx dy F hF hpos c s nx ny R 0 (by norm_num)
  have m1 := C76.mass_num P hm hn ha hb dx dy off h rho hh hr s nx ny R
  exact ⟨fun h => ⟨vibrates (sym_finalize _) (sym_finalize _) (pos_of (k1.2 h)) (pos_of m1),
      buckles (sym_finalize _) (sym_finalize _) (pos_of (k1.2 h))⟩,
    fun r h => ⟨vibrates (sym_finalize _) (sym_finalize _) (pos_of ((k2 r).2 h)) (pos_of m1),
      buckles (sym_finalize _) (sym_finalize _) (pos_of ((k2 r).2 h))⟩⟩

/-- **C80, more terms.**  The lowest value (frequency, and with the geometric stiffness in place of the
first matrix and the stiffness in place of the second the most negative reciprocal of a buckling load)
never rises when terms are added. -/
theorem refine {P : Panel ℝ} {m' n' : ℕ} (hm : P.m ≤ m') (hn : P.n ≤ n') {s s' : ℕ} {A B A' B' : Coo ℝ}
    (hA : Nested P.m P.n s m' s' A A') (hB : Nested P.m P.n s m' s' B B') (hB' : Sym B')
    {φ lam φ' lam'} (h : Modes (C76.actives P s) A B φ lam)
    (h' : Modes (C76.actives (C79.more P m' n') s') A' B' φ' lam')
    (h0 : 0 < (C76.actives P s).card) (h0' : 0 < (C76.actives (C79.more P m' n') s').card) :
    lam' ⟨0, h0'⟩ ≤ lam ⟨0, h0⟩ := by
  have hsub : C76.actives P s ⊆ numbers P.m P.n s := by
    intro k hk
    obtain ⟨α, hα, i, hi, j, hj, -, -, rfl⟩ := (C76.mem_actives P s k).1 hk
    exact Finset.mem_Ico.2 ⟨by omega, number_lt (s := s) hi hj hα⟩
  have hmem : ∀ k ∈ C76.actives P s, C79.place P.m s m' s' k ∈ C76.actives (C79.more P m' n') s' := by
    intro k hk
    obtain ⟨α, hα, i, hi, j, hj, h1, h2, rfl⟩ := (C76.mem_actives P s k).1 hk
    refine (C76.mem_actives _ _ _).2 ⟨α, hα, i, hi.trans_le hm, j, hj.trans_le hn, h1, h2, ?_⟩
    exact C79.place_number hi hα
  have hoff := h.off ⟨0, h0⟩
  have hv : ∀ k ∉ numbers P.m P.n s, φ ⟨0, h0⟩ k = 0 := fun k hk => hoff k fun e => hk (hsub e)
  obtain ⟨q1, q2⟩ := quad_mode h ⟨0, h0⟩
  rw [← C79.energy hm hB hv] at q1
  rw [← C79.energy hm hA hv] at q2
  have := (lowest h' hB' h0').1 (extend P.m P.n s m' s' (φ ⟨0, h0⟩)) fun k hk =>
     C79.extend_zero hm hsub hoff k fun e => by
    obtain ⟨l, hl, rfl⟩ := Finset.mem_image.1 e
    exact hk (hmem l hl)
  rwa [q1, q2, mul_one] at this

/-! ## Cylinders -/

/-- Axial loads do work of their sign. -/
theorem slopeWork_sign (S : Shape ℝ) {P : Panel ℝ} (ha : 0 ≤ P.a) (hb : 0 ≤ P.b) (N : ℝ) (c : ℕ → ℝ) :
    (0 ≤ N → 0 ≤ slopeWork S P N 0 0 c) ∧ (N ≤ 0 → slopeWork S P N 0 0 c ≤ 0) := by
  have e : ∀ N, slopeWork S P N 0 0 c = N * slopeWork S P 1 0 0 c := fun N => by
    unfold slopeWork
    simp only [mul_zero, zero_mul, add_zero, one_mul, intervalIntegral.integral_const_mul]
  have h1 : 0 ≤ slopeWork S P 1 0 0 c := intervalIntegral.integral_nonneg ha fun x _ =>
    intervalIntegral.integral_nonneg hb fun y _ => by
      simp only [mul_zero, zero_mul, add_zero, one_mul]
      positivity
  rw [e N]
  exact ⟨fun h => mul_nonneg h h1, fun h => mul_nonpos_of_nonpos_of_nonneg h h1⟩

theorem list_sum_nonneg {l : List ℕ} {g : ℕ → ℝ} (h : ∀ k ∈ l, 0 ≤ g k) : 0 ≤ (l.map g).sum :=
  (sum_map_zero h).1

theorem list_sum_nonpos {l : List ℕ} {g : ℕ → ℝ} (h : ∀ k ∈ l, g k ≤ 0) : (l.map g).sum ≤ 0 := by
  have := list_sum_nonneg (l := l) (g := fun k => - g k) fun k hk => neg_nonneg.2 (h k hk)
  have e : (l.map fun k => - g k).sum = - (l.map g).sum := by
    induction l with
    | nil => simp
    | cons a l ih =>
      simp only [List.map_cons, List.sum_cons]
      rw [ih (fun k hk => h k (List.mem_cons_of_mem _ hk)) (list_sum_nonneg fun k hk =>
        neg_nonneg.2 (h k (List.mem_cons_of_mem _ hk)))]
      ring
  linarith

/-- What holds for the pair of matrices of a buckling analysis under axial loads: `Buckles`; with tension
only there is no positive critical multiplier, with compression only no negative one. -/
def AxialBuckling (t : Finset ℕ) (K G : Coo ℝ) (Nxxs : List ℝ) : Prop :=
  Buckles t K G ∧ ((∀ N ∈ Nxxs, 0 ≤ N) → ∀ r : ℝ, Critical t K G r → r < 0) ∧
    ((∀ N ∈ Nxxs, N ≤ 0) → ∀ r : ℝ, Critical t K G r → 0 < r)

section
variable {E : Env ℝ} (hI : E.I.Exact E.S Mean.integral) (hC : E.S.C2) {N : ℕ} (hS : Hier E.S N)
  (hN : 4 ≤ N) (q : CylArgs ℝ) (hq : q.m ≤ N ∧ q.n ≤ N) (hn : 2 ≤ q.npanels) (hm : 0 < q.m ∧ 0 < q.n)
  (hh : 0 < q.height) (hr : 0 < q.r) {t : Shell ℝ}
  (ht : (skinPart Real.pi q 0).shell.rebuild E = .ok t) {lam : LamObj ℝ} (hl : t.lam = some lam)
  (hF : ABDSym lam.ABD) (hD : C76.ABDDef lam.ABD) (hpos : C44.Pos (penOf t lam))

theorem getD_mem {l : List ℝ} {i : ℕ} (hi : i < l.length) : l.getD i 0 ∈ l := by
  have : l.getD i 0 = l[i] := by simp [List.getD, hi]
  rw [this]
  exact List.getElem_mem hi

include hI hC hS hN hq hn hm hh hr ht hl hF hD hpos

/-- **C80, cylinder.**  The pair of matrices of `cylinder_compression_lb_Nxx_cte`. -/
theorem cylinder (Nxxs : List ℝ) (hN' : Nxxs.length = q.npanels) :
    ∃ A k0 kG, cylinderNxxCte E Real.pi q Nxxs = .ok (A, k0, kG) ∧
      AxialBuckling (C78.actives A.count A.panel A.start) k0 kG Nxxs := by
  obtain ⟨A, k0, kG, h1, h2⟩ := C78.cylinder_nxx hI hC hS hN q hq hn hm hh hr ht hl hF hD hpos Nxxs hN'
  obtain ⟨A', k0', kG', kt, kr, g1, -, -, -, g2⟩ := C65.nxx_cte hI hC q hn hm hh hr ht hl hF hpos Nxxs hN'
  have e := h1.symm.trans g1
  cases e
  have hs : Sym k0 ∧ Sym kG := by
    unfold cylinderNxxCte at h1
    obtain ⟨A0, -, h1⟩ := bind_ok.1 h1
    rw [if_neg (by simp [hN'])] at h1
    obtain ⟨⟨k, M⟩, c1, h1⟩ := bind_ok.1 h1
    obtain ⟨⟨g, M'⟩, c2, h1⟩ := bind_ok.1 h1
    cases h1
    exact ⟨Assy.calcKC_sym c1, Multi.calcKG_sym c2⟩
  have ha : 0 ≤ (skinPart Real.pi q 0).freeX2u.shell.panel.a := hh.le
  have hb : 0 ≤ (skinPart Real.pi q 0).freeX2u.shell.panel.b := (bSkin_pos hn hr).le
  refine ⟨A, k0, kG, h1, buckles hs.2 hs.1 (pos_of_assy h2), fun hT r hc =>
    (critical_sign hs.2 hs.1 (pos_of_assy h2) hc).1 fun v => ?_, fun hT r hc =>
    (critical_sign hs.2 hs.1 (pos_of_assy h2) hc).2 fun v => ?_⟩
  · rw [g2]
    exact list_sum_nonneg fun i hi => (slopeWork_sign _ ha hb _ _).1
      (hT _ (getD_mem (by rw [hN']; exact List.mem_range.1 hi)))
  · rw [g2]
    exact list_sum_nonpos fun i hi => (slopeWork_sign _ ha hb _ _).2
      (hT _ (getD_mem (by rw [hN']; exact List.mem_range.1 hi)))

end

section
variable {E : Env ℝ} {q : CylArgs ℝ} {sts : List (List ℝ)} {widths : List ℝ} {t : Shell ℝ}
  {lam : LamObj ℝ} {tb : ℕ → Shell ℝ} {lamb : ℕ → LamObj ℝ}

/-- **C80, stiffened cylinder.**  The pair of `cylinder_blade_stiffened_compression_lb_Nxx_cte`. -/
theorem blades (h : BladesFit E q sts widths t lam tb lamb) {N : ℕ} (hS : Hier E.S N) (hN : 4 ≤ N)
    (hq : q.m ≤ N ∧ q.n ≤ N) (hD : C76.ABDDef lam.ABD) (hDb : ∀ i < q.npanels, C76.ABDDef (lamb i).ABD)
    (NxxsSkin NxxsBlade : List ℝ) (hNs : NxxsSkin.length = q.npanels)
    (hNb : NxxsBlade.length = q.npanels) : ∃ A k0 kG,
      bladesNxxCte E Real.pi q sts widths NxxsSkin NxxsBlade = .ok (A, k0, kG) ∧
      AxialBuckling (C78.actives A.count A.panel A.start) k0 kG (NxxsSkin ++ NxxsBlade) := by
  obtain ⟨A, k0, kG, h1, h2⟩ := C78.blades_nxx h hS hN hq hD hDb NxxsSkin NxxsBlade hNs hNb
  obtain ⟨A', k0', kG', g1, g2⟩ := C65.blades_nxx_cte h NxxsSkin NxxsBlade hNs hNb
  have e := h1.symm.trans g1
  cases e
  have hs : Sym k0 ∧ Sym kG := by
    unfold bladesNxxCte at h1
    obtain ⟨A0, -, h1⟩ := bind_ok.1 h1
    rw [if_neg (by simp [hNs]), if_neg (by simp [hNb])] at h1
    obtain ⟨⟨k, M⟩, c1, h1⟩ := bind_ok.1 h1
    obtain ⟨⟨g, M'⟩, c2, h1⟩ := bind_ok.1 h1
    cases h1
    exact ⟨Assy.calcKC_sym c1, Multi.calcKG_sym c2⟩
  have ha : 0 ≤ (skinPart Real.pi q 0).freeX2u.shell.panel.a := h.height.le
  have hb : 0 ≤ (skinPart Real.pi q 0).freeX2u.shell.panel.b := (bSkin_pos h.num h.r).le
  have hab : ∀ i, 0 ≤ (bladePart Real.pi q sts widths i).freeX2u.shell.panel.a := fun i => h.height.le
  have hbb : ∀ i < q.npanels, 0 ≤ (bladePart Real.pi q sts widths i).freeX2u.shell.panel.b :=
    fun i hi => (h.width i hi).le
  refine ⟨A, k0, kG, h1, buckles hs.2 hs.1 (pos_of_assy h2), fun hT r hc =>
    (critical_sign hs.2 hs.1 (pos_of_assy h2) hc).1 fun v => ?_, fun hT r hc =>
    (critical_sign hs.2 hs.1 (pos_of_assy h2) hc).2 fun v => ?_⟩
  · rw [g2]
    exact add_nonneg
      (list_sum_nonneg fun i hi => (slopeWork_sign _ ha hb _ _).1
        (hT _ (List.mem_append_left _ (getD_mem (by rw [hNs]; exact List.mem_range.1 hi)))))
      (list_sum_nonneg fun i hi => (slopeWork_sign _ (hab i) (hbb i (List.mem_range.1 hi)) _ _).1
        (hT _ (List.mem_append_right _ (getD_mem (by rw [hNb]; exact List.mem_range.1 hi)))))
  · rw [g2]
    exact add_nonpos
      (list_sum_nonpos fun i hi => (slopeWork_sign _ ha hb _ _).2
        (hT _ (List.mem_append_left _ (getD_mem (by rw [hNs]; exact List.mem_range.1 hi)))))
      (list_sum_nonpos fun i hi => (slopeWork_sign _ (hab i) (hbb i (List.mem_range.1 hi)) _ _).2
        (hT _ (List.mem_append_right _ (getD_mem (by rw [hNb]; exact List.mem_range.1 hi)))))

end

/-! ## The panel with a T stiffener -/

section
variable {E : Env ℝ} {q : TArgs ℝ} {T : ℕ → Shell ℝ} {lam : ℕ → LamObj ℝ}

/-- **C80, frequencies of the panel with a T stiffener.** -/
theorem tstiff_freq (h : TBuilt E q 1 2 T lam) (hD : ∀ k < 15, C76.ABDDef (lam k).ABD) {N : ℕ}
    (hS : Hier E.S N) (hN : 4 ≤ N) (hq : C78.TTerms q N) (hr : 0 < q.rho) (ht : 0 < q.plyt) :
    ∃ k0 kM, tstiffFreq E q = .ok (q.assy 1 2, k0, kM) ∧
      Vibrates (C78.actives 15 (q.assy 1 2).panel (q.assy 1 2).start) k0 kM := by
  obtain ⟨k0, M, kt, kr, h1, -, -, h4, h5, h6⟩ := C66.energy h
  obtain ⟨kM, g1, g2⟩ := h.fit.mass hS (fun k hk => by
      obtain ⟨e1, e2, e3⟩ := hq
      have hk' : k < 15 := hk
      interval_cases k <;> first | exact e1 | exact e2 | exact e3) (fun k hk => by
      have hk' : k < 15 := hk
      interval_cases k <;> exact hr) (fun k hk => by
      have hk' : k < 15 := hk
      rw [h.thick hk']
      obtain ⟨-, hs, -⟩ := (C54.rebuild_ok_iff E _ _).1 (h.built k hk')
      rw [(tPart_group hk').2] at hs
      have : 0 < (tStack q (q.part 1 2 k).group).length := List.length_pos_iff.2 hs
      positivity) h4 h5 h6
  refine ⟨k0, kM, ?_, vibrates (Assy.calcKC_sym h1) (Multi.calcKM_sym g1)
    (pos_of_assy (C78.tstiff h hD hS hN hq h1)) (pos_of_assy g2)⟩
  unfold tstiffFreq
  simp only [h1, bind, Except.bind, g1]
  rfl

/-- **C80, buckling of the panel with a T stiffener**, with given loads and with those of a static
analysis. -/
theorem tstiff_compression (s : Bool) (h : TBuilt E q (if s then 1 else 0) 1 T lam)
    (hD : ∀ k < 15, C76.ABDDef (lam k).ABD) {N : ℕ} (hS : Hier E.S N) (hN : 4 ≤ N)
    (hq : C78.TTerms q N) (solve : Coo ℝ → (ℕ → ℝ) → Except Fail (ℕ → ℝ))
    {R} (hR : tstiffCompression E solve q s = .ok R) :
    Buckles (C78.actives 15 (q.assy (if s then 1 else 0) 1).panel (q.assy (if s then 1 else 0) 1).start)
      R.2.1 R.2.2.2 := by
  have h2 := (C78.tstiff_matrices (E := E) hS hN hq solve id s).1 T lam h hD R hR
  have hs : Sym R.2.1 ∧ Sym R.2.2.2 := by
    unfold tstiffCompression at hR
    obtain ⟨⟨k0, M⟩, h1, hR⟩ := bind_ok.1 hR
    cases s
    · obtain ⟨⟨kG, M'⟩, hG, hR⟩ := bind_ok.1 hR
      cases hR
      exact ⟨Assy.calcKC_sym h1, Multi.calcKG_sym hG⟩
    · obtain ⟨⟨A, M', f, c⟩, -, hR⟩ := bind_ok.1 hR
      obtain ⟨⟨kG, M'⟩, hG, hR⟩ := bind_ok.1 hR
      cases hR
      exact ⟨Assy.calcKC_sym h1, Multi.calcKG_sym hG⟩
  exact buckles hs.2 hs.1 (pos_of_assy h2)

end

/-! ## Concrete cases -/

/-- A plate of 5 × 7 terms with a definite laminate. -/
example : Vibrates (C76.actives Witness.panel 12)
      (Coo.finalizeSym (plateFk0 (Tab.of (bardellShape ℝ) Mean.integral) Witness.panel C13.lam 12 12))
      (Coo.finalizeSym (plateFkM (Tab.of (bardellShape ℝ) Mean.integral) Witness.panel (1 / 8) (1 / 4) 3
        12 12)) ∧
    Buckles (C76.actives Witness.panel 12)
      (Coo.finalizeSym (plateFk0 (Tab.of (bardellShape ℝ) Mean.integral) Witness.panel C13.lam 12 12))
      (Coo.finalizeSym (plateFkG0 (Tab.of (bardellShape ℝ) Mean.integral) Witness.panel (-1) 2 3
        12 12)) := by
  have hR := C77.supported 0 (P := Witness.panel) (by simp [Witness.panel]) (by simp [Witness.panel])
    C76.panel_supported
  exact ⟨(panel_frequencies (Tab.of_exact _ _) Witness.panel (by simp [Witness.panel])
      (by simp [Witness.panel]) (by simp [Witness.panel]) (by simp [Witness.panel]) C13.lam C13.lam_sym
      C76.lam_def (1 / 8) (1 / 4) 3 (by norm_num) (by norm_num) 12).1 hR,
    (panel_buckling (Tab.of_exact _ _) Witness.panel (by simp [Witness.panel])
      (by simp [Witness.panel]) (by simp [Witness.panel]) (by simp [Witness.panel]) C13.lam C13.lam_sym
      C76.lam_def (-1) 2 3 12).1 hR⟩

/-- Its lowest frequency with 9 × 7 terms is not higher. -/
example : ∃ φ lam φ' lam' h0 h0',
    Modes (C76.actives Witness.panel 0)
      (Coo.finalizeSym (plateFk0 (Tab.of (bardellShape ℝ) Mean.integral) Witness.panel C13.lam 0 0))
      (Coo.finalizeSym (plateFkM (Tab.of (bardellShape ℝ) Mean.integral) Witness.panel 0 1 3 0 0)) φ lam ∧
    Modes (C76.actives (C79.more Witness.panel 9 7) 0)
      (Coo.finalizeSym (plateFk0 (Tab.of (bardellShape ℝ) Mean.integral) (C79.more Witness.panel 9 7)
        C13.lam 0 0))
      (Coo.finalizeSym (plateFkM (Tab.of (bardellShape ℝ) Mean.integral) (C79.more Witness.panel 9 7)
        0 1 3 0 0)) φ' lam' ∧ lam' ⟨0, h0'⟩ ≤ lam ⟨0, h0⟩ := by
  have D := fun P h1 h2 => (C76.mass_ana (Tab.of_exact (bardellShape ℝ) Mean.integral) P h1 h2 0 1 3
    (by norm_num) (by norm_num) 0).1
  have D1 := D Witness.panel (by simp [Witness.panel]) (by simp [Witness.panel])
  have D2 := D (C79.more Witness.panel 9 7) (by simp [Witness.panel, C79.more])
    (by simp [Witness.panel, C79.more])
  have act : ∀ m n, 5 ≤ m → 7 ≤ n → 0 < (C76.actives (C79.more Witness.panel m n) 0).card := by
    intro m n h5 h7
    refine Finset.card_pos.2 ⟨_, (C76.mem_actives _ _ _).2 ⟨2, by norm_num, 4, by simp [C79.more]; omega,
      4, by simp [C79.more]; omega, ?_, ?_, rfl⟩⟩ <;> simp [flag]
  obtain ⟨φ, lam, h⟩ := modes (sym_finalize (plateFk0 (Tab.of (bardellShape ℝ) Mean.integral)
    Witness.panel C13.lam 0 0)) (sym_finalize _) (pos_of D1)
  obtain ⟨φ', lam', h'⟩ := modes (sym_finalize (plateFk0 (Tab.of (bardellShape ℝ) Mean.integral)
    (C79.more Witness.panel 9 7) C13.lam 0 0)) (sym_finalize _) (pos_of D2)
  refine ⟨φ, lam, φ', lam', act 5 7 (by norm_num) (by norm_num), act 9 7 (by norm_num) (by norm_num),
    h, h', ?_⟩
  refine C80.refine (show 5 ≤ 9 by norm_num) (show 7 ≤ 7 by norm_num) ?_ ?_ (sym_finalize _) h h' _ _
  · exact (C79.stiffness_ana _ Witness.panel (show 5 ≤ 9 by norm_num) (show 7 ≤ 7 by norm_num) 0 0
      _).1.finalize (show 5 ≤ 9 by norm_num)
  · exact (C79.mass_ana _ Witness.panel (show 5 ≤ 9 by norm_num) (show 7 ≤ 7 by norm_num) 0 0
      0 1 3).1.finalize (show 5 ≤ 9 by norm_num)

/-- Three panels in compression. -/
example : ∃ A k0 kG, cylinderNxxCte C40.env Real.pi C64.args [-1, -2, -3] = .ok (A, k0, kG) ∧
    ∀ r : ℝ, Critical (C78.actives A.count A.panel A.start) k0 kG r → 0 < r := by
  obtain ⟨t, lam, h1, h2, h3, h4⟩ := C64.args_built
  obtain ⟨A, k0, kG, g1, -, -, g2⟩ := cylinder (Tab.of_exact _ _) bardellShape_C2 (exact_hier 7)
    (by norm_num) C64.args ⟨by decide, by decide⟩ (by decide) ⟨by decide, by decide⟩
    (by simp [C64.args]) (by simp [C64.args]) h1 h2 h3 (C78.env_def h1 h2 rfl h4) h4 [-1, -2, -3] rfl
  exact ⟨A, k0, kG, g1, g2 (by simp)⟩

/-- Three blades on them in tension. -/
example : ∃ A k0 kG, bladesNxxCte C40.env Real.pi C64.args [[0], [45, 0], [0, 0, 90]] [1, 2, 3] [1, 1, 1]
      [0, 2, 0] = .ok (A, k0, kG) ∧
    ∀ r : ℝ, Critical (C78.actives A.count A.panel A.start) k0 kG r → r < 0 := by
  obtain ⟨t, lam, tb, lamb, h⟩ := C64.blades_built
  obtain ⟨A, k0, kG, g1, -, g2, -⟩ := blades h (exact_hier 7) (by norm_num) ⟨by decide, by decide⟩
    (C78.env_def h.built h.hlam rfl h.pos)
    (fun i hi => C78.env_def (h.builtb i hi) (h.hlamb i hi) rfl (h.posb i hi)) [1, 1, 1] [0, 2, 0] rfl rfl
  exact ⟨A, k0, kG, g1, g2 (by simp)⟩

/-- A curved panel with a stiffener, a quarter of it loose. -/
example : ∃ k0 kM, tstiffFreq C40.env C66.args = .ok (C66.args.assy 1 2, k0, kM) ∧
    Vibrates (C78.actives 15 (C66.args.assy 1 2).panel (C66.args.assy 1 2).start) k0 kM := by
  obtain ⟨T, lam, h⟩ := C66.args_built 1 2
  exact tstiff_freq h (fun k hk => C78.env_def (h.built k hk) (h.hlam k hk)
    (by interval_cases k <;> rfl) (h.pos k hk)) (exact_hier 6) (by norm_num)
    ⟨⟨by decide, by decide⟩, ⟨by decide, by decide⟩, by decide, by decide⟩ (by simp [C66.args])
    (by simp [C66.args])

end C80
end Verif
