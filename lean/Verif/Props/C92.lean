import Verif.Proofs.ExchangeAll
import Verif.Props.C90
import Verif.Props.C91

/-!
# C92: an assembly does not depend on which axis is called `x`

Panels, joints and loads of an assembly of plates described with the axes exchanged
(`Spec/ExchangeAll.lean`): the same matrices and forces with the terms renumbered inside every panel, the same
frequencies, buckling loads and displacements.  Joints over an area (`SB`) are the exception, see `area_iff`
and `area_differs`, and so are prescribed displacements, see `point_pd_iff`.
-/

set_option linter.unusedSectionVars false

namespace Verif.C92

open Finset Spec Model Indep C80

/-! ## Consequences of a renumbering, continued from C91 -/

section
variable {e : ℕ ≃ ℕ} {A A' B B' : Coo ℝ} {t t' : Finset ℕ}

theorem eigen_to (ht : ∀ k, k ∈ t' ↔ e k ∈ t) (hA : C91.Perm e A A') (hB : C91.Perm e B B') {μ : ℂ}
    (h : Eigen t A B μ) : Eigen t' A' B' μ := by
  obtain ⟨z, ⟨k, hk, hz⟩, h⟩ := h
  refine ⟨fun l => z (e l), ⟨e.symm k, (C91.back_mem ht k).1 hk, by simpa using hz⟩, fun l hl => ?_⟩
  have e1 := C91.mul_over (fun x : ℝ => (x : ℂ)) ht hA z l
  have e2 := C91.mul_over (fun x : ℝ => (x : ℂ)) ht hB z l
  rw [e1, e2]
  exact h _ ((ht l).1 hl)

theorem eigen_iff (ht : ∀ k, k ∈ t' ↔ e k ∈ t) (hA : C91.Perm e A A') (hB : C91.Perm e B B') (μ : ℂ) :
    Eigen t' A' B' μ ↔ Eigen t A B μ :=
  ⟨eigen_to (C91.back_mem ht) hA.symm hB.symm, eigen_to ht hA hB⟩

theorem balanced_to (ht : ∀ k, k ∈ t' ↔ e k ∈ t) (hA : C91.Perm e A A') {f f' c : ℕ → ℝ}
    (hf : ∀ k ∈ t', f' k = f (e k)) (h : Balanced t A f c) : Balanced t' A' f' fun k => c (e k) := by
  refine ⟨fun k hk => h.off _ fun e => hk ((ht k).2 e), fun k hk => ?_⟩
  have e := C91.mul_over id ht hA c k
  rw [hf k hk]
  exact e.trans (h.eq _ ((ht k).1 hk))

end

/-! ## The numbers of an assembly -/

/-- The numbers of the exchanged assembly. -/
noncomputable def num (A : Assy ℝ) (k : ℕ) : ℕ :=
  swapNo (fun p => (A.panel p).n) (fun p => (A.panel p).m) A.start A.count k

/-- Entry by entry the same matrix, with the numbers of the exchanged assembly. -/
def Renumbered (A : Assy ℝ) (L L' : Coo ℝ) : Prop :=
  ∀ k l, Coo.entry L' k l = Coo.entry L (num A k) (num A l)

noncomputable def numEquiv (A : Assy ℝ) : ℕ ≃ ℕ :=
  swapEquiv (fun p => (A.panel p).n) (fun p => (A.panel p).m) A.start A.count

theorem numEquiv_apply (A : Assy ℝ) (k : ℕ) : numEquiv A k = num A k := swapEquiv_apply _ _

theorem renumbered_iff {A : Assy ℝ} {L L' : Coo ℝ} : Renumbered A L L' ↔ C91.Perm (numEquiv A) L L' := by
  unfold Renumbered C91.Perm
  simp only [numEquiv_apply]

section
variable {E : Env ℝ} {A A' : Assy ℝ} {T T' : ℕ → Shell ℝ}

theorem start_sep {A : Assy ℝ} (p q : ℕ) (hpq : p < q) (hq : q < A.count) :
    A.start p + 3 * ((A.panel p).n * (A.panel p).m) ≤ A.start q := by
  have mono : ∀ r, p + 1 ≤ r → r < A.count → A.start (p + 1) ≤ A.start r := by
    intro r
    induction r with
    | zero => omega
    | succ r ih =>
      intro h1 h2
      rcases Nat.lt_or_ge p r with h3 | h3
      · rw [Assy_start_succ (by omega : r < A.count)]
        exact (ih h3 (by omega)).trans (Nat.le_add_right _ _)
      · obtain rfl : r = p := by omega
        exact le_rfl
  have h1 := mono q hpq hq
  rw [Assy_start_succ (by omega : p < A.count)] at h1
  have e : 3 * ((A.panel p).n * (A.panel p).m) = 3 * (A.part p).shell.pan.m * (A.part p).shell.pan.n := by
    show 3 * ((A.part p).shell.pan.n * (A.part p).shell.pan.m) = _
    ring
  omega

/-- Inside the block of a panel. -/
theorem num_block {A : Assy ℝ} {p k : ℕ} (hp : p < A.count) (hk : k < 3 * (A.panel p).m * (A.panel p).n) :
    num A (A.start p + k) = flipNo (A.panel p).n (A.panel p).m (A.start p) (A.start p + k) := by
  refine swapNo_block (m := fun p => (A.panel p).n) (n := fun p => (A.panel p).m) start_sep hp ⟨by omega, ?_⟩
  show _ < A.start p + 3 * ((A.panel p).n * (A.panel p).m)
  have e : 3 * (A.panel p).m * (A.panel p).n = 3 * ((A.panel p).n * (A.panel p).m) := by ring
  omega

theorem starts (h : ExAssy A A' T T') {p : ℕ} (hp : p ≤ A.count) : A'.start p = A.start p := by
  induction p with
  | zero => rfl
  | succ p ih =>
    have hp' : p < A.count := hp
    rw [Assy_start_succ hp', Assy_start_succ (by rw [h.count]; exact hp'), ih hp'.le]
    obtain ⟨e1, e2⟩ : (A'.part p).shell.pan.m = (A.part p).shell.pan.n ∧
        (A'.part p).shell.pan.n = (A.part p).shell.pan.m := ⟨(h.parts p hp').panel.m, (h.parts p hp').panel.n⟩
    rw [e1, e2]
    ring

/-- The displacements of every panel are the same. -/
theorem displacement {S : Shape ℝ} (h : ExAssy A A' T T') {p : ℕ} (hp : p < A.count) (v : ℕ → ℝ) {α : ℕ}
    (hα : α < 3) :
    u S (A'.panel p) (A'.start p) (fun k => v (num A k)) α
      = fun y x => u S (A.panel p) (A.start p) v (other α) x y := by
  have hx := (h.parts p hp).panel
  rw [starts h hp.le]
  funext y x
  have e : u S (A'.panel p) (A.start p) (fun k => v (num A k)) α
      = u S (A'.panel p) (A.start p) (flipped (A.panel p).m (A.panel p).n (A.start p) v) α := by
    refine u_block (fun k hk => ?_) hα
    have hk' : k < 3 * (A.panel p).m * (A.panel p).n := by
      have e1 : (A'.panel p).m = (A.panel p).n := hx.m
      have e2 : (A'.panel p).n = (A.panel p).m := hx.n
      rw [e1, e2] at hk
      nlinarith
    simp only [num_block hp hk']
    rfl
  rw [e]
  exact C90.displacements hx _ _ hα x y

theorem flip_zero (m n s : ℕ) (v : ℕ → ℝ) {k : ℕ} (hk : k < 3 * (n * m)) :
    flipped m n s v (s + k) = flipped m n 0 (fun i => v (s + i)) k := by
  unfold flipped flipNo
  rw [if_pos ⟨by omega, by omega⟩, if_pos ⟨by omega, by omega⟩, Nat.add_sub_cancel_left, Nat.sub_zero,
    Nat.zero_add, Nat.add_assoc]

/-- Amplitudes of one panel, counted from zero. -/
theorem own_block (h : ExAssy A A' T T') {p : ℕ} (hp : p < A.count) (v : ℕ → ℝ) {k : ℕ}
    (hk : k < 3 * (A'.panel p).m * (A'.panel p).n) :
    v (num A (A'.start p + k))
      = flipped (A.panel p).m (A.panel p).n 0 (fun i => v (A.start p + i)) k := by
  have hx := (h.parts p hp).panel
  have e1 : (A'.panel p).m = (A.panel p).n := hx.m
  have e2 : (A'.panel p).n = (A.panel p).m := hx.n
  rw [e1, e2] at hk
  have hk' : k < 3 * (A.panel p).m * (A.panel p).n := by nlinarith
  rw [starts h hp.le, num_block hp hk', ← flip_zero _ _ _ _ (by nlinarith)]
  rfl

/-! ## The exchanged assembly can be analysed when the given one can -/

theorem exFunc_kinds {f : String} (hf : f = "SSxcte" ∨ f = "SSycte" ∨ f = "BFxcte" ∨ f = "BFycte" ∨ f = "SB") :
    ((f = "SSxcte" ∨ f = "BFxcte") → exFunc f = "SSycte" ∨ exFunc f = "BFycte") ∧
    ((f = "SSycte" ∨ f = "BFycte") → exFunc f = "SSxcte" ∨ exFunc f = "BFxcte") ∧
    (f = "SB" ↔ exFunc f = "SB") := by
  rcases hf with rfl | rfl | rfl | rfl | rfl <;> decide

theorem kinds {l : List ℕ} {d : ConnD ℝ} (h : Joinable l d) :
    d.func = "SSxcte" ∨ d.func = "SSycte" ∨ d.func = "BFxcte" ∨ d.func = "BFycte" ∨ d.func = "SB" := by
  obtain ⟨-, -, -, ⟨h1 | h1, -⟩ | ⟨h1 | h1, -⟩ | h1⟩ := h <;> simp [h1]

theorem joinable {l : List ℕ} {d : ConnD ℝ} (h : Joinable l d) : Joinable l (exConn d) := by
  obtain ⟨k1, k2, k3⟩ := exFunc_kinds (kinds h)
  obtain ⟨m1, m2, hne, hk⟩ := h
  refine ⟨m1, m2, hne, ?_⟩
  rcases hk with ⟨h1, h2⟩ | ⟨h1, h2⟩ | h1
  · exact .inr (.inl ⟨k1 h1, h2⟩)
  · exact .inl ⟨k2 h1, h2⟩
  · exact .inr (.inr (k3.1 h1))

theorem fit (h : Fit E A T) (hx : ExAssy A A' T T')
    (hb : ∀ p < A.count, (A'.part p).shell.rebuild E = .ok (T' p)) : Fit E A' T' where
  exact := h.exact
  smooth := h.smooth
  pos := hx.count ▸ h.pos
  terms p hp := by
    rw [hx.count] at hp
    obtain ⟨h1, h2⟩ := h.terms p hp
    have e1 : (A'.part p).shell.pan.m = (A.part p).shell.pan.n := (hx.parts p hp).panel.m
    have e2 : (A'.part p).shell.pan.n = (A.part p).shell.pan.m := (hx.parts p hp).panel.n
    exact ⟨e1 ▸ h2, e2 ▸ h1⟩
  built p hp := hb p (hx.count ▸ hp)
  stiff p hp := by
    rw [hx.count] at hp
    obtain ⟨l, hl, hP⟩ := h.stiff p hp
    obtain ⟨l1, l', h1, h2, h3, h4⟩ := (hx.parts p hp).lam
    obtain rfl : l1 = l := Option.some.inj (h1.symm.trans hl)
    refine ⟨l', h2, ?_⟩
    have e0 : (T' p).pan = (A'.part p).shell.pan := (rebuild_kept E (hb p hp)).1
    have e1 : (A'.part p).shell.pan.a = (A.part p).shell.pan.b := (hx.parts p hp).panel.a
    have e2 : (A'.part p).shell.pan.b = (A.part p).shell.pan.a := (hx.parts p hp).panel.b
    have e3 := h.pan hp
    refine ⟨?_, ?_, ?_, ?_, ?_, ?_, ?_⟩
    · show 0 < l'.ABD 0 0
      rw [h3]; exact hP.A22
    · show 0 < l'.ABD 1 1
      rw [h3]; exact hP.A11
    · show 0 < l'.ABD 3 3
      rw [h3]; exact hP.D22
    · show 0 < l'.ABD 4 4
      rw [h3]; exact hP.D11
    · show 0 < l'.h
      rw [h4]; exact hP.h
    · show 0 < (T' p).pan.a
      rw [e0, e1, ← e3]; exact hP.b
    · show 0 < (T' p).pan.b
      rw [e0, e2, ← e3]; exact hP.a
  sides p hp := by
    rw [hx.count] at hp
    obtain ⟨h1, h2⟩ := h.sides p hp
    have e1 : (A'.part p).shell.pan.a = (A.part p).shell.pan.b := (hx.parts p hp).panel.a
    have e2 : (A'.part p).shell.pan.b = (A.part p).shell.pan.a := (hx.parts p hp).panel.b
    exact ⟨e1 ▸ h2, e2 ▸ h1⟩
  conns := by
    rw [hx.conns]
    simpa using h.conns
  joined d hd := by
    rw [hx.conns] at hd
    obtain ⟨d0, h0, rfl⟩ := List.mem_map.1 hd
    rw [hx.count]
    exact joinable (h.joined d0 h0)

/-! ## One joint -/

/-- The laminates on both sides of the joints over an area are as stiff along `x` as along `y`. -/
def EvenAreas (A : Assy ℝ) (T : ℕ → Shell ℝ) : Prop :=
  ∀ d ∈ A.conns, d.func = "SB" → ∀ p, p = d.p1 ∨ p = d.p2 → ∀ l, (T p).lam = some l → l.ABD 0 0 = l.ABD 1 1

theorem pos_ex {l : List ℕ} {d : ConnD ℝ} (h : Joinable l d) (hf : d.func ≠ "SB") :
    posLo (exConn d) = posLo d ∧ posHi (exConn d) = posHi d ∧ lo (exConn d) = lo d ∧ hi (exConn d) = hi d := by
  have key : ∀ x y, jointPos (exFunc d.func) y x = jointPos d.func x y := by
    intro x y
    obtain ⟨k1, k2, -⟩ := exFunc_kinds (kinds h)
    unfold jointPos
    by_cases hc : d.func = "SSxcte" ∨ d.func = "BFxcte"
    · rw [if_pos hc, if_neg]
      rcases k1 hc with e | e <;> rw [e] <;> decide
    · rw [if_neg hc, if_pos (k2 ?_)]
      rcases kinds h with e | e | e | e | e
      · exact absurd (.inl e) hc
      · exact .inl e
      · exact absurd (.inr e) hc
      · exact .inr e
      · exact absurd e hf
  refine ⟨?_, ?_, rfl, rfl⟩
  · unfold posLo
    simp only [exConn, key]
  · unfold posHi
    simp only [exConn, key]

theorem term_eq (h : Fit E A T) (hx : ExAssy A A' T T')
    (hb : ∀ p < A.count, (A'.part p).shell.rebuild E = .ok (T' p)) (hE : EvenAreas A T) {d : ConnD ℝ}
    (hd : d ∈ A.conns) {e e' : (ℕ → ℝ) → ℝ} (ht : C40.Term E (A.after T) d e)
    (ht' : C40.Term E (A'.after T') (exConn d) e') (v : ℕ → ℝ) : e' (fun k => v (num A k)) = e v := by
  have h' := fit h hx hb
  have hd' : exConn d ∈ A'.conns := by
    rw [hx.conns]
    exact List.mem_map_of_mem hd
  have hj := h.joined d hd
  obtain ⟨p1, p2, lA, lB, kt, kr, l1, l2, -, hk, he⟩ := h.joint hd ht
  obtain ⟨-, -, lA', lB', kt', kr', l1', l2', -, hk', he'⟩ := h'.joint hd' ht'
  have q1 : lo (exConn d) = lo d := rfl
  have q2 : hi (exConn d) = hi d := rfl
  rw [q1, q2] at he' hk'
  rw [q1] at l1'
  rw [q2] at l2'
  obtain ⟨mA, mA', m1, m2, m3, m4⟩ := (hx.parts _ p1).lam
  obtain ⟨mB, mB', n1, n2, n3, n4⟩ := (hx.parts _ p2).lam
  obtain rfl : mA = lA := Option.some.inj (m1.symm.trans l1)
  obtain rfl : mB = lB := Option.some.inj (n1.symm.trans l2)
  obtain rfl : mA' = lA' := Option.some.inj (m2.symm.trans l1')
  obtain rfl : mB' = lB' := Option.some.inj (n2.symm.trans l2')
  have hkk : calcKtKr (penOf (T' (lo d)) mA') (penOf (T' (hi d)) mB') (C40.penKind (exFunc d.func))
      = calcKtKr (penOf (T (lo d)) mA) (penOf (T (hi d)) mB) (C40.penKind d.func) := by
    have gA : ∀ i j, mA'.ABD i j = mA.ABD (pair i) (pair j) := fun i j => by rw [m3]; rfl
    have gB : ∀ i j, mB'.ABD i j = mB.ABD (pair i) (pair j) := fun i j => by rw [n3]; rfl
    by_cases hs : d.func = "SB"
    · rw [hs]
      have hlo : lo d = d.p1 ∨ lo d = d.p2 := by unfold lo; split <;> simp
      have hhi : hi d = d.p1 ∨ hi d = d.p2 := by unfold hi; split <;> simp
      have w1 := hE d hd hs _ hlo mA l1
      have w2 := hE d hd hs _ hhi mB l2
      have e0 : (T' (lo d)).pan = (A'.part (lo d)).shell.pan := (rebuild_kept E (hb _ p1)).1
      have e1 : (A'.part (lo d)).shell.pan.a = (A.part (lo d)).shell.pan.b := (hx.parts _ p1).panel.a
      have e2 : (A'.part (lo d)).shell.pan.b = (A.part (lo d)).shell.pan.a := (hx.parts _ p1).panel.b
      have e3 := h.pan p1
      refine exFunc_bot _ _ _ _ ⟨?_, m4, ?_, ?_⟩ ⟨?_, n4⟩
      · exact (gA 0 0).trans w1.symm
      · show (T' (lo d)).pan.a = (T (lo d)).pan.b
        rw [e0, e1, e3]
      · show (T' (lo d)).pan.b = (T (lo d)).pan.a
        rw [e0, e2, e3]
      · exact (gB 0 0).trans w2.symm
    · have hf : d.func = "SSxcte" ∨ d.func = "SSycte" ∨ d.func = "BFxcte" ∨ d.func = "BFycte" := by
        rcases kinds hj with e | e | e | e | e
        · exact .inl e
        · exact .inr (.inl e)
        · exact .inr (.inr (.inl e))
        · exact .inr (.inr (.inr e))
        · exact absurd e hs
      exact exFunc_kind hf _ _ _ _ ⟨gA 0 0, gA 1 1, gA 3 3, gA 4 4, m4⟩ ⟨gB 0 0, gB 1 1, gB 3 3, gB 4 4, n4⟩
  have hk'' : calcKtKr (penOf (T' (lo d)) mA') (penOf (T' (hi d)) mB') (C40.penKind (exFunc d.func))
      = some (kt', kr') := hk'
  rw [hkk, hk] at hk''
  obtain ⟨rfl, rfl⟩ : kt = kt' ∧ kr = kr' := by simpa using hk''
  have key := springs_flip h.smooth (hx.parts _ p1).panel (hx.parts _ p2).panel
    (a := A.start (lo d)) (b := A.start (hi d)) (v := v) (v' := fun k => v (num A k))
    (fun α hα => starts hx p1.le ▸ displacement (S := E.S) hx p1 v hα)
    (fun α hα => starts hx p2.le ▸ displacement (S := E.S) hx p2 v hα) (kinds hj) kt (kr.getD 0)
    (if d.func = "SB" then (thick T (lo d) + thick T (hi d)) / 2 else posLo d) (posHi d)
  rw [he, he', starts hx p1.le, starts hx p2.le]
  refine Eq.trans ?_ key
  have hfe : (exConn d).func = exFunc d.func := rfl
  rw [hfe]
  by_cases hs : d.func = "SB"
  · have hs' := (exFunc_kinds (kinds hj)).2.2.1 hs
    have t1 : thick T' (lo d) = thick T (lo d) := (hx.parts _ p1).thick
    have t2 : thick T' (hi d) = thick T (hi d) := (hx.parts _ p2).thick
    rw [if_pos hs, if_pos hs', t1, t2, hs']
    exact springs_SB ..
  · have hs' : exFunc d.func ≠ "SB" := fun e => hs ((exFunc_kinds (kinds hj)).2.2.2 e)
    obtain ⟨g1, g2, -⟩ := pos_ex hj hs
    rw [if_neg hs, if_neg hs', g1, g2]
    rfl

/-! ## Matrices -/

theorem forall₂_sum {α : Type*} {R : α → ((ℕ → ℝ) → ℝ) → Prop} {R' : α → ((ℕ → ℝ) → ℝ) → Prop} {l : List α}
    {es es' : List ((ℕ → ℝ) → ℝ)} (h : List.Forall₂ R l es) (h' : List.Forall₂ R' l es') {v w : ℕ → ℝ}
    (hr : ∀ d ∈ l, ∀ e e', R d e → R' d e' → e' w = e v) :
    (es'.map fun e => e w).sum = (es.map fun e => e v).sum := by
  induction h generalizing es' with
  | nil => cases h'; rfl
  | cons h1 h2 ih =>
    cases h' with
    | cons g1 g2 =>
      simp only [List.map_cons, List.sum_cons]
      rw [hr _ List.mem_cons_self _ _ h1 g1, ih g2 fun d hd => hr d (List.mem_cons_of_mem _ hd)]

/-- No pre-stress, and laminates with symmetric matrices. -/
structure Plain (A : Assy ℝ) (T : ℕ → Shell ℝ) : Prop where
  free : ∀ p < A.count, ¬ C38.PreStress (A.part p).shell
  sym : ∀ p < A.count, ∀ l, (T p).lam = some l → ABDSym l.ABD

/-- The two stiffness matrices: only the joints can differ. -/
theorem stiffness_split (h : Fit E A T) (hx : ExAssy A A' T T')
    (hb : ∀ p < A.count, (A'.part p).shell.rebuild E = .ok (T' p)) (hP : Plain A T)
    (hP' : ∀ p < A.count, ¬ C38.PreStress (A'.part p).shell) :
    ∃ k0 M k0' M' es es', A.multi.calcKC E (some A.conns) none = .ok (k0, M) ∧
      A'.multi.calcKC E (some A'.conns) none = .ok (k0', M') ∧
      List.Forall₂ (C40.Term E (A.after T)) A.conns es ∧
      List.Forall₂ (fun d => C40.Term E (A'.after T') (exConn d)) A.conns es' ∧
      (∀ v, ∃ x, Coo.quad k0 v = x + (es.map fun e => e v).sum ∧
        Coo.quad k0' (fun k => v (num A k)) = x + (es'.map fun e => e fun k => v (num A k)).sum) ∧
      ((∀ p < A.count, M.shells p = (T p).fixR) ∧ M.place = A.multi.place ∧ M.panels = A.multi.panels) ∧
      ((∀ p < A'.count, M'.shells p = (T' p).fixR) ∧ M'.place = A'.multi.place ∧
        M'.panels = A'.multi.panels) := by
  have h' := fit h hx hb
  obtain ⟨own, o1, k0, M, es, c1, t1, w1, s1⟩ := h.kC
  obtain ⟨own', o1', k0', M', es', c1', t1', w1', s1'⟩ := h'.kC
  rw [hx.count] at w1'
  have t2 := t1'
  rw [hx.conns, List.forall₂_map_left_iff] at t2
  refine ⟨k0, M, k0', M', es, es', c1, c1', t1, t2, fun v => ⟨_, w1 v, ?_⟩, s1, s1'⟩
  rw [w1']
  refine congrArg (fun x => x + _) (congrArg List.sum (List.map_congr_left fun p hp => ?_))
  have hp := List.mem_range.1 hp
  obtain ⟨a1, a2⟩ := h.sides p hp
  obtain ⟨b1, b2⟩ := h'.sides p (hx.count.symm ▸ hp)
  have hxp := hx.parts p hp
  obtain ⟨l, l', l1, l2, l3, l4⟩ := hxp.lam
  rw [shell_kC_strain h.exact h.smooth (h.built p hp) a1.ne' a2.ne' (.inl ⟨hxp.flat.1, hxp.plate.1⟩)
    (hP.free p hp) l1 (hP.sym p hp l l1) (o1 p hp)]
  rw [shell_kC_strain h.exact h.smooth (hb p hp) b1.ne' b2.ne' (.inl ⟨hxp.flat.2, hxp.plate.2⟩)
    (hP' p hp) l2 (l3 ▸ flipLam_sym (hP.sym p hp l l1)) (o1' p (hx.count.symm ▸ hp)), l3]
  refine (strainWork_block (P := A'.panel p) _ fun k hk => own_block hx hp v hk).trans ?_
  exact strainWork_flip h.smooth hxp.panel hxp.flat.1 hxp.flat.2 _ _

section
variable (h : Fit E A T) (hx : ExAssy A A' T T')
  (hb : ∀ p < A.count, (A'.part p).shell.rebuild E = .ok (T' p)) (hP : Plain A T)
  (hP' : ∀ p < A.count, ¬ C38.PreStress (A'.part p).shell) (hE : EvenAreas A T)

include h hx hb hP hP' hE

/-- **C92, matrices.**  Missing: joints over an area between laminates that are not equally stiff along the
two axes. -/
theorem matrices_partial : ∃ k0 M k0' M', A.multi.calcKC E (some A.conns) none = .ok (k0, M) ∧
    A'.multi.calcKC E (some A'.conns) none = .ok (k0', M') ∧ Renumbered A k0 k0' ∧
    (∃ kG M1 kG' M1', M.calcKG E none = .ok (kG, M1) ∧ M'.calcKG E none = .ok (kG', M1') ∧
      Renumbered A kG kG') ∧
    ∃ kM M1 kM' M1', M.calcKM E = .ok (kM, M1) ∧ M'.calcKM E = .ok (kM', M1') ∧ Renumbered A kM kM' := by
  have h' := fit h hx hb
  obtain ⟨k0, M, k0', M', es, es', c1, c1', t1, t1', w, ⟨s1, s2, s3⟩, s1', s2', s3'⟩ :=
    stiffness_split h hx hb hP hP'
  obtain ⟨ownG, g1, kG, MG, g2, g3⟩ := h.kG s1 s2 s3
  obtain ⟨ownG', g1', kG', MG', g2', g3'⟩ := h'.kG s1' s2' s3'
  obtain ⟨kM, MM, m2, m3⟩ := h.kM s1 s2 s3
  obtain ⟨kM', MM', m2', m3'⟩ := h'.kM s1' s2' s3'
  rw [hx.count] at g3' m3'
  have side : ∀ p < A.count, (A.part p).shell.pan.a ≠ 0 ∧ (A.part p).shell.pan.b ≠ 0 ∧
      (A'.part p).shell.pan.a ≠ 0 ∧ (A'.part p).shell.pan.b ≠ 0 := fun p hp => by
    obtain ⟨a1, a2⟩ := h.sides p hp
    obtain ⟨b1, b2⟩ := h'.sides p (hx.count.symm ▸ hp)
    exact ⟨a1.ne', a2.ne', b1.ne', b2.ne'⟩
  refine ⟨k0, M, k0', M', c1, c1', renumbered_iff.2 ?_, ⟨kG, MG, kG', MG', g2, g2', renumbered_iff.2 ?_⟩,
    kM, MM, kM', MM', m2, m2', renumbered_iff.2 ?_⟩
  · refine C91.perm_of_quad (Assy.calcKC_sym c1) (Assy.calcKC_sym c1') fun v => ?_
    simp only [numEquiv_apply]
    obtain ⟨x, w1, w1'⟩ := w v
    rw [w1, w1', forall₂_sum t1 t1' fun d hd e e' he he' => term_eq h hx hb hE hd he he' v]
  · refine C91.perm_of_quad (Multi.calcKG_sym g2) (Multi.calcKG_sym g2') fun v => ?_
    simp only [numEquiv_apply]
    rw [g3, g3']
    refine congrArg List.sum (List.map_congr_left fun p hp => ?_)
    have hp := List.mem_range.1 hp
    obtain ⟨a1, a2, b1, b2⟩ := side p hp
    have hxp := hx.parts p hp
    rw [shell_kG_slope h.exact h.smooth (h.built p hp) a1 a2 (g1 p hp),
      shell_kG_slope h.exact h.smooth (hb p hp) b1 b2 (g1' p (hx.count.symm ▸ hp)),
      hxp.nxx, hxp.nyy, hxp.nxy]
    refine (slopeWork_block (P := A'.panel p) _ _ _ fun k hk => own_block hx hp v hk).trans ?_
    exact slopeWork_flip h.smooth hxp.panel _ _ _ _
  · refine C91.perm_of_quad (Multi.calcKM_sym m2) (Multi.calcKM_sym m2') fun v => ?_
    simp only [numEquiv_apply]
    rw [m3, m3']
    refine congrArg List.sum (List.map_congr_left fun p hp => ?_)
    have hp := List.mem_range.1 hp
    have hxp := hx.parts p hp
    rw [hxp.rho, hxp.offset, hxp.thick]
    refine (kineticWork_block (P := A'.panel p) _ _ _ fun k hk => own_block hx hp v hk).trans ?_
    exact kineticWork_flip h.smooth hxp.panel _ _ _ _

end

/-! ## Analyses -/

theorem field_u (S : Shape ℝ) (P : Panel ℝ) (s : ℕ) (c : ℕ → ℝ) (α : ℕ) (x y : ℝ) :
    Spec.field S P s c α x y = u S P s c α x y := by
  rw [u_disp, Spec.field, mul_div_right_comm, mul_div_right_comm]

theorem load_congr {E : Env ℝ} {P : Panel ℝ} (L : Loads ℝ) (inc : ℝ) (s : ℕ) {c d : ℕ → ℝ}
    (h : ∀ α < 3, Spec.field E.S P s c α = Spec.field E.S P s d α) :
    C67.loadWork E P L inc s c = C67.loadWork E P L inc s d := by
  have h0 := h 0 (by omega)
  have h1 := h 1 (by omega)
  have h2 := h 2 (by omega)
  have hp : pointWork (Spec.field E.S P s c) = pointWork (Spec.field E.S P s d) := by
    funext l
    simp only [pointWork, h0, h1, h2]
  have hd : distrWork E.G P (Spec.field E.S P s c) = distrWork E.G P (Spec.field E.S P s d) := by
    funext l
    simp only [distrWork, h0, h1, h2]
  unfold C67.loadWork constWork incWork
  rw [hp, hd]

/-- The unknowns of the exchanged assembly. -/
theorem mem_actives (hx : ExAssy A A' T T') (k : ℕ) :
    k ∈ C78.actives A'.count A'.panel A'.start ↔ numEquiv A k ∈ C78.actives A.count A.panel A.start := by
  rw [numEquiv_apply, hx.count]
  have key : ∀ p < A.count, ∀ k, A.start p ≤ k → k < A.start p + 3 * ((A.panel p).n * (A.panel p).m) →
      (k ∈ C76.actives (A'.panel p) (A'.start p) ↔ num A k ∈ C76.actives (A.panel p) (A.start p)) := by
    intro p hp k h1 h2
    have := C90.mem_actives (hx.parts p hp).panel (A.start p) k
    rw [starts hx hp.le]
    obtain ⟨k, rfl⟩ := Nat.exists_eq_add_of_le h1
    rw [num_block hp (by nlinarith)]
    exact this
  have inb : ∀ p < A.count, ∀ k ∈ C76.actives (A.panel p) (A.start p),
      A.start p ≤ k ∧ k < A.start p + 3 * ((A.panel p).n * (A.panel p).m) := by
    intro p _ k hk
    obtain ⟨α, hα, i, hi, j, hj, -, -, rfl⟩ := (C76.mem_actives _ _ _).1 hk
    have := number_lt (s := A.start p) hi hj hα
    unfold Spec.number at this
    rw [mul_comm (A.panel p).n]
    exact ⟨by omega, this⟩
  have inb' : ∀ p < A.count, ∀ k ∈ C76.actives (A'.panel p) (A'.start p),
      A.start p ≤ k ∧ k < A.start p + 3 * ((A.panel p).n * (A.panel p).m) := by
    intro p hp k hk
    obtain ⟨α, hα, i, hi, j, hj, -, -, rfl⟩ := (C76.mem_actives _ _ _).1 hk
    have := number_lt (s := A'.start p) hi hj hα
    unfold Spec.number at this
    rw [starts hx hp.le] at this ⊢
    have e1 : (A'.panel p).m = (A.panel p).n := (hx.parts p hp).panel.m
    have e2 : (A'.panel p).n = (A.panel p).m := (hx.parts p hp).panel.n
    rw [e1, e2] at this
    rw [e1]
    exact ⟨by omega, this⟩
  simp only [C78.actives, mem_biUnion, mem_range]
  constructor
  · rintro ⟨p, hp, hk⟩
    obtain ⟨b1, b2⟩ := inb' p hp k hk
    exact ⟨p, hp, (key p hp k b1 b2).1 hk⟩
  · rintro ⟨p, hp, hk⟩
    obtain ⟨b1, b2⟩ := inb p hp _ hk
    set k' := num A k with hk'
    have e : k = flipNo (A.panel p).m (A.panel p).n (A.start p) k' := by
      apply (numEquiv A).injective
      rw [numEquiv_apply, numEquiv_apply, ← hk']
      have b3 : A.start p ≤ k' ∧ k' < A.start p + 3 * ((A.panel p).m * (A.panel p).n) := by
        rw [mul_comm (A.panel p).m]; exact ⟨b1, b2⟩
      obtain ⟨c1, c2⟩ := flipNo_in b3
      obtain ⟨j, hj⟩ := Nat.exists_eq_add_of_le c1
      rw [hj, num_block hp (by nlinarith), ← hj, flipNo_flipNo]
    have b3 : A.start p ≤ k' ∧ k' < A.start p + 3 * ((A.panel p).m * (A.panel p).n) := by
      rw [mul_comm (A.panel p).m]; exact ⟨b1, b2⟩
    obtain ⟨c1, c2⟩ := flipNo_in b3
    rw [← e] at c1 c2
    exact ⟨p, hp, (key p hp k c1 (by rw [mul_comm (A.panel p).n]; exact c2)).2 hk⟩

/-- **C92, frequencies.** -/
theorem frequencies (hx : ExAssy A A' T T') {K M K' M' : Coo ℝ} (hK : Renumbered A K K')
    (hM : Renumbered A M M') (μ : ℂ) :
    Eigen (C78.actives A'.count A'.panel A'.start) K' M' μ ↔
      Eigen (C78.actives A.count A.panel A.start) K M μ :=
  eigen_iff (mem_actives hx) (renumbered_iff.1 hK) (renumbered_iff.1 hM) μ

/-- **C92, the list of frequencies**, with multiplicities. -/
theorem frequency_list (hx : ExAssy A A' T T') {K M K' M' : Coo ℝ} (hK : Renumbered A K K')
    (hM : Renumbered A M M') (hs : Sym M) (hs' : Sym M')
    (hp : Pos (C78.actives A.count A.panel A.start) M) {φ lam φ' lam'}
    (h1 : Modes (C78.actives A.count A.panel A.start) K M φ lam)
    (h2 : Modes (C78.actives A'.count A'.panel A'.start) K' M' φ' lam') :
    (C78.actives A'.count A'.panel A'.start).card = (C78.actives A.count A.panel A.start).card ∧
      ∀ a, ∀ ha ha', lam' ⟨a, ha'⟩ = lam ⟨a, ha⟩ :=
  C91.values (mem_actives hx) (renumbered_iff.1 hK) (renumbered_iff.1 hM) hs hs' hp h1 h2

/-- **C92, buckling.** -/
theorem buckling (hx : ExAssy A A' T T') {K G K' G' : Coo ℝ} (hK : Renumbered A K K')
    (hG : Renumbered A G G') (p : ℂ) :
    Critical (C78.actives A'.count A'.panel A'.start) K' G' p ↔
      Critical (C78.actives A.count A.panel A.start) K G p :=
  C91.critical_iff (mem_actives hx) (renumbered_iff.1 hK) (renumbered_iff.1 hG) p

theorem size_eq {A : Assy ℝ} : A.multi.getSize = A.start A.count := by
  unfold Multi.getSize Assy.start C40.start Assy.multi
  rw [List.take_of_length_le (by simp)]
  rfl

theorem block_le {A : Assy ℝ} {p : ℕ} (hp : p < A.count) :
    A.start p + 3 * ((A.panel p).n * (A.panel p).m) ≤ A.start A.count := by
  have mono : ∀ r, p + 1 ≤ r → r ≤ A.count → A.start (p + 1) ≤ A.start r := by
    intro r
    induction r with
    | zero => omega
    | succ r ih =>
      intro h1 h2
      rcases Nat.lt_or_ge p r with h3 | h3
      · rw [Assy_start_succ (by omega : r < A.count)]
        exact (ih h3 (by omega)).trans (Nat.le_add_right _ _)
      · obtain rfl : r = p := by omega
        exact le_rfl
  have h1 := mono _ hp le_rfl
  rw [Assy_start_succ hp] at h1
  have e : 3 * ((A.panel p).n * (A.panel p).m) = 3 * (A.part p).shell.pan.m * (A.part p).shell.pan.n := by
    show 3 * ((A.part p).shell.pan.n * (A.part p).shell.pan.m) = _
    ring
  omega

theorem num_lt {A : Assy ℝ} {k : ℕ} (hk : k < A.start A.count) : num A k < A.start A.count := by
  have key : ∀ c ≤ A.count, swapNo (fun p => (A.panel p).n) (fun p => (A.panel p).m) A.start c k
      < A.start A.count := by
    intro c
    induction c with
    | zero => exact fun _ => hk
    | succ c ih =>
      intro hc
      have ih := ih (by omega)
      rw [swapNo]
      set j := swapNo (fun p => (A.panel p).n) (fun p => (A.panel p).m) A.start c k
      by_cases hj : A.start c ≤ j ∧ j < A.start c + 3 * ((A.panel c).n * (A.panel c).m)
      · have h1 := (flipNo_in hj).2
        exact h1.trans_le (block_le (by omega))
      · rw [flipNo, if_neg hj]
        exact ih
  exact key _ le_rfl

/-- **C92, forces.** -/
theorem forces (h : Fit E A T) (hx : ExAssy A A' T T')
    (hb : ∀ p < A.count, (A'.part p).shell.rebuild E = .ok (T' p))
    (hL : ∀ p < A.count, WellFormed (A.part p).loads) :
    ∃ f M f' M', A.fext E = .ok (f, M) ∧ A'.fext E = .ok (f', M') ∧
      ∀ k < A.multi.getSize, f' k = f (num A k) := by
  obtain ⟨f, M, c1, w1⟩ := C67.fext_work E A.multi (laid_init _ _ _ _ List.nodup_range)
    (fun p => (A.part p).loads) 1 T (fun p hp => h.built p (List.mem_range.1 hp))
    (fun p hp => hL p (List.mem_range.1 hp))
  obtain ⟨f', M', c1', w1'⟩ := C67.fext_work E A'.multi (laid_init _ _ _ _ List.nodup_range)
    (fun p => (A'.part p).loads) 1 T' (fun p hp => hb p (hx.count ▸ List.mem_range.1 hp))
    (fun p hp => by
      have hp' : p < A.count := hx.count ▸ List.mem_range.1 hp
      rw [hx.loads p hp']
      exact C90.flipLoads_wf (hL p hp'))
  refine ⟨f, M, f', M', c1, c1', fun k hk => ?_⟩
  have hsz : A'.multi.getSize = A.multi.getSize := by
    rw [size_eq, size_eq, hx.count, starts hx le_rfl]
  have e : ∀ c : ℕ → ℝ, ∑ l ∈ range A.multi.getSize, f' l * c (num A l)
      = ∑ l ∈ range A.multi.getSize, f l * c l := fun c => by
    have w := w1' fun l => c (num A l)
    rw [hsz] at w
    rw [w, w1 c]
    have n1 : A.multi.panels = List.range A.count := rfl
    have n2 : A'.multi.panels = List.range A.count := by rw [← hx.count]; rfl
    rw [n1, n2, List.length_range]
    refine congrArg List.sum (List.map_congr_left fun p hp => ?_)
    have hp := List.mem_range.1 hp
    have g : (List.range A.count).getD p 0 = p := by simp [List.getD, hp]
    rw [g, hx.loads p hp]
    have d1 : C40.start A'.multi.shells (List.range A.count) p = A.start p := by
      rw [← starts hx hp.le, ← hx.count]; rfl
    have d2 : C40.start A.multi.shells (List.range A.count) p = A.start p := rfl
    rw [d1, d2]
    have key := C90.load_work (E := E) (hx.parts p hp).panel (A.part p).loads 1 (A.start p) c
    refine Eq.trans ?_ key
    have hfield : ∀ α < 3, Spec.field E.S (A'.panel p) (A.start p) (fun l => c (num A l)) α
        = Spec.field E.S (A'.panel p) (A.start p) (flipped (A.panel p).m (A.panel p).n (A.start p) c) α := by
      intro α hα
      have := displacement (S := E.S) hx hp c hα
      rw [starts hx hp.le] at this
      funext x y
      have e1 := congrFun (congrFun this x) y
      have e2 := C90.displacements (S := E.S) (hx.parts p hp).panel (A.start p) c hα y x
      rw [field_u, field_u]
      exact e1.trans e2.symm
    exact load_congr _ _ _ hfield
  have := e (unit (num A k))
  have hk' := num_lt (size_eq ▸ hk)
  rw [← size_eq] at hk'
  have e1 : ∀ (g : ℕ → ℝ) k, k < A.multi.getSize →
      ∑ l ∈ range A.multi.getSize, g l * unit k l = g k := fun g k hk => by
    rw [Finset.sum_eq_single k (fun l _ hl => by rw [unit, if_neg hl, mul_zero])
      (fun h => absurd (mem_range.2 hk) h), unit, if_pos rfl, mul_one]
  have e2 : (fun l => unit (num A k) (num A l)) = (unit k : ℕ → ℝ) := by
    simp only [← numEquiv_apply]
    exact C91.unit_perm _ k
  rw [e1 _ _ hk', show ∑ l ∈ range A.multi.getSize, f' l * unit (num A k) (num A l)
    = ∑ l ∈ range A.multi.getSize, f' l * unit k l from
      Finset.sum_congr rfl fun l _ => by rw [← e2], e1 _ _ hk] at this
  exact this

/-- **C92, static analysis.**  The same displacements at every point of every panel. -/
theorem static (hx : ExAssy A A' T T') {K K' : Coo ℝ} (hK : Renumbered A K K') {f f' : ℕ → ℝ}
    (hf : ∀ k < A.multi.getSize, f' k = f (num A k)) {c : ℕ → ℝ}
    (hc : Balanced (C78.actives A.count A.panel A.start) K f c) :
    ∃ c', Balanced (C78.actives A'.count A'.panel A'.start) K' f' c' ∧
      ∀ p < A.count, ∀ α < 3, ∀ x y, u E.S (A'.panel p) (A'.start p) c' α y x
        = u E.S (A.panel p) (A.start p) c (other α) x y := by
  refine ⟨fun k => c (num A k), ?_, fun p hp α hα x y =>
    congrFun (congrFun (displacement (S := E.S) hx hp c hα) y) x⟩
  have := balanced_to (e := numEquiv A) (f' := f') (mem_actives hx) (renumbered_iff.1 hK)
    (fun k hk => by
      rw [numEquiv_apply]
      refine hf k ?_
      have hk' := (mem_actives hx k).1 hk
      rw [numEquiv_apply] at hk'
      rw [size_eq]
      by_contra hge
      have : num A k = k := by
        have key : ∀ c ≤ A.count, swapNo (fun p => (A.panel p).n) (fun p => (A.panel p).m) A.start c k = k := by
          intro c
          induction c with
          | zero => exact fun _ => rfl
          | succ c ih =>
            intro hc
            rw [swapNo, ih (by omega), flipNo, if_neg]
            have := block_le (A := A) (p := c) (by omega)
            omega
        exact key _ le_rfl
      rw [this] at hk'
      simp only [C78.actives, mem_biUnion, mem_range] at hk'
      obtain ⟨p, hp, hk'⟩ := hk'
      obtain ⟨α, hα, i, hi, j, hj, -, -, rfl⟩ := (C76.mem_actives _ _ _).1 hk'
      have h1 := number_lt (s := A.start p) hi hj hα
      unfold Spec.number at h1
      have h2 := block_le (A := A) hp
      rw [mul_comm (A.panel p).n] at h2
      omega) hc
  simpa only [numEquiv_apply] using this

end

/-! ## What depends on the axes -/

/-- Stiffnesses of the exchanged laminate. -/
def flipPen (p : PenLam ℝ) : PenLam ℝ := ⟨p.A22, p.A11, p.D22, p.D11, p.h, p.b, p.a⟩

/-- **C92 fails for joints over an area**: their stiffness is taken from the direction `x` alone, and only
laminates that are equally stiff along `y` are treated alike. -/
theorem area_iff {p : PenLam ℝ} (hp : C44.Pos p) :
    calcKtKr (flipPen p) (flipPen p) "bot-top" = calcKtKr p p "bot-top" ↔ p.A11 = p.A22 := by
  have lb : lower "bot-top" = "bot-top" := by decide
  have h1 := hp.A11
  have h2 := hp.A22
  have h3 := hp.h
  have hm : 0 < min p.a p.b := lt_min hp.a hp.b
  have e : ∀ A : ℝ, 0 < A → 4 * A * A / ((A + A) * (p.h + p.h)) / min p.a p.b = A / (p.h * min p.a p.b) :=
    fun A hA => by field_simp; ring
  simp only [calcKtKr, lb, flipPen, String.reduceEq, if_false, if_true, Option.some.injEq, Prod.mk.injEq,
    and_true, min_comm p.b p.a]
  rw [e _ h1, e _ h2, div_left_inj' (by positivity)]
  exact eq_comm

/-- **C92 fails for prescribed displacements**: the spring normal to the plate has the stiffness `A11`. -/
theorem point_pd_iff (p : PenLam ℝ) :
    kuvwPoint (flipPen p) = ((kuvwPoint p).2.1, (kuvwPoint p).1, (kuvwPoint p).2.2) ↔ p.A11 = p.A22 := by
  simp only [kuvwPoint, flipPen, Prod.mk.injEq, true_and]
  exact eq_comm

/-- The same along a line. -/
theorem line_pd_iff {p : PenLam ℝ} (hb : p.b ≠ 0) :
    kuvwLineY (flipPen p) = ((kuvwLineX p).2.1, (kuvwLineX p).1, (kuvwLineX p).2.2) ↔ p.A11 = p.A22 := by
  simp only [kuvwLineX, kuvwLineY, flipPen, Prod.mk.injEq, true_and]
  rw [div_left_inj' hb]
  exact eq_comm

section
variable {E : Env ℝ} {A A' : Assy ℝ} {T T' : ℕ → Shell ℝ}

/-- **C92 fails for an assembly with a joint over an area.**  Two plates of the same laminate, stiffer along
one axis: whenever the amplitudes `v` pull the joint apart, the exchanged assembly has another energy, so the
matrices are not the same. -/
theorem area_differs (h : Fit E A T) (hx : ExAssy A A' T T')
    (hb : ∀ p < A.count, (A'.part p).shell.rebuild E = .ok (T' p)) (hP : Plain A T)
    (hP' : ∀ p < A.count, ¬ C38.PreStress (A'.part p).shell) {d : ConnD ℝ} (hd : A.conns = [d])
    (hf : d.func = "SB") {l : LamObj ℝ} (h1 : (T d.p1).lam = some l) (h2 : (T d.p2).lam = some l)
    (hne : l.ABD 0 0 ≠ l.ABD 1 1) {t : Finset ℕ} {v : ℕ → ℝ} (hv : ∀ k ∉ t, v k = 0)
    (hg : ¬ Shut A.panel (thick T) (fun k => u E.S (A.panel k) (A.start k) v) d) :
    ∃ k0 M k0' M', A.multi.calcKC E (some A.conns) none = .ok (k0, M) ∧
      A'.multi.calcKC E (some A'.conns) none = .ok (k0', M') ∧
      Coo.quad k0' (fun k => v (num A k)) ≠ Coo.quad k0 v ∧ ¬ Renumbered A k0 k0' := by
  have h' := fit h hx hb
  obtain ⟨k0, M, k0', M', es, es', c1, c1', t1, t1', w, -⟩ := stiffness_split h hx hb hP hP'
  have key : Coo.quad k0' (fun k => v (num A k)) ≠ Coo.quad k0 v := by
    obtain ⟨x, w1, w1'⟩ := w v
    rw [hd] at t1 t1'
    obtain ⟨e, _, t2, t3, rfl⟩ := List.forall₂_cons_left_iff.1 t1
    obtain ⟨e', _, t2', t3', rfl⟩ := List.forall₂_cons_left_iff.1 t1'
    obtain rfl := List.forall₂_nil_left_iff.1 t3
    obtain rfl := List.forall₂_nil_left_iff.1 t3'
    have hm : d ∈ A.conns := by rw [hd]; exact List.mem_singleton_self d
    have hm' : exConn d ∈ A'.conns := by rw [hx.conns]; exact List.mem_map_of_mem hm
    have hz := (h.conn_zero hm t2 v).2
    obtain ⟨p1, p2, lA, lB, kt, kr, l1, l2, k1, hk, he⟩ := h.joint hm t2
    obtain ⟨-, -, lA', lB', kt', kr', l1', l2', k1', hk', he'⟩ := h'.joint hm' t2'
    have q1 : lo (exConn d) = lo d := rfl
    have q2 : hi (exConn d) = hi d := rfl
    rw [q1, q2] at he' hk'
    rw [q1] at l1'
    rw [q2] at l2'
    have hA : lA = l := by
      have : lo d = d.p1 ∨ lo d = d.p2 := by unfold lo; split <;> simp
      rcases this with e | e <;> rw [e] at l1
      · exact Option.some.inj (l1.symm.trans h1)
      · exact Option.some.inj (l1.symm.trans h2)
    have hB : lB = l := by
      have : hi d = d.p1 ∨ hi d = d.p2 := by unfold hi; split <;> simp
      rcases this with e | e <;> rw [e] at l2
      · exact Option.some.inj (l2.symm.trans h1)
      · exact Option.some.inj (l2.symm.trans h2)
    subst hA
    subst hB
    obtain ⟨mA, mA', m1, m2, m3, m4⟩ := (hx.parts _ p1).lam
    obtain ⟨mB, mB', n1, n2, n3, n4⟩ := (hx.parts _ p2).lam
    obtain rfl := Option.some.inj (m1.symm.trans l1)
    obtain rfl := Option.some.inj (n1.symm.trans l2)
    obtain rfl : mA' = lA' := Option.some.inj (m2.symm.trans l1')
    obtain rfl : mB' = lB' := Option.some.inj (n2.symm.trans l2')
    have hs' : exFunc "SB" = "SB" := by decide
    have hfe : (exConn d).func = "SB" := by
      show exFunc d.func = _
      rw [hf, hs']
    rw [hfe] at hk' he'
    rw [hf] at hk he
    have hkt : kt' ≠ kt := by
      obtain ⟨l0, hl0, hpos⟩ := h.stiff _ p1
      obtain rfl := Option.some.inj (hl0.symm.trans l1)
      have e0 : (T' (lo d)).pan = (A'.part (lo d)).shell.pan := (rebuild_kept E (hb _ p1)).1
      have e1 : (A'.part (lo d)).shell.pan.a = (A.part (lo d)).shell.pan.b := (hx.parts _ p1).panel.a
      have e2 : (A'.part (lo d)).shell.pan.b = (A.part (lo d)).shell.pan.a := (hx.parts _ p1).panel.b
      have e3 := h.pan p1
      have i := area_iff hpos
      intro hkk
      apply hne
      refine i.1 ?_
      have lb : lower "bot-top" = "bot-top" := by decide
      have pk : C40.penKind "SB" = "bot-top" := by decide
      rw [pk] at hk hk'
      simp only [calcKtKr, lb, String.reduceEq, if_false, if_true, Option.some.injEq, Prod.mk.injEq] at hk hk' ⊢
      refine ⟨?_, trivial⟩
      rw [← hkk, ← hk'.1] at hk
      refine Eq.trans ?_ hk.1.symm
      simp only [penOf, flipPen, m3, n3, m4, n4, e0, e1, e2, e3, flipLam, pair]
    obtain ⟨I, sp⟩ : ∃ I, ∀ k, C40.springs E.S (A.panel (lo d)) (A.panel (hi d)) (A.start (lo d))
        (A.start (hi d)) v "SB" k (kr.getD 0) ((thick T (lo d) + thick T (hi d)) / 2) (posHi d) = k * I := by
      refine ⟨C40.springs E.S (A.panel (lo d)) (A.panel (hi d)) (A.start (lo d)) (A.start (hi d)) v "SB" 1
        (kr.getD 0) ((thick T (lo d) + thick T (hi d)) / 2) (posHi d), fun k => ?_⟩
      simp only [C40.springs, areaEnergy, String.reduceEq, if_false, one_mul,
        intervalIntegral.integral_const_mul]
    have fl := springs_flip h.smooth (hx.parts _ p1).panel (hx.parts _ p2).panel
      (a := A.start (lo d)) (b := A.start (hi d)) (v := v) (v' := fun k => v (num A k))
      (fun α hα => starts hx p1.le ▸ displacement (S := E.S) hx p1 v hα)
      (fun α hα => starts hx p2.le ▸ displacement (S := E.S) hx p2 v hα) (f := "SB") (by simp) kt' (kr.getD 0)
      ((thick T (lo d) + thick T (hi d)) / 2) (posHi d)
    have t1 : thick T' (lo d) = thick T (lo d) := (hx.parts _ p1).thick
    have t2 : thick T' (hi d) = thick T (hi d) := (hx.parts _ p2).thick
    have ev' : e' (fun k => v (num A k)) = kt' * I := by
      rw [he', starts hx p1.le, starts hx p2.le, if_pos rfl, t1, t2]
      rw [hs'] at fl
      exact (springs_SB ..).trans (fl.trans (sp kt'))
    have ev : e v = kt * I := by
      rw [he, if_pos rfl]
      exact sp kt
    have hnz : e v ≠ 0 := fun e0 => hg (hz.1 e0)
    rw [w1, w1']
    simp only [List.map_cons, List.map_nil, List.sum_cons, List.sum_nil, add_zero]
    rw [ev']
    rw [ev] at hnz ⊢
    intro e0
    have := add_left_cancel e0
    exact hkt (mul_right_cancel₀ (right_ne_zero_of_mul hnz) this)
  refine ⟨k0, M, k0', M', c1, c1', key, fun hR => key ?_⟩
  have hR' := renumbered_iff.1 hR
  have := C91.quad_perm (e := numEquiv A) (t := t) (t' := t.map (numEquiv A).symm.toEmbedding)
    (fun k => by simp [Equiv.symm_apply_eq]) hR' hv
  simpa only [numEquiv_apply] using this

end

/-! ## Example -/

/-- Twice as stiff along the fibres, which run along `x` or along `y`. -/
noncomputable def fibre (stack : List ℝ) (i : ℕ) : ℝ :=
  if stack = [0] then if i = 0 ∨ i = 3 then 2 else 1 else if i = 1 ∨ i = 4 then 2 else 1

noncomputable def env : Env ℝ :=
  { C89.env with
    mkLam := fun stack plyts _ _ _ =>
      .ok ⟨fun i j => if i = j then plyts.sum * fibre stack i else 0, plyts.sum, 1⟩ }

/-- A panel with fibres along `x`. -/
noncomputable def shell : Shell ℝ := { C40.shell with pan := C89.part, stack := [0], Nxx := 5, Nyy := 7, Nxy := 2 }

/-- The same panel seen from exchanged axes. -/
noncomputable def shell' : Shell ℝ := { shell with pan := C90.across, stack := [90], Nxx := 7, Nyy := 5 }

/-- Two panels joined along a line and at a right angle along another. -/
noncomputable def conns : List (ConnD ℝ) :=
  [{ p1 := 1, p2 := 0, func := "SSxcte", xcte1 := some 0, xcte2 := some 3 },
   { p1 := 0, p2 := 1, func := "BFycte", ycte1 := some 0, ycte2 := some 1 }]

noncomputable def assy (l : List (ConnD ℝ)) : Assy ℝ := ⟨fun _ => ⟨"skin", 0, 0, shell, C89.loads⟩, 2, l⟩

noncomputable def assy' (l : List (ConnD ℝ)) : Assy ℝ :=
  ⟨fun _ => ⟨"skin", 0, 0, shell', flipLoads C89.loads⟩, 2, l.map exConn⟩

theorem fibre_pair (i : ℕ) : fibre [90] i = fibre [0] (pair i) := by
  match i with
  | 0 => norm_num [fibre, pair]
  | 1 => norm_num [fibre, pair]
  | 2 => norm_num [fibre, pair]
  | 3 => norm_num [fibre, pair]
  | 4 => norm_num [fibre, pair]
  | i + 5 =>
    have e : pair (i + 5) = i + 5 := rfl
    rw [e]
    simp [fibre]

theorem built : ∃ t l t' l', shell.rebuild env = .ok t ∧ t.lam = some l ∧ shell'.rebuild env = .ok t' ∧
    t'.lam = some l' ∧ t.model.bind kindOf = some .plate ∧ t'.model.bind kindOf = some .plate ∧
    t'.plyts.sum = t.plyts.sum ∧ l'.ABD = flipLam l.ABD ∧ l'.h = l.h ∧ ABDSym l.ABD ∧
    C44.Pos (penOf t l) ∧ l.ABD 0 0 ≠ l.ABD 1 1 ∧ 0 < t.plyts.sum := by
  refine ⟨_, _, _, _, rfl, rfl, rfl, rfl, rfl, rfl, ?_, ?_, ?_, ?_, ?_, ?_, ?_⟩
  · simp [shell, shell', C40.shell, orFill]
  · funext i j
    have e : (pair i = pair j) = (i = j) :=
      propext ⟨fun h => by rw [← pair_pair i, h, pair_pair], fun h => by rw [h]⟩
    simp [shell, shell', C40.shell, flipLam, lamABD, env, fibre_pair, orFill, e]
  · simp [shell, shell', C40.shell, orFill]
  · constructor <;> simp [lamABD, env, shell, C40.shell]
    intro s t
    by_cases h : s = t
    · subst h; rfl
    · rw [if_neg h, if_neg (Ne.symm h)]
  · constructor <;> simp [penOf, shell, C40.shell, env, orFill, Witness.panel, C89.part, lamABD, fibre]
  · simp [shell, C40.shell, env, orFill, lamABD, fibre]
  · simp [shell, C40.shell, orFill]

/-- All that the theorems ask for, whatever the joints are. -/
theorem ready {l : List (ConnD ℝ)} (hl : l ≠ []) (hj : ∀ d ∈ l, Joinable (List.range 2) d) :
    ∃ t t', Fit env (assy l) (fun _ => t) ∧ ExAssy (assy l) (assy' l) (fun _ => t) (fun _ => t') ∧
      (∀ p < (assy l).count, ((assy' l).part p).shell.rebuild env = .ok t') ∧
      Plain (assy l) (fun _ => t) ∧ (∀ p < (assy l).count, ¬ C38.PreStress ((assy' l).part p).shell) ∧
      (∃ lam, t.lam = some lam ∧ lam.ABD 0 0 ≠ lam.ABD 1 1) ∧ 0 < t.plyts.sum := by
  obtain ⟨t, lam, t', lam', h1, h2, h3, h4, h5, h6, h7, h8, h9, h10, h11, h12, h13⟩ := built
  refine ⟨t, t', ⟨Tab.of_exact _ _, bardellShape_C2, by simp [assy], fun _ _ => ?_, fun _ _ => h1,
    fun _ _ => ⟨lam, h2, h11⟩, fun _ _ => ?_, hl, hj⟩, ⟨rfl, rfl, fun _ _ => ⟨?_, ⟨rfl, rfl⟩, ⟨h5, h6⟩, rfl, rfl,
    rfl, rfl, rfl, h7, lam, lam', h2, h4, h8, h9⟩, fun _ _ => rfl⟩, fun _ _ => h3,
    ⟨fun _ _ => ?_, fun _ _ l hl => ?_⟩, fun _ _ => ?_, ⟨lam, h2, h12⟩, h13⟩
  · simp [assy, shell, C89.part, Witness.panel]
  · simp [assy, shell, C89.part, Witness.panel]
  · exact ⟨C90.part_across.m, C90.part_across.n, C90.part_across.a, C90.part_across.b, C90.part_across.xf,
      C90.part_across.yf, C90.part_across.xdom, C90.part_across.ydom⟩
  · simp [C38.PreStress, assy, shell, C40.shell]
  · obtain rfl : lam = l := Option.some.inj (h2.symm.trans hl)
    exact h10
  · simp [C38.PreStress, assy', shell', shell, C40.shell]

/-- Line joints. -/
example : ∃ k0 M k0' M', (assy conns).multi.calcKC env (some (assy conns).conns) none = .ok (k0, M) ∧
    (assy' conns).multi.calcKC env (some (assy' conns).conns) none = .ok (k0', M') ∧
    (∃ kG M1 kG' M1', M.calcKG env none = .ok (kG, M1) ∧ M'.calcKG env none = .ok (kG', M1') ∧
      ∀ p : ℂ, Critical (C78.actives 2 (assy' conns).panel (assy' conns).start) k0' kG' p ↔
        Critical (C78.actives 2 (assy conns).panel (assy conns).start) k0 kG p) ∧
    (∃ kM M1 kM' M1', M.calcKM env = .ok (kM, M1) ∧ M'.calcKM env = .ok (kM', M1') ∧
      ∀ μ : ℂ, Eigen (C78.actives 2 (assy' conns).panel (assy' conns).start) k0' kM' μ ↔
        Eigen (C78.actives 2 (assy conns).panel (assy conns).start) k0 kM μ) ∧
    ∃ f M f' M', (assy conns).fext env = .ok (f, M) ∧ (assy' conns).fext env = .ok (f', M') ∧
      ∀ c, Balanced (C78.actives 2 (assy conns).panel (assy conns).start) k0 f c →
        ∃ c', Balanced (C78.actives 2 (assy' conns).panel (assy' conns).start) k0' f' c' := by
  obtain ⟨t, t', h, hx, hb, hP, hP', -, -⟩ := ready (l := conns) (by simp [conns])
    (by simp [conns, Joinable])
  obtain ⟨k0, M, k0', M', c1, c2, r, ⟨kG, M1, kG', M1', g1, g2, rG⟩, kM, M2, kM', M2', m1, m2, rM⟩ :=
    matrices_partial h hx hb hP hP' (by
      intro d hd hf
      simp only [assy, conns, List.mem_cons, List.not_mem_nil, or_false] at hd
      rcases hd with rfl | rfl <;> simp at hf)
  obtain ⟨f, N, f', N', e1, e2, e3⟩ := forces h hx hb fun _ _ => C89.loads_wf
  exact ⟨k0, M, k0', M', c1, c2, ⟨kG, M1, kG', M1', g1, g2, buckling hx r rG⟩,
    ⟨kM, M2, kM', M2', m1, m2, frequencies hx r rM⟩, f, N, f', N', e1, e2, fun c hc => by
      obtain ⟨c', h1, -⟩ := static (E := env) hx r e3 hc
      exact ⟨c', h1⟩⟩

/-- A joint over an area. -/
noncomputable def glued : ConnD ℝ := { p1 := 0, p2 := 1, func := "SB" }

/-- The first panel sliding over the second one. -/
theorem slides {t : Shell ℝ} : ¬ Shut (assy [glued]).panel (thick fun _ => t)
    (fun k => u env.S ((assy [glued]).panel k) ((assy [glued]).start k) (unit 72)) glued := by
  intro hs
  have s0 : (assy [glued]).start 0 = 0 := rfl
  have s1 : (assy [glued]).start 1 = 105 := by
    rw [Assy_start_succ (by simp [assy]), s0]
    simp [assy, shell, C89.part, Witness.panel]
  have hS : env.S = bardellShape ℝ := rfl
  have hp : ∀ k, (assy [glued]).panel k = shell.panel := fun _ => rfl
  have hm : shell.panel.m = 5 ∧ shell.panel.n = 7 ∧ shell.panel.a = 3 ∧ shell.panel.b = 1 := by
    simp [shell, Shell.panel, C89.part, Witness.panel]
  obtain ⟨hm, hn, ha, hb⟩ := hm
  generalize assy [glued] = A at *
  simp only [Shut, glued, if_pos Nat.zero_lt_one, Meets, String.reduceEq, if_false, if_true, s0, s1, hp] at hs
  have z1 : ∀ α, u env.S shell.panel 105 (unit 72) α = fun _ _ => 0 := fun α => by
    funext x y
    unfold u
    refine Finset.sum_eq_zero fun i _ => Finset.sum_eq_zero fun j _ => ?_
    rw [unit, if_neg (by omega), zero_mul]
  have z0 : ∀ α, α = 1 ∨ α = 2 → u env.S shell.panel 0 (unit 72) α = fun _ _ => 0 := fun α hα => by
    funext x y
    unfold u
    refine Finset.sum_eq_zero fun i _ => Finset.sum_eq_zero fun j _ => ?_
    rw [unit, if_neg (by omega), zero_mul]
  have key := (kineticWork_zero (S := env.S) bardellShape_C2 (exact_hier 30) (P := shell.panel) (by omega)
    (by omega) (by rw [ha]; norm_num) (by rw [hb]; norm_num) (rho := 1) (h := 1) one_pos one_pos 0 0
    (unit 72)).2.1 ?_ 72 ?_
  · simp [unit] at key
  · simp only [Nat.zero_add]
    unfold kineticWork
    refine (intervalIntegral.integral_congr (g := fun _ => (0 : ℝ)) fun x hx => ?_).trans (by simp)
    refine (intervalIntegral.integral_congr (g := fun _ => (0 : ℝ)) fun y hy => ?_).trans (by simp)
    rw [Set.uIcc_of_le (by rw [ha]; norm_num)] at hx
    rw [Set.uIcc_of_le (by rw [hb]; norm_num)] at hy
    have h0 := (hs x hx y hy).1
    simp only [z1, z0 2 (.inr rfl), dx, deriv_const, mul_zero, add_zero] at h0
    simp only [C20.kinetic, z0 1 (.inl rfl), z0 2 (.inr rfl), h0, dx, dy, deriv_const]
    simp
  · refine ⟨0, by omega, 4, by omega, 4, by omega, ?_, ?_, by omega⟩
    · simp [flag, Panel.xf]
    · simp [flag, Panel.yf]

/-- The two descriptions of the glued panels give different matrices. -/
example : ∃ k0 M k0' M',
    (assy [glued]).multi.calcKC env (some (assy [glued]).conns) none = .ok (k0, M) ∧
    (assy' [glued]).multi.calcKC env (some (assy' [glued]).conns) none = .ok (k0', M') ∧
    ¬ Renumbered (assy [glued]) k0 k0' := by
  obtain ⟨t, t', h, hx, hb, hP, hP', ⟨lam, hl, hne⟩, -⟩ := ready (l := [glued]) (by simp)
    (by simp [glued, Joinable])
  obtain ⟨k0, M, k0', M', c1, c2, -, h4⟩ := area_differs h hx hb hP hP' (d := glued) rfl rfl hl hl hne
    (t := {72}) (v := unit 72) (fun k hk => by rw [unit, if_neg (by simpa using hk)]) slides
  exact ⟨k0, M, k0', M', c1, c2, h4⟩

/-- Constants of a laminate with A11 = 2, A22 = 1. -/
example : calcKtKr (flipPen ⟨2, 1, 2, 1, 1, 3, 1⟩) (flipPen ⟨2, 1, 2, 1, 1, 3, 1⟩) "bot-top"
      ≠ calcKtKr (⟨2, 1, 2, 1, 1, 3, 1⟩ : PenLam ℝ) ⟨2, 1, 2, 1, 1, 3, 1⟩ "bot-top" ∧
    kuvwLineY (flipPen ⟨2, 1, 2, 1, 1, 3, 1⟩) ≠ ((kuvwLineX (⟨2, 1, 2, 1, 1, 3, 1⟩ : PenLam ℝ)).2.1,
      (kuvwLineX (⟨2, 1, 2, 1, 1, 3, 1⟩ : PenLam ℝ)).1, (kuvwLineX (⟨2, 1, 2, 1, 1, 3, 1⟩ : PenLam ℝ)).2.2) := by
  refine ⟨fun h => ?_, fun h => ?_⟩
  · have := (area_iff (by constructor <;> norm_num)).1 h
    norm_num at this
  · have := (line_pd_iff (by norm_num)).1 h
    norm_num at this

end Verif.C92
