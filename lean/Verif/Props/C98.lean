import Verif.Props.C59
import Verif.Props.C95
import Verif.Proofs.Renumber

/-!
# C98: an assembly does not depend on the order of its panels

The panels of an assembly in another order (`Spec/Renumber.lean`): the same matrices and forces with the blocks
exchanged, the same frequencies, buckling loads and displacements, as long as no joint has to tell its two panels
apart (`Keeps`).  Base and flange, or the upper and the lower panel of a stack, are told apart by their numbers
alone: see `flange_turned`, `flange_violated`, `stack_turned` and `stack_violated`.
-/

set_option linter.unusedSectionVars false

namespace Verif.C98

open Finset Spec Model Indep C80

section
variable {E : Env ℝ} {π : ℕ ≃ ℕ} {A A' : Assy ℝ} {T : ℕ → Shell ℝ}

/-! ## The numbers of an assembly -/

/-- Numbers of one panel. -/
noncomputable def len (A : Assy ℝ) (p : ℕ) : ℕ := 3 * (A.panel p).m * (A.panel p).n

/-- A number of the reordered assembly in the given one. -/
noncomputable def num (π : ℕ ≃ ℕ) (A A' : Assy ℝ) (k : ℕ) : ℕ :=
  moveNo (fun p => A'.start (π p)) A.start (len A) A.count k

/-- Entry by entry the same matrix, with the blocks in the other order. -/
def Moved (π : ℕ ≃ ℕ) (A A' : Assy ℝ) (L L' : Coo ℝ) : Prop :=
  ∀ k l, Coo.entry L' k l = Coo.entry L (num π A A' k) (num π A A' l)

theorem start_len {p : ℕ} (hp : p < A.count) : A.start (p + 1) = A.start p + len A p := Assy_start_succ hp

theorem start_mono {p q : ℕ} (h : p ≤ q) (hq : q ≤ A.count) : A.start p ≤ A.start q := by
  induction q with
  | zero =>
    obtain rfl : p = 0 := by omega
    exact le_rfl
  | succ q ih =>
    rcases Nat.lt_or_ge q p with h1 | h1
    · obtain rfl : p = q + 1 := by omega
      exact le_rfl
    · rw [start_len (by omega)]
      exact (ih h1 (by omega)).trans (Nat.le_add_right _ _)

theorem starts_apart (A : Assy ℝ) : Verif.Apart A.start (len A) A.count := fun p hp q hq hne => by
  rw [← start_len hp, ← start_len hq]
  rcases Nat.lt_or_ge p q with h | h
  · exact .inl (start_mono h hq.le)
  · exact .inr (start_mono (by omega) hp.le)

theorem covers (A : Assy ℝ) (k : ℕ) :
    (∃ p < A.count, A.start p ≤ k ∧ k < A.start p + len A p) ↔ k < A.start A.count := by
  have key : ∀ c ≤ A.count, (∃ p < c, A.start p ≤ k ∧ k < A.start p + len A p) ↔ k < A.start c := by
    intro c
    induction c with
    | zero => intro _; simp [Assy.start, C40.start]
    | succ c ih =>
      intro hc
      have ih := ih (by omega)
      rw [start_len (by omega)]
      constructor
      · rintro ⟨p, hp, h1, h2⟩
        rcases Nat.lt_succ_iff_lt_or_eq.1 hp with h | rfl
        · exact (ih.1 ⟨p, h, h1, h2⟩).trans_le (Nat.le_add_right _ _)
        · exact h2
      · intro h
        rcases Nat.lt_or_ge k (A.start c) with h1 | h1
        · obtain ⟨p, hp, h2⟩ := ih.2 h1
          exact ⟨p, by omega, h2⟩
        · exact ⟨c, by omega, h1, h⟩
  exact key _ le_rfl

theorem start_sum (A : Assy ℝ) {c : ℕ} (hc : c ≤ A.count) : A.start c = ∑ p ∈ range c, len A p := by
  induction c with
  | zero => simp [Assy.start, C40.start]
  | succ c ih => rw [start_len (by omega), ih (by omega), Finset.sum_range_succ]

theorem in_block {p k : ℕ} (hk : k ∈ C76.actives (A.panel p) (A.start p)) :
    A.start p ≤ k ∧ k < A.start p + len A p := by
  unfold len
  rw [mul_assoc]
  exact C95.active_block hk

theorem load_move {P : Panel ℝ} (L : Loads ℝ) (inc : ℝ) {s s' : ℕ} {c d : ℕ → ℝ}
    (h : ∀ α < 3, Spec.field E.S P s c α = Spec.field E.S P s' d α) :
    C67.loadWork E P L inc s c = C67.loadWork E P L inc s' d := by
  have h0 := h 0 (by omega)
  have h1 := h 1 (by omega)
  have h2 := h 2 (by omega)
  have hp : pointWork (Spec.field E.S P s c) = pointWork (Spec.field E.S P s' d) := by
    funext l
    simp only [pointWork, h0, h1, h2]
  have hd : distrWork E.G P (Spec.field E.S P s c) = distrWork E.G P (Spec.field E.S P s' d) := by
    funext l
    simp only [distrWork, h0, h1, h2]
  unfold C67.loadWork constWork incWork
  rw [hp, hd]

section
variable (hx : MovedAssy π A A')
include hx

theorem part_eq {p : ℕ} (hp : p < A.count) : A'.panel (π p) = A.panel p := by
  show (A'.part (π p)).shell.panel = (A.part p).shell.panel
  rw [hx.parts p hp]

theorem len_eq {p : ℕ} (hp : p < A.count) : len A' (π p) = len A p := by
  unfold len
  rw [part_eq hx hp]

theorem in_new {p : ℕ} (hp : p < A.count) : π p < A'.count := by
  rw [hx.count]
  exact (hx.inside p).2 hp

theorem total : A'.start A'.count = A.start A.count := by
  rw [start_sum A' le_rfl, start_sum A le_rfl, hx.count, ← sum_moved hx.inside]
  exact Finset.sum_congr rfl fun p hp => len_eq hx (mem_range.1 hp)

theorem new_apart : Verif.Apart (fun p => A'.start (π p)) (len A) A.count := fun p hp q hq hne => by
  have := starts_apart A' _ (in_new hx hp) _ (in_new hx hq) fun h => hne (π.injective h)
  rwa [len_eq hx hp, len_eq hx hq] at this

theorem new_covers (k : ℕ) :
    (∃ p < A.count, A'.start (π p) ≤ k ∧ k < A'.start (π p) + len A p) ↔ k < A.start A.count := by
  rw [← total hx, ← covers A' k]
  constructor
  · rintro ⟨p, hp, h⟩
    exact ⟨π p, in_new hx hp, by rwa [len_eq hx hp]⟩
  · rintro ⟨q, hq, h⟩
    have hp : π.symm q < A.count := (hx.inside _).1 (by rw [π.apply_symm_apply, ← hx.count]; exact hq)
    refine ⟨π.symm q, hp, ?_⟩
    rw [← len_eq hx hp, π.apply_symm_apply]
    exact h

/-- The numbers as a permutation. -/
noncomputable def numEquiv : ℕ ≃ ℕ where
  toFun := num π A A'
  invFun := moveNo A.start (fun p => A'.start (π p)) (len A) A.count
  left_inv := moveNo_moveNo (new_apart hx) (starts_apart A) fun k h =>
    (new_covers hx k).2 ((covers A k).1 h)
  right_inv := moveNo_moveNo (starts_apart A) (new_apart hx) fun k h =>
    (covers A k).2 ((new_covers hx k).1 h)

theorem numEquiv_apply (k : ℕ) : numEquiv hx k = num π A A' k := rfl

/-- Block by block. -/
theorem num_block {p k : ℕ} (hp : p < A.count) (hk : k < len A p) :
    num π A A' (A'.start (π p) + k) = A.start p + k := by
  unfold num
  rw [moveNo_block (new_apart hx) hp ⟨by omega, by omega⟩]
  omega

theorem num_lt {k : ℕ} : num π A A' k < A.start A.count ↔ k < A.start A.count := by
  have hlt : ∀ k, k < A.start A.count → num π A A' k < A.start A.count := fun k hk => by
    obtain ⟨p, hp, h1, h2⟩ := (new_covers hx k).2 hk
    have e := num_block hx hp (k := k - A'.start (π p)) (by omega)
    rw [show A'.start (π p) + (k - A'.start (π p)) = k by omega] at e
    rw [e]
    exact (covers A _).1 ⟨p, hp, by omega, by omega⟩
  refine ⟨fun h => ?_, hlt k⟩
  by_contra hk
  have := moveNo_off (dst := A.start) fun p hp h => hk ((new_covers hx k).1 ⟨p, hp, h⟩)
  exact hk (this ▸ h)

/-- The same displacements. -/
theorem displacement {S : Shape ℝ} {p : ℕ} (hp : p < A.count) (v : ℕ → ℝ) {α : ℕ} (hα : α < 3) :
    u S (A'.panel (π p)) (A'.start (π p)) (fun k => v (num π A A' k)) α = u S (A.panel p) (A.start p) v α := by
  rw [part_eq hx hp]
  refine u_block (fun k hk => ?_) hα
  rw [num_block hx hp hk]

/-! ## The reordered assembly can be analysed when the given one can -/

theorem joinable {d : ConnD ℝ} (h : Joinable (List.range A.count) d) :
    Joinable (List.range A'.count) (movedConn π d) := by
  obtain ⟨m1, m2, hne, hk⟩ := h
  refine ⟨List.mem_range.2 (in_new hx (List.mem_range.1 m1)), List.mem_range.2 (in_new hx (List.mem_range.1 m2)),
    fun h => hne (π.injective h), hk⟩

theorem fit (h : Fit E A T) : Fit E A' fun q => T (π.symm q) := by
  have back : ∀ q < A'.count, ∃ p < A.count, π p = q ∧ A'.part q = A.part p ∧ T (π.symm q) = T p := by
    intro q hq
    have hp : π.symm q < A.count := (hx.inside _).1 (by rw [π.apply_symm_apply, ← hx.count]; exact hq)
    exact ⟨_, hp, π.apply_symm_apply q, by rw [← hx.parts _ hp, π.apply_symm_apply], rfl⟩
  refine ⟨h.exact, h.smooth, hx.count ▸ h.pos, fun q hq => ?_, fun q hq => ?_, fun q hq => ?_, fun q hq => ?_, ?_,
    fun d hd => ?_⟩
  · obtain ⟨p, hp, -, e, -⟩ := back q hq
    rw [e]
    exact h.terms p hp
  · obtain ⟨p, hp, -, e, e'⟩ := back q hq
    rw [e]
    exact e' ▸ h.built p hp
  · obtain ⟨p, hp, -, e, e'⟩ := back q hq
    exact e' ▸ h.stiff p hp
  · obtain ⟨p, hp, -, e, -⟩ := back q hq
    rw [e]
    exact h.sides p hp
  · rw [hx.conns]
    simpa using h.conns
  · rw [hx.conns] at hd
    obtain ⟨d0, h0, rfl⟩ := List.mem_map.1 hd
    exact joinable hx (h.joined d0 h0)

/-! ## One joint -/

/-- What the reordered assembly stores in a joint, in terms of the given one: the springs of the same joint if the
order of its panels is kept, else those with the panels exchanged. -/
theorem joint_energy (h : Fit E A T) {d : ConnD ℝ} (hd : d ∈ A.conns) {e e' : (ℕ → ℝ) → ℝ}
    (ht : C40.Term E (A.after T) d e) (ht' : C40.Term E (A'.after fun q => T (π.symm q)) (movedConn π d) e') :
    ∃ lA lB kt kr kt' kr', (T (lo d)).lam = some lA ∧ (T (hi d)).lam = some lB ∧ 0 < kt ∧
      calcKtKr (penOf (T (lo d)) lA) (penOf (T (hi d)) lB) (C40.penKind d.func) = some (kt, kr) ∧
      calcKtKr (penOf (T (hi d)) lB) (penOf (T (lo d)) lA) (C40.penKind d.func) = some (kt', kr') ∧
      (∀ v, e v = C40.springs E.S (A.panel (lo d)) (A.panel (hi d)) (A.start (lo d)) (A.start (hi d)) v
        d.func kt (kr.getD 0) (if d.func = "SB" then (thick T (lo d) + thick T (hi d)) / 2 else posLo d)
        (posHi d)) ∧
      ((d.p1 < d.p2 ↔ π d.p1 < π d.p2) → ∀ v, e' (fun k => v (num π A A' k)) = e v) ∧
      (¬ (d.p1 < d.p2 ↔ π d.p1 < π d.p2) → ∀ v, e' (fun k => v (num π A A' k))
        = C40.springs E.S (A.panel (hi d)) (A.panel (lo d)) (A.start (hi d)) (A.start (lo d)) v
        d.func kt' (kr'.getD 0) (if d.func = "SB" then (thick T (lo d) + thick T (hi d)) / 2 else posHi d)
        (posLo d)) := by
  have h' := fit hx h
  have hd' : movedConn π d ∈ A'.conns := by
    rw [hx.conns]
    exact List.mem_map_of_mem hd
  obtain ⟨p1, p2, lA, lB, kt, kr, l1, l2, h0, hk, he⟩ := h.joint hd ht
  obtain ⟨-, -, lA', lB', kt', kr', l1', l2', h0', hk', he'⟩ := h'.joint hd' ht'
  have hne : d.p1 ≠ d.p2 := (h.joined d hd).2.2.1
  have hne' : π d.p1 ≠ π d.p2 := fun e => hne (π.injective e)
  have q3 : (movedConn π d).func = d.func := rfl
  have hT : ∀ p, T (π.symm (π p)) = T p := fun p => by rw [π.symm_apply_apply]
  have hth : ∀ p, thick (fun q => T (π.symm q)) (π p) = thick T p := fun p => by
    unfold thick
    simp only [hT]
  by_cases hc : d.p1 < d.p2 ↔ π d.p1 < π d.p2
  · have q1 : lo (movedConn π d) = π (lo d) := by
      unfold lo movedConn
      by_cases hlt : d.p1 < d.p2
      · simp only [if_pos hlt, if_pos (hc.1 hlt)]
      · simp only [if_neg hlt, if_neg (hc.not.1 hlt)]
    have q2 : hi (movedConn π d) = π (hi d) := by
      unfold hi movedConn
      by_cases hlt : d.p1 < d.p2
      · simp only [if_pos hlt, if_pos (hc.1 hlt)]
      · simp only [if_neg hlt, if_neg (hc.not.1 hlt)]
    have q4 : posLo (movedConn π d) = posLo d := by
      unfold posLo movedConn
      by_cases hlt : d.p1 < d.p2
      · simp only [if_pos hlt, if_pos (hc.1 hlt)]
      · simp only [if_neg hlt, if_neg (hc.not.1 hlt)]
    have q5 : posHi (movedConn π d) = posHi d := by
      unfold posHi movedConn
      by_cases hlt : d.p1 < d.p2
      · simp only [if_pos hlt, if_pos (hc.1 hlt)]
      · simp only [if_neg hlt, if_neg (hc.not.1 hlt)]
    rw [q1, hT, l1] at l1'
    rw [q2, hT, l2] at l2'
    cases l1'
    cases l2'
    rw [q1, q2, hT, hT, q3, hk] at hk'
    cases hk'
    obtain ⟨kt2, kr2, hk2⟩ : ∃ a b, calcKtKr (penOf (T (hi d)) lB) (penOf (T (lo d)) lA) (C40.penKind d.func)
        = some (a, b) := by
      rcases C92.kinds (h.joined d hd) with e | e | e | e | e <;> rw [e] <;>
        first
        | exact (pen_xcte _ _).imp fun _ ⟨b, h⟩ => ⟨some b, h⟩
        | exact (pen_ycte _ _).imp fun _ ⟨b, h⟩ => ⟨some b, h⟩
        | exact pen_bot _ _
    refine ⟨lA, lB, kt, kr, kt2, kr2, l1, l2, h0, hk, hk2, he, fun _ v => ?_, fun hn => absurd hc hn⟩
    rw [he, he', q1, q2, q3, q4, q5, hth, hth, part_eq hx p1, part_eq hx p2]
    refine springs_same (fun α hα => ?_) (fun α hα => ?_) _ _ _ _ _
    · rw [← displacement hx p1 v hα, part_eq hx p1]
    · rw [← displacement hx p2 v hα, part_eq hx p2]
  · have hlt' : ∀ {a b : ℕ}, a ≠ b → (¬ a < b ↔ b < a) := by omega
    have q1 : lo (movedConn π d) = π (hi d) := by
      unfold lo hi movedConn
      by_cases hlt : d.p1 < d.p2
      · have : ¬ π d.p1 < π d.p2 := fun h => hc ⟨fun _ => h, fun _ => hlt⟩
        simp only [if_pos hlt, if_neg this]
      · have : π d.p1 < π d.p2 := by
          by_contra h
          exact hc ⟨fun h => absurd h hlt, fun e => absurd e h⟩
        simp only [if_neg hlt, if_pos this]
    have q2 : hi (movedConn π d) = π (lo d) := by
      unfold lo hi movedConn
      by_cases hlt : d.p1 < d.p2
      · have : ¬ π d.p1 < π d.p2 := fun h => hc ⟨fun _ => h, fun _ => hlt⟩
        simp only [if_pos hlt, if_neg this]
      · have : π d.p1 < π d.p2 := by
          by_contra h
          exact hc ⟨fun h => absurd h hlt, fun e => absurd e h⟩
        simp only [if_neg hlt, if_pos this]
    have q4 : posLo (movedConn π d) = posHi d := by
      unfold posLo posHi movedConn
      by_cases hlt : d.p1 < d.p2
      · have : ¬ π d.p1 < π d.p2 := fun h => hc ⟨fun _ => h, fun _ => hlt⟩
        simp only [if_pos hlt, if_neg this]
      · have : π d.p1 < π d.p2 := by
          by_contra h
          exact hc ⟨fun h => absurd h hlt, fun e => absurd e h⟩
        simp only [if_neg hlt, if_pos this]
    have q5 : posHi (movedConn π d) = posLo d := by
      unfold posLo posHi movedConn
      by_cases hlt : d.p1 < d.p2
      · have : ¬ π d.p1 < π d.p2 := fun h => hc ⟨fun _ => h, fun _ => hlt⟩
        simp only [if_pos hlt, if_neg this]
      · have : π d.p1 < π d.p2 := by
          by_contra h
          exact hc ⟨fun h => absurd h hlt, fun e => absurd e h⟩
        simp only [if_neg hlt, if_pos this]
    rw [q1, hT, l2] at l1'
    rw [q2, hT, l1] at l2'
    cases l1'
    cases l2'
    rw [q1, q2, hT, hT, q3] at hk'
    refine ⟨lA, lB, kt, kr, kt', kr', l1, l2, h0, hk, hk', he, fun hn => absurd hn hc, fun _ v => ?_⟩
    rw [he', q1, q2, q3, q4, q5, hth, hth, part_eq hx p1, part_eq hx p2, add_comm (thick T (hi d))]
    refine springs_same (fun α hα => ?_) (fun α hα => ?_) _ _ _ _ _
    · rw [← displacement hx p2 v hα, part_eq hx p2]
    · rw [← displacement hx p1 v hα, part_eq hx p1]

/-- A joint that need not tell its panels apart stores the same energy. -/
theorem term_eq (h : Fit E A T) {d : ConnD ℝ} (hd : d ∈ A.conns)
    (hK : Keeps π (fun p => (A.panel p).a) (fun p => (A.panel p).b) d) {e e' : (ℕ → ℝ) → ℝ}
    (ht : C40.Term E (A.after T) d e) (ht' : C40.Term E (A'.after fun q => T (π.symm q)) (movedConn π d) e')
    (v : ℕ → ℝ) : e' (fun k => v (num π A A' k)) = e v := by
  obtain ⟨lA, lB, kt, kr, kt', kr', -, -, -, hk, hk', he, h1, h2⟩ := joint_energy hx h hd ht ht'
  by_cases hc : d.p1 < d.p2 ↔ π d.p1 < π d.p2
  · exact h1 hc v
  · obtain ⟨m1, m2, -⟩ := h.joined d hd
    have s1 := h.sides _ (List.mem_range.1 m1)
    have s2 := h.sides _ (List.mem_range.1 m2)
    rw [h2 hc v, he v]
    have hf : d.func = "SSxcte" ∧ (A.panel (lo d)).b = (A.panel (hi d)).b ∧ (A.panel (lo d)).b ≠ 0 ∨
        d.func = "SSycte" ∧ (A.panel (lo d)).a = (A.panel (hi d)).a ∧ (A.panel (lo d)).a ≠ 0 := by
      unfold lo hi
      rcases hK with hK | ⟨f, hK⟩ | ⟨f, hK⟩
      · exact absurd hK hc
      · refine .inl ⟨f, ?_, ?_⟩
        · split
          · exact hK
          · exact hK.symm
        · split
          · exact s1.2.ne'
          · exact s2.2.ne'
      · refine .inr ⟨f, ?_, ?_⟩
        · split
          · exact hK
          · exact hK.symm
        · split
          · exact s1.1.ne'
          · exact s2.1.ne'
    have hsame : kt' = kt ∧ kr' = kr ∧ d.func ≠ "SB" := by
      have key : calcKtKr (penOf (T (hi d)) lB) (penOf (T (lo d)) lA) (C40.penKind d.func)
          = calcKtKr (penOf (T (lo d)) lA) (penOf (T (hi d)) lB) (C40.penKind d.func) := by
        rcases hf with ⟨f, -⟩ | ⟨f, -⟩ <;> rw [f]
        · exact (C44.symmetric _ _).1
        · exact (C44.symmetric _ _).2.1
      rw [hk, hk'] at key
      simp only [Option.some.injEq, Prod.mk.injEq] at key
      refine ⟨key.1, key.2, ?_⟩
      rcases hf with ⟨f, -⟩ | ⟨f, -⟩ <;> rw [f] <;> decide
    obtain ⟨rfl, rfl, hsb⟩ := hsame
    simp only [if_neg hsb]
    exact springs_back hf _ _ _ _

/-! ## Matrices -/

theorem moved_iff {L L' : Coo ℝ} : Moved π A A' L L' ↔ C91.Perm (numEquiv hx) L L' := Iff.rfl

/-- The matrices of the two assemblies.  The difference in stiffness is that of the joints. -/
theorem matrices_split (h : Fit E A T) : ∃ k0 M k0' M' es es',
    A.multi.calcKC E (some A.conns) none = .ok (k0, M) ∧ A'.multi.calcKC E (some A'.conns) none = .ok (k0', M') ∧
    List.Forall₂ (C40.Term E (A.after T)) A.conns es ∧
    List.Forall₂ (fun d => C40.Term E (A'.after fun q => T (π.symm q)) (movedConn π d)) A.conns es' ∧
    (∀ v, Coo.quad k0' (fun k => v (num π A A' k)) - (es'.map fun e => e fun k => v (num π A A' k)).sum
      = Coo.quad k0 v - (es.map fun e => e v).sum) ∧
    (∃ kG M1 kG' M1', M.calcKG E none = .ok (kG, M1) ∧ M'.calcKG E none = .ok (kG', M1') ∧
      Moved π A A' kG kG') ∧
    ∃ kM M1 kM' M1', M.calcKM E = .ok (kM, M1) ∧ M'.calcKM E = .ok (kM', M1') ∧ Moved π A A' kM kM' := by
  have h' := fit hx h
  obtain ⟨own, o1, k0, M, es, c1, t1, w1, s1, s2, s3⟩ := h.kC
  obtain ⟨own', o1', k0', M', es', c1', t1', w1', s1', s2', s3'⟩ := h'.kC
  obtain ⟨ownG, g1, kG, MG, g2, g3⟩ := h.kG s1 s2 s3
  obtain ⟨ownG', g1', kG', MG', g2', g3'⟩ := h'.kG s1' s2' s3'
  obtain ⟨kM, MM, m2, m3⟩ := h.kM s1 s2 s3
  obtain ⟨kM', MM', m2', m3'⟩ := h'.kM s1' s2' s3'
  rw [hx.count] at w1' g3' m3'
  rw [hx.conns, List.forall₂_map_left_iff] at t1'
  refine ⟨k0, M, k0', M', es, es', c1, c1', t1, t1', fun v => ?_, ⟨kG, MG, kG', MG', g2, g2', (moved_iff hx).2 ?_⟩,
    kM, MM, kM', MM', m2, m2', (moved_iff hx).2 ?_⟩
  · rw [w1, w1', add_sub_cancel_right, add_sub_cancel_right]
    refine list_moved hx.inside fun p hp => ?_
    have e1 := o1' _ (in_new hx hp)
    rw [hx.parts p hp, o1 p hp] at e1
    simp only [Except.ok.injEq, Prod.mk.injEq] at e1
    rw [← e1.1]
    refine quad_within (calcKC_within (o1 p hp)) fun k hk => ?_
    rw [num_block hx hp hk]
  · refine C91.perm_of_quad (Multi.calcKG_sym g2) (Multi.calcKG_sym g2') fun v => ?_
    simp only [numEquiv_apply]
    rw [g3, g3']
    refine list_moved hx.inside fun p hp => ?_
    have e1 := g1' _ (in_new hx hp)
    rw [hx.parts p hp, g1 p hp] at e1
    simp only [Except.ok.injEq, Prod.mk.injEq] at e1
    rw [← e1.1]
    refine quad_within (calcKG_within (g1 p hp)) fun k hk => ?_
    rw [num_block hx hp hk]
  · refine C91.perm_of_quad (Multi.calcKM_sym m2) (Multi.calcKM_sym m2') fun v => ?_
    simp only [numEquiv_apply]
    rw [m3, m3']
    refine list_moved hx.inside fun p hp => ?_
    rw [hx.parts p hp, π.symm_apply_apply]
    refine kineticWork_block (P := A.panel p) _ _ _ fun k hk => ?_
    rw [num_block hx hp hk]

/-- **C98, matrices.**  Missing from the claim: joints between a base and a flange and between panels laid over each
other whose panels have exchanged their order, see `flange_violated` and `stack_violated`, and skins joined along
edges of different lengths. -/
theorem matrices_partial (h : Fit E A T)
    (hK : ∀ d ∈ A.conns, Keeps π (fun p => (A.panel p).a) (fun p => (A.panel p).b) d) :
    ∃ k0 M k0' M', A.multi.calcKC E (some A.conns) none = .ok (k0, M) ∧
    A'.multi.calcKC E (some A'.conns) none = .ok (k0', M') ∧ Moved π A A' k0 k0' ∧
    (∃ kG M1 kG' M1', M.calcKG E none = .ok (kG, M1) ∧ M'.calcKG E none = .ok (kG', M1') ∧
      Moved π A A' kG kG') ∧
    ∃ kM M1 kM' M1', M.calcKM E = .ok (kM, M1) ∧ M'.calcKM E = .ok (kM', M1') ∧ Moved π A A' kM kM' := by
  obtain ⟨k0, M, k0', M', es, es', c1, c1', t1, t1', w, hG, hM⟩ := matrices_split hx h
  refine ⟨k0, M, k0', M', c1, c1', (moved_iff hx).2 ?_, hG, hM⟩
  refine C91.perm_of_quad (Assy.calcKC_sym c1) (Assy.calcKC_sym c1') fun v => ?_
  simp only [numEquiv_apply]
  have e := C92.forall₂_sum t1 t1' fun d hd e e' he he' => term_eq hx h hd (hK d hd) he he' v
  have := w v
  rw [e] at this
  linarith

/-! ## Analyses -/

/-- The unknowns of the reordered assembly. -/
theorem mem_actives (k : ℕ) :
    k ∈ C78.actives A'.count A'.panel A'.start ↔ num π A A' k ∈ C78.actives A.count A.panel A.start := by
  have key : ∀ p < A.count, ∀ k < len A p,
      (A'.start (π p) + k ∈ C76.actives (A'.panel (π p)) (A'.start (π p)) ↔
        A.start p + k ∈ C76.actives (A.panel p) (A.start p)) := fun p hp k _ => by
    rw [part_eq hx hp, C76.mem_actives, C76.mem_actives]
    simp only [Active, Spec.number, add_assoc, Nat.add_left_cancel_iff]
  simp only [C78.actives, mem_biUnion, mem_range]
  constructor
  · rintro ⟨q, hq, hk⟩
    have hp : π.symm q < A.count := (hx.inside _).1 (by rw [π.apply_symm_apply, ← hx.count]; exact hq)
    obtain ⟨p, rfl⟩ := π.surjective q
    rw [π.symm_apply_apply] at hp
    have hb : A'.start (π p) ≤ k ∧ k < A'.start (π p) + len A p := by
      rw [← len_eq hx hp]
      exact in_block hk
    obtain ⟨r, rfl⟩ := Nat.exists_eq_add_of_le hb.1
    have hr : r < len A p := by omega
    exact ⟨p, hp, by rw [num_block hx hp hr]; exact (key p hp r hr).1 hk⟩
  · rintro ⟨p, hp, hk⟩
    have hb := in_block hk
    obtain ⟨r, hr⟩ := Nat.exists_eq_add_of_le hb.1
    have hlt : r < len A p := by omega
    have e : k = A'.start (π p) + r := by
      apply (numEquiv hx).injective
      rw [numEquiv_apply, numEquiv_apply, num_block hx hp hlt, hr]
    rw [hr] at hk
    exact ⟨π p, in_new hx hp, by rw [e]; exact (key p hp r hlt).2 hk⟩

/-- **C98, frequencies.** -/
theorem frequencies {K M K' M' : Coo ℝ} (hK : Moved π A A' K K') (hM : Moved π A A' M M') (μ : ℂ) :
    Eigen (C78.actives A'.count A'.panel A'.start) K' M' μ ↔
      Eigen (C78.actives A.count A.panel A.start) K M μ :=
  C92.eigen_iff (e := numEquiv hx) (mem_actives hx) hK hM μ

/-- **C98, the list of frequencies**, with multiplicities. -/
theorem frequency_list {K M K' M' : Coo ℝ} (hK : Moved π A A' K K') (hM : Moved π A A' M M') (hs : Sym M)
    (hs' : Sym M') (hp : Pos (C78.actives A.count A.panel A.start) M) {φ lam φ' lam'}
    (h1 : Modes (C78.actives A.count A.panel A.start) K M φ lam)
    (h2 : Modes (C78.actives A'.count A'.panel A'.start) K' M' φ' lam') :
    (C78.actives A'.count A'.panel A'.start).card = (C78.actives A.count A.panel A.start).card ∧
      ∀ a, ∀ ha ha', lam' ⟨a, ha'⟩ = lam ⟨a, ha⟩ :=
  C91.values (e := numEquiv hx) (mem_actives hx) hK hM hs hs' hp h1 h2

/-- **C98, buckling.** -/
theorem buckling {K G K' G' : Coo ℝ} (hK : Moved π A A' K K') (hG : Moved π A A' G G') (p : ℂ) :
    Critical (C78.actives A'.count A'.panel A'.start) K' G' p ↔
      Critical (C78.actives A.count A.panel A.start) K G p :=
  C91.critical_iff (e := numEquiv hx) (mem_actives hx) hK hG p

/-- **C98, forces.** -/
theorem forces (h : Fit E A T) (hL : ∀ p < A.count, WellFormed (A.part p).loads) :
    ∃ f M f' M', A.fext E = .ok (f, M) ∧ A'.fext E = .ok (f', M') ∧
      ∀ k < A.multi.getSize, f' k = f (num π A A' k) := by
  have h' := fit hx h
  obtain ⟨f, M, c1, w1⟩ := C67.fext_work E A.multi (laid_init _ _ _ _ List.nodup_range)
    (fun p => (A.part p).loads) 1 T (fun p hp => h.built p (List.mem_range.1 hp))
    (fun p hp => hL p (List.mem_range.1 hp))
  obtain ⟨f', M', c1', w1'⟩ := C67.fext_work E A'.multi (laid_init _ _ _ _ List.nodup_range)
    (fun p => (A'.part p).loads) 1 (fun q => T (π.symm q)) (fun p hp => h'.built p (List.mem_range.1 hp))
    (fun q hq => by
      have hq := List.mem_range.1 hq
      have hp : π.symm q < A.count := (hx.inside _).1 (by rw [π.apply_symm_apply, ← hx.count]; exact hq)
      have := hx.parts _ hp
      rw [π.apply_symm_apply] at this
      rw [this]
      exact hL _ hp)
  refine ⟨f, M, f', M', c1, c1', fun k hk => ?_⟩
  have hsz : A'.multi.getSize = A.multi.getSize := by
    rw [C92.size_eq, C92.size_eq, total hx]
  have e : ∀ c : ℕ → ℝ, ∑ l ∈ range A.multi.getSize, f' l * c (num π A A' l)
      = ∑ l ∈ range A.multi.getSize, f l * c l := fun c => by
    have w := w1' fun l => c (num π A A' l)
    rw [hsz] at w
    rw [w, w1 c]
    have n1 : A.multi.panels = List.range A.count := rfl
    have n2 : A'.multi.panels = List.range A.count := by rw [← hx.count]; rfl
    rw [n1, n2, List.length_range]
    refine list_moved hx.inside fun p hp => ?_
    have hp' := (hx.inside p).2 hp
    have gp : (List.range A.count).getD p 0 = p := by simp [List.getD, hp]
    have gp' : (List.range A.count).getD (π p) 0 = π p := by simp [List.getD, hp']
    rw [gp, gp', hx.parts p hp]
    have d1 : C40.start A'.multi.shells (List.range A.count) (π p) = A'.start (π p) := by
      rw [← hx.count]; rfl
    have d2 : C40.start A.multi.shells (List.range A.count) p = A.start p := rfl
    rw [d1, d2]
    have hf : ∀ α < 3, Spec.field E.S (A.panel p) (A'.start (π p)) (fun l => c (num π A A' l)) α
        = Spec.field E.S (A.panel p) (A.start p) c α := fun α hα => by
      funext x y
      rw [C92.field_u, C92.field_u, ← displacement hx hp c hα, part_eq hx hp]
    have hP : (A'.multi.shells (π p)).panel = A.panel p := part_eq hx hp
    rw [hP]
    exact load_move _ _ hf
  have hk' := (num_lt hx).2 (C92.size_eq ▸ hk)
  rw [← C92.size_eq] at hk'
  have := e (unit (num π A A' k))
  have e1 : ∀ (g : ℕ → ℝ) k, k < A.multi.getSize →
      ∑ l ∈ range A.multi.getSize, g l * unit k l = g k := fun g k hk => by
    rw [Finset.sum_eq_single k (fun l _ hl => by rw [unit, if_neg hl, mul_zero])
      (fun h => absurd (mem_range.2 hk) h), unit, if_pos rfl, mul_one]
  have e2 : ∀ l, unit (num π A A' k) (num π A A' l) = (unit k l : ℝ) := fun l =>
    congrFun (C91.unit_perm (numEquiv hx) k) l
  simp only [e2] at this
  rwa [e1 _ _ hk, e1 _ _ hk'] at this

/-- **C98, static analysis.**  The same displacements at every point of every panel. -/
theorem static {K K' : Coo ℝ} (hK : Moved π A A' K K') {f f' : ℕ → ℝ}
    (hf : ∀ k < A.multi.getSize, f' k = f (num π A A' k)) {c : ℕ → ℝ}
    (hc : Balanced (C78.actives A.count A.panel A.start) K f c) {S : Shape ℝ} :
    ∃ c', Balanced (C78.actives A'.count A'.panel A'.start) K' f' c' ∧
      ∀ p < A.count, ∀ α < 3, u S (A'.panel (π p)) (A'.start (π p)) c' α = u S (A.panel p) (A.start p) c α := by
  refine ⟨fun k => c (num π A A' k), ?_, fun p hp α hα => displacement hx hp c hα⟩
  refine C92.balanced_to (e := numEquiv hx) (mem_actives hx) hK (fun k hk => hf k ?_) hc
  have hk := (mem_actives hx k).1 hk
  simp only [C78.actives, mem_biUnion, mem_range] at hk
  obtain ⟨p, hp, hk⟩ := hk
  rw [C92.size_eq]
  exact (num_lt hx).1 ((covers A _).1 ⟨p, hp, in_block hk⟩)

/-! ## Joints that tell their panels apart -/

/-- One joint, whose panels have exchanged their order: the stiffness differs by the springs with the roles of
the panels exchanged. -/
theorem exchanged (h : Fit E A T) {d : ConnD ℝ} (hd : A.conns = [d]) (hlt : d.p1 < d.p2) (hπ : π d.p2 < π d.p1) :
    ∃ k0 M k0' M' lA lB kt kr kt' kr', A.multi.calcKC E (some A.conns) none = .ok (k0, M) ∧
      A'.multi.calcKC E (some A'.conns) none = .ok (k0', M') ∧
      (T d.p1).lam = some lA ∧ (T d.p2).lam = some lB ∧ 0 < kt ∧
      calcKtKr (penOf (T d.p1) lA) (penOf (T d.p2) lB) (C40.penKind d.func) = some (kt, kr) ∧
      calcKtKr (penOf (T d.p2) lB) (penOf (T d.p1) lA) (C40.penKind d.func) = some (kt', kr') ∧
      ∀ v, Coo.quad k0' (fun k => v (num π A A' k)) - Coo.quad k0 v
        = C40.springs E.S (A.panel d.p2) (A.panel d.p1) (A.start d.p2) (A.start d.p1) v d.func kt' (kr'.getD 0)
            (if d.func = "SB" then (thick T d.p1 + thick T d.p2) / 2 else posHi d) (posLo d)
          - C40.springs E.S (A.panel d.p1) (A.panel d.p2) (A.start d.p1) (A.start d.p2) v d.func kt (kr.getD 0)
            (if d.func = "SB" then (thick T d.p1 + thick T d.p2) / 2 else posLo d) (posHi d) := by
  obtain ⟨k0, M, k0', M', es, es', c1, c1', t1, t1', w, -⟩ := matrices_split hx h
  rw [hd, List.forall₂_cons_left_iff] at t1 t1'
  obtain ⟨e, l, ht, hl, rfl⟩ := t1
  obtain ⟨e', l', ht', hl', rfl⟩ := t1'
  obtain rfl := List.forall₂_nil_left_iff.1 hl
  obtain rfl := List.forall₂_nil_left_iff.1 hl'
  obtain ⟨lA, lB, kt, kr, kt', kr', l1, l2, h0, hk, hk', he, -, h2⟩ :=
    joint_energy hx h (hd ▸ List.mem_singleton_self d) ht ht'
  have q1 : lo d = d.p1 := if_pos hlt
  have q2 : hi d = d.p2 := if_pos hlt
  rw [q1, q2] at hk hk'
  rw [q1] at l1
  rw [q2] at l2
  refine ⟨k0, M, k0', M', lA, lB, kt, kr, kt', kr', c1, c1', l1, l2, h0, hk, hk', fun v => ?_⟩
  have e1 := he v
  have e2 := h2 (fun hn => absurd (hn.1 hlt) (by omega)) v
  rw [q1, q2] at e1 e2
  rw [← e1, ← e2]
  have := w v
  simp only [List.map_cons, List.map_nil, List.sum_cons, List.sum_nil, add_zero] at this
  linarith

/-- **C98, base and flange.**  When the flange is numbered before its base, it is tied to the base as if it stood
on the other side: the energy of the joint changes by the mixed work of both panels, whatever the dictionary of the
joint says. -/
theorem flange_turned (h : Fit E A T) {d : ConnD ℝ} (hd : A.conns = [d]) (hf : d.func = "BFycte") {z1 z2 : ℝ}
    (h1 : d.ycte1 = some z1) (h2 : d.ycte2 = some z2) (ha : (A.panel d.p1).a = (A.panel d.p2).a)
    (hlt : d.p1 < d.p2) (hπ : π d.p2 < π d.p1) :
    ∃ k0 M k0' M' kt, A.multi.calcKC E (some A.conns) none = .ok (k0, M) ∧
      A'.multi.calcKC E (some A'.conns) none = .ok (k0', M') ∧ 0 < kt ∧
      ∀ v, Coo.quad k0' (fun k => v (num π A A' k)) = Coo.quad k0 v
        + 4 * kt * ∫ x in (0 : ℝ)..(A.panel d.p1).a,
            (u E.S (A.panel d.p1) (A.start d.p1) v 1 x z1 * u E.S (A.panel d.p2) (A.start d.p2) v 2 x z2
              - u E.S (A.panel d.p1) (A.start d.p1) v 2 x z1 * u E.S (A.panel d.p2) (A.start d.p2) v 1 x z2) := by
  obtain ⟨k0, M, k0', M', lA, lB, kt, kr, kt', kr', c1, c1', -, -, h0, hk, hk', w⟩ := exchanged hx h hd hlt hπ
  have key : calcKtKr (penOf (T d.p2) lB) (penOf (T d.p1) lA) (C40.penKind d.func)
      = calcKtKr (penOf (T d.p1) lA) (penOf (T d.p2) lB) (C40.penKind d.func) := by
    rw [hf]
    exact (C44.symmetric _ _).2.1
  rw [hk, hk'] at key
  simp only [Option.some.injEq, Prod.mk.injEq] at key
  obtain ⟨rfl, rfl⟩ := key
  have s1 := (h.sides _ (List.mem_range.1 (h.joined d (hd ▸ List.mem_singleton_self d)).1)).1
  refine ⟨k0, M, k0', M', kt', c1, c1', h0, fun v => ?_⟩
  have e := w v
  have q1 : posLo d = z1 := by simp [posLo, hlt, hf, jointPos, h1]
  have q2 : posHi d = z2 := by simp [posHi, hlt, hf, jointPos, h2]
  rw [hf, if_neg (by decide), if_neg (by decide), q1, q2, springs_flange h.smooth ha s1.ne'] at e
  linarith

/-- **C98, panels laid over each other.**  Two equal panels: the one with the smaller number is the one whose lower
face is tied.  When they exchange their order, a deflection of the first panel alone meets less resistance. -/
theorem stack_turned (h : Fit E A T) {d : ConnD ℝ} (hd : A.conns = [d]) (hf : d.func = "SB")
    (he : A.part d.p1 = A.part d.p2) (hlt : d.p1 < d.p2) (hπ : π d.p2 < π d.p1) :
    ∃ k0 M k0' M' kt, A.multi.calcKC E (some A.conns) none = .ok (k0, M) ∧
      A'.multi.calcKC E (some A'.conns) none = .ok (k0', M') ∧ 0 < kt ∧
      ∀ v, (∀ α < 3, u E.S (A.panel d.p2) (A.start d.p2) v α = fun _ _ => 0) →
        (∀ α < 2, u E.S (A.panel d.p1) (A.start d.p1) v α = fun _ _ => 0) →
        Coo.quad k0' (fun k => v (num π A A' k)) = Coo.quad k0 v
          - kt * thick T d.p1 ^ 2 * ∫ x in (0 : ℝ)..(A.panel d.p1).a, ∫ y in (0 : ℝ)..(A.panel d.p1).b,
            (dx (u E.S (A.panel d.p1) (A.start d.p1) v 2) x y ^ 2
              + dy (u E.S (A.panel d.p1) (A.start d.p1) v 2) x y ^ 2) := by
  obtain ⟨k0, M, k0', M', lA, lB, kt, kr, kt', kr', c1, c1', l1, l2, h0, hk, hk', w⟩ := exchanged hx h hd hlt hπ
  obtain ⟨m1, m2, -⟩ := h.joined d (hd ▸ List.mem_singleton_self d)
  have m1 := List.mem_range.1 m1
  have m2 := List.mem_range.1 m2
  have hT : T d.p2 = T d.p1 := by
    have := h.built _ m2
    rw [← he, h.built _ m1] at this
    exact (Except.ok.inj this).symm
  have hP : A.panel d.p2 = A.panel d.p1 := by
    show (A.part d.p2).shell.panel = (A.part d.p1).shell.panel
    rw [he]
  rw [hT, l1] at l2
  cases l2
  rw [hT] at hk hk'
  rw [hk] at hk'
  cases hk'
  have s1 : (A.panel d.p1).a ≠ 0 := (h.sides _ m1).1.ne'
  have s2 : (A.panel d.p1).b ≠ 0 := (h.sides _ m1).2.ne'
  refine ⟨k0, M, k0', M', kt, c1, c1', h0, fun v hb hu => ?_⟩
  have e := w v
  have ht : (thick T d.p1 + thick T d.p2) / 2 = thick T d.p1 := by
    have : thick T d.p2 = thick T d.p1 := by
      unfold thick
      rw [hT]
    rw [this]
    ring
  rw [hf, if_pos rfl, if_pos rfl, ht, springs_SB _ _ _ _ _ _ kt _ (kr.getD 0) _ (posLo d) 0,
    springs_SB _ _ _ _ _ _ kt _ (kr.getD 0) _ (posHi d) 0,
    springs_stack h.smooth hb (by rw [hP]) (by rw [hP]) s1 s2 hu] at e
  linarith

theorem quad_moved {L L' : Coo ℝ} (hL : Moved π A A' L L') {v : ℕ → ℝ} (hv : ∀ k, A.start A.count ≤ k → v k = 0) :
    Coo.quad L' (fun k => v (num π A A' k)) = Coo.quad L v :=
  C91.quad_perm (e := numEquiv hx) (t := range (A.start A.count)) (t' := range (A.start A.count))
    (fun k => by rw [mem_range, mem_range]; exact (num_lt hx).symm) hL fun k hk =>
      hv k (Nat.le_of_not_lt fun h => hk (mem_range.2 h))

end

end

/-! ## Example -/

/-- The third panel of the assembly of `C95` comes first, then the skin and the flange. -/
def order : ℕ ≃ ℕ := Equiv.swap 0 1 * Equiv.swap 1 2

/-- Two skins beside each other and a flange. -/
noncomputable def assy : Assy ℝ := { C95.assy with conns := C95.conns.take 2 }

noncomputable def assy' : Assy ℝ :=
  ⟨fun p => ⟨"panel", 0, 0, if p = 2 then C95.flange else C95.skin, C89.loads⟩, 3,
   [{ p1 := 1, p2 := 2, func := "BFycte", ycte1 := some (1 / 4), ycte2 := some 0 },
    { p1 := 0, p2 := 1, func := "SSxcte", xcte1 := some 0, xcte2 := some 3 }]⟩

theorem order_zero : order 0 = 1 := by decide
theorem order_one : order 1 = 2 := by decide
theorem order_two : order 2 = 0 := by decide

theorem order_inside (p : ℕ) : order p < 3 ↔ p < 3 := by
  simp only [order, Equiv.Perm.coe_mul, Function.comp_apply, Equiv.swap_apply_def]
  split_ifs <;> omega

theorem moved : MovedAssy order assy assy' where
  count := rfl
  inside := order_inside
  parts p hp := by
    change p < 3 at hp
    interval_cases p
    · rw [order_zero]; simp [assy, assy', C95.assy]
    · rw [order_one]; simp [assy, assy', C95.assy]
    · rw [order_two]; simp [assy, assy', C95.assy]
  conns := by simp [assy, assy', C95.conns, movedConn, order_zero, order_one, order_two]

theorem keeps : ∀ d ∈ assy.conns, Keeps order (fun p => (assy.panel p).a) (fun p => (assy.panel p).b) d := by
  simp only [assy, C95.conns, List.take, List.mem_cons, List.not_mem_nil, or_false, forall_eq_or_imp, forall_eq]
  refine ⟨.inl ?_, .inr (.inl ⟨rfl, rfl⟩)⟩
  simp [order_zero, order_one]

example : ∃ k0 M k0' M', assy.multi.calcKC C95.env (some assy.conns) none = .ok (k0, M) ∧
    assy'.multi.calcKC C95.env (some assy'.conns) none = .ok (k0', M') ∧
    (∃ kG M1 kG' M1', M.calcKG C95.env none = .ok (kG, M1) ∧ M'.calcKG C95.env none = .ok (kG', M1') ∧
      ∀ p : ℂ, Critical (C78.actives 3 assy'.panel assy'.start) k0' kG' p ↔
        Critical (C78.actives 3 assy.panel assy.start) k0 kG p) ∧
    (∃ kM M1 kM' M1', M.calcKM C95.env = .ok (kM, M1) ∧ M'.calcKM C95.env = .ok (kM', M1') ∧
      ∀ μ : ℂ, Eigen (C78.actives 3 assy'.panel assy'.start) k0' kM' μ ↔
        Eigen (C78.actives 3 assy.panel assy.start) k0 kM μ) ∧
    ∃ f M f' M', assy.fext C95.env = .ok (f, M) ∧ assy'.fext C95.env = .ok (f', M') ∧
      ∀ c, Balanced (C78.actives 3 assy.panel assy.start) k0 f c →
        ∃ c', Balanced (C78.actives 3 assy'.panel assy'.start) k0' f' c' ∧
          u C95.env.S (assy'.panel 0) (assy'.start 0) c' 2 = u C95.env.S (assy.panel 2) (assy.start 2) c 2 := by
  obtain ⟨T, T', h0, -⟩ := C95.ready
  have h : Fit C95.env assy T := ⟨h0.exact, h0.smooth, h0.pos, h0.terms, h0.built, h0.stiff, h0.sides,
    by simp [assy, C95.conns], fun d hd => h0.joined d (List.mem_of_mem_take hd)⟩
  obtain ⟨k0, M, k0', M', c1, c2, r, ⟨kG, M1, kG', M1', g1, g2, rG⟩, kM, M2, kM', M2', m1, m2, rM⟩ :=
    matrices_partial moved h keeps
  obtain ⟨f, N, f', N', e1, e2, e3⟩ := forces moved h fun _ _ => C89.loads_wf
  refine ⟨k0, M, k0', M', c1, c2, ⟨kG, M1, kG', M1', g1, g2, buckling moved r rG⟩,
    ⟨kM, M2, kM', M2', m1, m2, frequencies moved r rM⟩, f, N, f', N', e1, e2, fun c hc => ?_⟩
  obtain ⟨c', h1, h2⟩ := static moved r e3 hc (S := C95.env.S)
  refine ⟨c', h1, ?_⟩
  have := h2 2 (by simp [assy, C95.assy]) 2 (by omega)
  rwa [order_two] at this

/-! ## Violations -/

/-- A panel with one term, free along all edges. -/
noncomputable def tile : Shell ℝ :=
  { C95.skin with
    pan := { Witness.panel with
      m := 1, n := 1, xu := ⟨1, 1, 1, 1⟩, xv := ⟨1, 1, 1, 1⟩, xw := ⟨1, 1, 1, 1⟩, yu := ⟨1, 1, 1, 1⟩,
      yv := ⟨1, 1, 1, 1⟩, yw := ⟨1, 1, 1, 1⟩ } }

/-- Two of them and one joint. -/
noncomputable def pair (d : ConnD ℝ) : Assy ℝ := ⟨fun _ => ⟨"panel", 0, 0, tile, C89.loads⟩, 2, [d]⟩

theorem pair_fit {d : ConnD ℝ} (hd : Joinable (List.range 2) d) : ∃ T, Fit C95.env (pair d) T ∧ 0 < thick T d.p1 := by
  refine ⟨fun _ => _, ⟨Tab.of_exact _ _, bardellShape_C2, by simp [pair], fun p _ => ?_, fun p _ => rfl,
    fun p _ => ⟨_, rfl, ?_⟩, fun p _ => ?_, by simp [pair], by simpa [pair] using hd⟩, ?_⟩
  · simp [pair, tile]
  · constructor <;> simp [penOf, pair, tile, C95.skin, C40.shell, C95.env, orFill, lamABD, C95.coupled, C13.lam, Witness.panel]
  · simp [pair, tile, C95.skin, Witness.panel]
  · simp [thick, pair, tile, C95.skin, C40.shell, orFill]

/-- The two panels exchanged. -/
def turn : ℕ ≃ ℕ := Equiv.swap 0 1

theorem turn_inside (p : ℕ) : turn p < 2 ↔ p < 2 := by
  simp only [turn, Equiv.swap_apply_def]
  split_ifs <;> omega

theorem pair_moved (d : ConnD ℝ) : MovedAssy turn (pair d) (pair (movedConn turn d)) where
  count := rfl
  inside := turn_inside
  parts _ _ := rfl
  conns := rfl

theorem pair_start (d : ConnD ℝ) : (pair d).start 0 = 0 ∧ (pair d).start 1 = 3 ∧ (pair d).start (pair d).count = 6 := by
  have e1 : (pair d).start 1 = 3 := by
    rw [Assy_start_succ (A := pair d) (k := 0) (by simp [pair])]
    simp [Assy.start, C40.start, pair, tile]
  refine ⟨by simp [Assy.start, C40.start], e1, ?_⟩
  rw [show (pair d).count = 1 + 1 from rfl, Assy_start_succ (A := pair d) (k := 1) (by simp [pair]), e1]
  simp [pair, tile]

/-- The only shape function, and its slope. -/
noncomputable def g (x : ℝ) : ℝ := (2 - 3 * x + x ^ 3) / 4

theorem g_pos {x : ℝ} (h : x ∈ Set.Ioo (-1 : ℝ) 1) : 0 < g x := by
  have : g x = (1 - x) ^ 2 * (2 + x) / 4 := by unfold g; ring
  rw [this]
  have h1 : 0 < 1 - x := by linarith [h.2]
  have h2 : 0 < 2 + x := by linarith [h.1]
  positivity

theorem g_continuous : Continuous g := by unfold g; fun_prop

theorem tile_u (d : ConnD ℝ) (p s : ℕ) (v : ℕ → ℝ) {α : ℕ} (hα : α < 3) (x y : ℝ) :
    u C95.env.S ((pair d).panel p) s v α x y = v (s + α) * (g (2 / 3 * x - 1) * g (2 * y - 1)) := by
  interval_cases α <;>
    simp [u, pair, Assy.panel, Shell.panel, tile, Witness.panel, C95.env, C89.env, C40.env, C59.f0, Panel.xf, Panel.yf, g]

/-- A flange joined to its base. -/
noncomputable def foot : ConnD ℝ := { p1 := 0, p2 := 1, func := "BFycte", ycte1 := some (1 / 2), ycte2 := some 0 }

/-- Two panels laid over each other. -/
noncomputable def stack : ConnD ℝ := { p1 := 0, p2 := 1, func := "SB" }

theorem inner {x : ℝ} (h : x ∈ Set.Ioo (0 : ℝ) 3) : 2 / 3 * x - 1 ∈ Set.Ioo (-1 : ℝ) 1 :=
  ⟨by linarith [h.1], by linarith [h.2]⟩

/-- **C98, the claim fails for base and flange.** -/
theorem flange_violated : ∃ T k0 M k0' M', Fit C95.env (pair foot) T ∧
    MovedAssy turn (pair foot) (pair (movedConn turn foot)) ∧
    (pair foot).multi.calcKC C95.env (some (pair foot).conns) none = .ok (k0, M) ∧
    (pair (movedConn turn foot)).multi.calcKC C95.env (some (pair (movedConn turn foot)).conns) none
      = .ok (k0', M') ∧
    ¬ Moved turn (pair foot) (pair (movedConn turn foot)) k0 k0' := by
  obtain ⟨T, h, -⟩ := pair_fit (d := foot) (by simp [foot, Joinable])
  have hx := pair_moved foot
  obtain ⟨k0, M, k0', M', kt, c1, c2, h0, w⟩ := flange_turned hx h (d := foot) rfl rfl (z1 := 1 / 2) (z2 := 0) rfl rfl rfl
    (by simp [foot]) (by simp [foot, turn])
  refine ⟨T, k0, M, k0', M', h, hx, c1, c2, fun hm => ?_⟩
  obtain ⟨s0, s1, s2⟩ := pair_start foot
  have e := w fun k => if k = 1 ∨ k = 5 then 1 else 0
  have hq := quad_moved hx hm (v := fun k => if k = 1 ∨ k = 5 then 1 else 0) fun k hk => by
    rw [s2] at hk
    rw [if_neg (by omega)]
  rw [hq] at e
  have hI : (0 : ℝ) < ∫ x in (0 : ℝ)..3, g (2 / 3 * x - 1) ^ 2 / 2 := by
    refine intervalIntegral.intervalIntegral_pos_of_pos_on ?_ (fun x hx => ?_) (by norm_num)
    · exact Continuous.intervalIntegrable (by have := g_continuous; fun_prop) _ _
    · have := g_pos (inner hx)
      positivity
  have e1 : foot.p1 = 0 := rfl
  have e2 : foot.p2 = 1 := rfl
  rw [e1, e2, s0, s1] at e
  simp only [tile_u foot _ _ _ (show 1 < 3 by norm_num), tile_u foot _ _ _ (show 2 < 3 by norm_num)] at e
  have e3 : ((pair foot).panel 0).a = 3 := rfl
  have g0 : g (2 * (1 / 2) - 1) = 1 / 2 := by norm_num [g]
  have g1 : g (2 * 0 - 1) = 1 := by norm_num [g]
  rw [e3, g0, g1] at e
  have e4 : (fun x : ℝ => g (2 / 3 * x - 1) ^ 2 / 2) = fun x => g (2 / 3 * x - 1) * (1 / 2) * g (2 / 3 * x - 1) := by
    funext x
    ring
  rw [e4] at hI
  norm_num at e hI
  rcases e with e | e
  · exact h0.ne' e
  · linarith

/-- **C98, the claim fails for panels laid over each other.** -/
theorem stack_violated : ∃ T k0 M k0' M', Fit C95.env (pair stack) T ∧
    MovedAssy turn (pair stack) (pair (movedConn turn stack)) ∧
    (pair stack).multi.calcKC C95.env (some (pair stack).conns) none = .ok (k0, M) ∧
    (pair (movedConn turn stack)).multi.calcKC C95.env (some (pair (movedConn turn stack)).conns) none
      = .ok (k0', M') ∧
    ¬ Moved turn (pair stack) (pair (movedConn turn stack)) k0 k0' := by
  obtain ⟨T, h, ht⟩ := pair_fit (d := stack) (by simp [stack, Joinable])
  have hx := pair_moved stack
  obtain ⟨k0, M, k0', M', kt, c1, c2, h0, w⟩ := stack_turned hx h (d := stack) rfl rfl rfl
    (by simp [stack]) (by simp [stack, turn])
  refine ⟨T, k0, M, k0', M', h, hx, c1, c2, fun hm => ?_⟩
  obtain ⟨s0, s1, s2⟩ := pair_start stack
  have e0 : stack.p1 = 0 := rfl
  have e1 : stack.p2 = 1 := rfl
  rw [e0] at ht
  rw [e0, e1, s0, s1] at w
  have e := w (unit 2) (fun α hα => by
      funext x y
      rw [tile_u stack _ _ _ hα, unit, if_neg (by omega), zero_mul]) fun α hα => by
      funext x y
      rw [tile_u stack _ _ _ (by omega), unit, if_neg (by omega), zero_mul]
  rw [quad_moved hx hm fun k hk => by rw [s2] at hk; rw [unit, if_neg (by omega)]] at e
  have hu : u C95.env.S ((pair stack).panel 0) 0 (unit 2) 2 = fun x y => g (2 / 3 * x - 1) * g (2 * y - 1) := by
    funext x y
    rw [tile_u stack _ _ _ (by omega)]
    simp [unit]
  have hdx : ∀ x y, dx (u C95.env.S ((pair stack).panel 0) 0 (unit 2) 2) x y
      = 2 / 3 * ((-3 + 3 * (2 / 3 * x - 1) ^ 2) / 4) * g (2 * y - 1) := fun x y => by
    rw [hu]
    unfold dx
    rw [deriv_mul_const_field]
    congr 1
    have : HasDerivAt (fun t : ℝ => g (2 / 3 * t - 1)) (2 / 3 * ((-3 + 3 * (2 / 3 * x - 1) ^ 2) / 4)) x := by
      unfold g
      have h1 : HasDerivAt (fun t : ℝ => 2 / 3 * t - 1) (2 / 3) x := by
        simpa using ((hasDerivAt_id x).const_mul (2 / 3)).sub_const 1
      have := (((h1.const_mul 3).const_sub 2).add (h1.pow 3)).div_const 4
      refine this.congr_deriv ?_
      norm_num
      ring
    exact this.deriv
  have hc : Continuous fun q : ℝ × ℝ => dx (u C95.env.S ((pair stack).panel 0) 0 (unit 2) 2) q.1 q.2 ^ 2
      + dy (u C95.env.S ((pair stack).panel 0) 0 (unit 2) 2) q.1 q.2 ^ 2 :=
    ((dx_continuous h.smooth _ _ _ _).pow 2).add ((dy_continuous h.smooth _ _ _ _).pow 2)
  have hI : (0 : ℝ) < ∫ x in (0 : ℝ)..((pair stack).panel 0).a, ∫ y in (0 : ℝ)..((pair stack).panel 0).b,
      (dx (u C95.env.S ((pair stack).panel 0) 0 (unit 2) 2) x y ^ 2
        + dy (u C95.env.S ((pair stack).panel 0) 0 (unit 2) 2) x y ^ 2) := by
    have a3 : ((pair stack).panel 0).a = 3 := rfl
    have b1 : ((pair stack).panel 0).b = 1 := rfl
    rw [a3, b1]
    refine intervalIntegral.intervalIntegral_pos_of_pos_on ?_ (fun x hx => ?_) (by norm_num)
    · exact (intervalIntegral.continuous_parametric_intervalIntegral_of_continuous' hc 0 1).intervalIntegrable _ _
    · refine intervalIntegral.intervalIntegral_pos_of_pos_on ?_ (fun y hy => ?_) (by norm_num)
      · exact (hc.comp (by fun_prop : Continuous fun y : ℝ => (x, y))).intervalIntegrable _ _
      · have h1 : dx (u C95.env.S ((pair stack).panel 0) 0 (unit 2) 2) x y ≠ 0 := by
          rw [hdx]
          have hg := (g_pos (x := 2 * y - 1) ⟨by linarith [hy.1], by linarith [hy.2]⟩).ne'
          have hs : (-3 + 3 * (2 / 3 * x - 1) ^ 2) / 4 ≠ 0 := by
            have := inner hx
            have : (2 / 3 * x - 1) ^ 2 < 1 := by
              rw [sq_lt_one_iff_abs_lt_one, abs_lt]
              exact this
            intro h0
            linarith
          exact mul_ne_zero (mul_ne_zero (by norm_num) hs) hg
        have := sq_nonneg (dy (u C95.env.S ((pair stack).panel 0) 0 (unit 2) 2) x y)
        positivity
  have := mul_pos (mul_pos h0 (pow_pos ht 2)) hI
  linarith

end Verif.C98
