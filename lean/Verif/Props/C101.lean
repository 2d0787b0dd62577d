import Verif.Proofs.MovedBay
import Verif.Props.C100

/-!
# C101: a bay does not depend on the order of its stiffeners

The stiffeners of a bay in another order (`Spec/MovedBay.lean`): the same matrices with the blocks of the flanges
exchanged, the same frequencies, buckling loads and displacements.
-/

set_option linter.unusedSectionVars false

namespace Verif.C101

open Finset Spec Model Indep C80 C81

variable {E : BayEnv ℝ} {σ : ℕ ≃ ℕ} {B B' R R' : Bay ℝ} {N : ℕ}

/-! ## The numbers of a bay -/

/-- Numbers of one flange. -/
noncomputable def len (R : Bay ℝ) (i : ℕ) : ℕ := ((R.blade2[i]?).map C52.width).getD 0

/-- A number of the reordered bay in the given one.  Those of the skin stay. -/
noncomputable def num (σ : ℕ ≃ ℕ) (R R' : Bay ℝ) (k : ℕ) : ℕ :=
  moveNo (fun i => C52.start R' (σ i)) (C52.start R) (len R) R.blade2.length k

/-- Entry by entry the same matrix, with the blocks in the other order. -/
def Moved (σ : ℕ ≃ ℕ) (R R' : Bay ℝ) (L L' : Coo ℝ) : Prop :=
  ∀ k l, Coo.entry L' k l = Coo.entry L (num σ R R' k) (num σ R R' l)

theorem len_some {i : ℕ} {s : Blade2 ℝ} (hi : R.blade2[i]? = some s) : len R i = C52.width s := by
  unfold len
  rw [hi]
  rfl

theorem start_len {i : ℕ} (hi : i < R.blade2.length) : C52.start R (i + 1) = C52.start R i + len R i := by
  have h := List.getElem?_eq_getElem hi
  rw [C52.start_succ R h, len_some h]

theorem starts_apart (R : Bay ℝ) : Verif.Apart (C52.start R) (len R) R.blade2.length := fun p hp q hq hne => by
  rw [← start_len hp, ← start_len hq]
  rcases Nat.lt_or_ge p q with h | h
  · exact .inl (C52.start_mono R h)
  · exact .inr (C52.start_mono R (by omega))

theorem covers (R : Bay ℝ) (k : ℕ) :
    (∃ i < R.blade2.length, C52.start R i ≤ k ∧ k < C52.start R i + len R i) ↔
      3 * R.skin.m * R.skin.n ≤ k ∧ k < C52.start R R.blade2.length := by
  have key : ∀ c ≤ R.blade2.length, (∃ i < c, C52.start R i ≤ k ∧ k < C52.start R i + len R i) ↔
      3 * R.skin.m * R.skin.n ≤ k ∧ k < C52.start R c := by
    intro c
    induction c with
    | zero =>
      intro _
      rw [C52.start_zero]
      constructor
      · rintro ⟨i, hi, -⟩
        omega
      · omega
    | succ c ih =>
      intro hc
      have ih := ih (by omega)
      rw [start_len (by omega)]
      constructor
      · rintro ⟨p, hp, h1, h2⟩
        rcases Nat.lt_succ_iff_lt_or_eq.1 hp with h | rfl
        · have := ih.1 ⟨p, h, h1, h2⟩
          omega
        · have := C52.start_mono R (Nat.zero_le p)
          rw [C52.start_zero] at this
          omega
      · rintro ⟨h0, h⟩
        rcases Nat.lt_or_ge k (C52.start R c) with h1 | h1
        · obtain ⟨p, hp, h2⟩ := ih.2 ⟨h0, h1⟩
          exact ⟨p, by omega, h2⟩
        · exact ⟨c, by omega, h1, h⟩
  exact key _ le_rfl

theorem after_skin (R : Bay ℝ) (i : ℕ) : 3 * R.skin.m * R.skin.n ≤ C52.start R i := by
  rw [← C52.start_zero R]
  exact C52.start_mono R (Nat.zero_le i)

section
variable (hx : MovedBay σ R R')
include hx

theorem len_eq {i : ℕ} (hi : i < R.blade2.length) : len R' (σ i) = len R i := by
  unfold len
  rw [hx.blade2 i hi]

theorem total : C52.start R' R'.blade2.length = C52.start R R.blade2.length := by
  unfold C52.start
  rw [List.take_length, List.take_length, hx.sum, hx.skin]

theorem new_apart : Verif.Apart (fun i => C52.start R' (σ i)) (len R) R.blade2.length := fun p hp q hq hne => by
  have := starts_apart R' _ (hx.in_new hp) _ (hx.in_new hq) fun h => hne (σ.injective h)
  rwa [len_eq hx hp, len_eq hx hq] at this

theorem new_covers (k : ℕ) :
    (∃ i < R.blade2.length, C52.start R' (σ i) ≤ k ∧ k < C52.start R' (σ i) + len R i) ↔
      3 * R.skin.m * R.skin.n ≤ k ∧ k < C52.start R R.blade2.length := by
  rw [← total hx, ← hx.skin, ← covers R' k]
  constructor
  · rintro ⟨p, hp, h⟩
    exact ⟨σ p, hx.in_new hp, by rwa [len_eq hx hp]⟩
  · rintro ⟨q, hq, h⟩
    obtain ⟨p, hp, rfl⟩ := hx.back hq
    exact ⟨p, hp, by rwa [← len_eq hx hp]⟩

/-- The numbers as a permutation. -/
noncomputable def numEquiv : ℕ ≃ ℕ where
  toFun := num σ R R'
  invFun := moveNo (C52.start R) (fun i => C52.start R' (σ i)) (len R) R.blade2.length
  left_inv := moveNo_moveNo (new_apart hx) (starts_apart R) fun k h => (new_covers hx k).2 ((covers R k).1 h)
  right_inv := moveNo_moveNo (starts_apart R) (new_apart hx) fun k h => (covers R k).2 ((new_covers hx k).1 h)

theorem numEquiv_apply (k : ℕ) : numEquiv hx k = num σ R R' k := rfl

/-- Flange by flange. -/
theorem num_block {i k : ℕ} (hi : i < R.blade2.length) (hk : k < len R i) :
    num σ R R' (C52.start R' (σ i) + k) = C52.start R i + k := by
  unfold num
  rw [moveNo_block (new_apart hx) hi ⟨by omega, by omega⟩]
  omega

/-- The skin. -/
theorem num_skin {k : ℕ} (hk : k < 3 * R.skin.m * R.skin.n) : num σ R R' k = k :=
  moveNo_off fun i hi h => by
    have := (new_covers hx k).1 ⟨i, hi, h⟩
    omega

/-- The number of a part: the skin stays the first. -/
def part (σ : ℕ ≃ ℕ) : ℕ → ℕ
  | 0 => 0
  | i + 1 => σ i + 1

theorem part_panel {k : ℕ} (hk : k < R.blade2.length + 1) : bayPanel R' (part σ k) = bayPanel R k := by
  cases k with
  | zero =>
    show bayPanel R' 0 = bayPanel R 0
    unfold bayPanel
    rw [hx.skin, hx.r]
  | succ i =>
    show flangePanel R' (σ i) = flangePanel R i
    unfold flangePanel
    rw [hx.blade2 i (by omega), hx.skin]

theorem part_len {k : ℕ} (hk : k < R.blade2.length + 1) (hf : ∀ s ∈ R.blade2, ∃ f, s.flange = some f) :
    (∀ i < 3 * (bayPanel R k).m * (bayPanel R k).n,
      num σ R R' (bayStart R' (part σ k) + i) = bayStart R k + i) := by
  intro i hi
  cases k with
  | zero =>
    show num σ R R' (0 + i) = 0 + i
    rw [Nat.zero_add]
    exact num_skin hx hi
  | succ j =>
    have hj : j < R.blade2.length := by omega
    have hs := List.getElem?_eq_getElem hj
    obtain ⟨f, hf⟩ := hf _ (List.mem_of_getElem? hs)
    have hP : bayPanel R (j + 1) = f.panel := by simp [bayPanel, flangePanel, hs, hf]
    show num σ R R' (bayStart R' (σ j + 1) + i) = bayStart R (j + 1) + i
    rw [bayStart_succ, bayStart_succ]
    refine num_block hx hj ?_
    rw [len_some hs]
    unfold C52.width
    rw [hf]
    rw [hP] at hi
    exact hi

/-- The same displacements of skin and flanges. -/
theorem displacement (hf : ∀ s ∈ R.blade2, ∃ f, s.flange = some f) {S : Shape ℝ} {k : ℕ}
    (hk : k < R.blade2.length + 1) (v : ℕ → ℝ) {α : ℕ} (hα : α < 3) :
    u S (bayPanel R' (part σ k)) (bayStart R' (part σ k)) (fun k => v (num σ R R' k)) α
      = u S (bayPanel R k) (bayStart R k) v α := by
  rw [part_panel hx hk]
  exact u_block (fun i hi => by rw [part_len hx hk hf i hi]) hα

end

theorem in_block {P : Panel ℝ} {s k : ℕ} (hk : k ∈ C76.actives P s) : s ≤ k ∧ k < s + 3 * (P.m * P.n) := by
  obtain ⟨α, hα, i, hi, j, hj, -, -, rfl⟩ := (C76.mem_actives _ _ _).1 hk
  have := number_lt (s := s) hi hj hα
  exact ⟨by omega, this⟩

/-! ## The reordered bay can be analysed when the given one can -/

theorem flanges (h : SolidBay E B R N) : ∀ s ∈ R.blade2, ∃ f, s.flange = some f := fun s hs => by
  obtain ⟨f, hf, -⟩ := C57.flange_of h.size hs
  exact ⟨f, hf⟩

/-- The reordered bay is rebuilt to the reordered rebuilt bay, of the same size. -/
theorem solid (hx : MovedBay σ B B') (h : SolidBay E B R N) : ∃ R', MovedBay σ R R' ∧ SolidBay E B' R' N := by
  obtain ⟨R', hR', hm⟩ := hx.rebuild h.rebuilt
  obtain ⟨s1, s2, s3⟩ := (C52.size_iff _ _).1 h.size
  have hP : bayPanel R' 0 = bayPanel R 0 := part_panel hm (Nat.succ_pos _)
  refine ⟨R', hm, ?_⟩
  exact
    { exact := h.exact
      smooth := h.smooth
      terms := hx.terms h.terms
      panels := by
        rw [hx.panels]
        exact h.panels
      rebuilt := hR'
      size := (C52.size_iff _ _).2 ⟨by rw [hm.model]; exact s1, fun s hs => s2 s (hm.mem2.1 hs),
        by rw [hm.skin, hm.sum]; exact s3⟩
      sides := by
        rw [hm.skin]
        exact h.sides
      skin := fun p hp => by
        rw [hP]
        exact h.skin p (hm.panels ▸ hp)
      base1 := fun s hs => by
        rw [hP]
        exact h.base1 s (hm.mem1.1 hs)
      base2 := fun s hs => by
        rw [hP]
        exact h.base2 s (hm.mem2.1 hs)
      flange := fun s hs f hf => by
        rw [hm.skin]
        exact h.flange s (hm.mem2.1 hs) f hf
      beam := fun s hs => h.beam s (hm.mem1.1 hs) }

/-! ## Matrices -/

/-- Sums over the parts of the two bays. -/
theorem sums (hm : MovedBay σ R R') {Pp : Shell ℝ → ((ℕ → ℝ) → ℝ) → Prop}
    {P1 P1' : Blade1 ℝ → ((ℕ → ℝ) → ℝ) → Prop} {P2 P2' : ℕ → Blade2 ℝ → ((ℕ → ℝ) → ℝ) → Prop}
    {Qp Q1 Q2 Qp' Q1' Q2' : List ((ℕ → ℝ) → ℝ)} {v w : ℕ → ℝ}
    (ep : List.Forall₂ Pp R.panels Qp) (ep' : List.Forall₂ Pp R'.panels Qp')
    (e1 : List.Forall₂ P1 R.blade1 Q1) (e1' : List.Forall₂ P1' R'.blade1 Q1')
    (l2 : Q2.length = R.blade2.length) (l2' : Q2'.length = R'.blade2.length)
    (e2 : ∀ i s q, R.blade2[i]? = some s → Q2[i]? = some q → P2 (C52.start R i) s q)
    (e2' : ∀ i s q, R'.blade2[i]? = some s → Q2'[i]? = some q → P2' (C52.start R' i) s q)
    (hp : ∀ p ∈ R.panels, ∀ q q', Pp p q → Pp p q' → q' w = q v)
    (h1 : ∀ s ∈ R.blade1, ∀ q q', P1 s q → P1' s q' → q' w = q v)
    (h2 : ∀ i s q q', R.blade2[i]? = some s → i < R.blade2.length → P2 (C52.start R i) s q →
      P2' (C52.start R' (σ i)) s q' → q' w = q v) :
    (Qp'.map fun q => q w).sum + (Q1'.map fun q => q w).sum + (Q2'.map fun q => q w).sum
      = (Qp.map fun q => q v).sum + (Q1.map fun q => q v).sum + (Q2.map fun q => q v).sum := by
  rw [hm.panels] at ep'
  obtain ⟨Q1'', f1, p1⟩ := forall₂_perm hm.blade1.symm e1'
  have a := C92.forall₂_sum ep ep' (v := v) (w := w) hp
  have b := C92.forall₂_sum e1 f1 (v := v) (w := w) h1
  have c := sum_indexed hm.inside l2 (l2'.trans hm.count) (v := v) (w := w) fun i hi q q' hq hq' => by
    have hs := List.getElem?_eq_getElem hi
    exact h2 i _ q q' hs hi (e2 i _ q hs hq) (e2' (σ i) _ q' ((hm.blade2 i hi).trans hs) hq')
  rw [a, ← (p1.map fun q => q w).sum_eq, b, c]

section
variable (hm : MovedBay σ R R')
include hm

theorem own_skin {g : Shell ℝ → Except Fail (Coo ℝ × Shell ℝ)} {o : Option (Shell ℝ)}
    (ho : ∀ b, o = some b → b.pan.m = R.skin.m ∧ b.pan.n = R.skin.n)
    (hg : ∀ b L t, g b = .ok (L, t) → ∀ x ∈ L, x.row < 3 * b.pan.m * b.pan.n ∧ x.col < 3 * b.pan.m * b.pan.n)
    {q q' : (ℕ → ℝ) → ℝ} (h : C52.Own g 0 o q) (h' : C52.Own g 0 o q') (v : ℕ → ℝ) :
    q' (fun k => v (num σ R R' k)) = q v :=
  own_same (w := 3 * R.skin.m * R.skin.n) (fun b L t e hb => by
    have := hg b L t hb
    rwa [(ho b e).1, (ho b e).2] at this) h h' fun k hk => by
      rw [Nat.zero_add, num_skin hm hk]

theorem own_flange {g : Shell ℝ → Except Fail (Coo ℝ × Shell ℝ)} {i : ℕ} {s : Blade2 ℝ}
    (hs : R.blade2[i]? = some s)
    (hg : ∀ b L t, g b = .ok (L, t) → ∀ x ∈ L, x.row < 3 * b.pan.m * b.pan.n ∧ x.col < 3 * b.pan.m * b.pan.n)
    {q q' : (ℕ → ℝ) → ℝ} (h : C52.Own g (C52.start R i) s.flange q)
    (h' : C52.Own g (C52.start R' (σ i)) s.flange q') (v : ℕ → ℝ) :
    q' (fun k => v (num σ R R' k)) = q v :=
  own_same (w := C52.width s) (fun b L t e hb => by
    have := hg b L t hb
    unfold C52.width
    rwa [e]) h h' fun k hk => by
      rw [num_block hm (List.getElem?_eq_some_iff.1 hs).1 (by rw [len_some hs]; exact hk)]

theorem moved_iff {L L' : Coo ℝ} : Moved σ R R' L L' ↔ C91.Perm (numEquiv hm) L L' := Iff.rfl

/-- **C101, stiffness.** -/
theorem stiffness (h : SolidBay E B R N) (h' : SolidBay E B' R' N) :
    ∃ k0 B1 k0' B1', B.calcKC E = .ok (k0, B1) ∧ B'.calcKC E = .ok (k0', B1') ∧ Moved σ R R' k0 k0' := by
  obtain ⟨⟨k0, B1⟩, c⟩ := C57.kC_exists E B R N h.terms h.panels h.rebuilt h.size h.ready
  obtain ⟨⟨k0', B1'⟩, c'⟩ := C57.kC_exists E B' R' N h'.terms h'.panels h'.rebuilt h'.size h'.ready
  refine ⟨k0, B1, k0', B1', c, c', (moved_iff hm).2 (C91.perm_of_quad (C81.symmetric.1 c) (C81.symmetric.1 c') ?_)⟩
  intro v
  obtain ⟨R0, N0, r0, n0, Qp, Q1, Q2, ep, e1, l2, e2, w⟩ := C52.kC_energy E B B1 k0 h.terms c
  obtain ⟨R0', N0', r0', n0', Qp', Q1', Q2', ep', e1', l2', e2', w'⟩ := C52.kC_energy E B' B1' k0' h'.terms c'
  cases r0.symm.trans h.rebuilt
  cases r0'.symm.trans h'.rebuilt
  have hb := C52.built h.terms h.rebuilt
  simp only [numEquiv_apply]
  rw [w, w']
  have hv : ∀ k < 3 * R.skin.m * R.skin.n, v (num σ R R' k) = v k := fun k hk => by rw [num_skin hm hk]
  have hg : ∀ (b : Shell ℝ) L t, b.calcKC E.toEnv {} = .ok (L, t) →
      ∀ x ∈ L, x.row < 3 * b.pan.m * b.pan.n ∧ x.col < 3 * b.pan.m * b.pan.n := fun b L t hb => calcKC_within hb
  refine sums hm ep ep' e1 e1' l2 l2' e2 e2' (fun p hp q q' hq hq' => ?_) (fun s hs q q' hq hq' => ?_)
    fun i s q q' hs hi hq hq' => ?_
  · exact own_skin hm (fun b e => by cases e; exact hb.terms.panels p hp) hg hq hq' v
  · obtain ⟨qb, qf, o, f, a⟩ := hq
    obtain ⟨qb', qf', o', f', a'⟩ := hq'
    rw [a, a', own_skin hm (hb.terms.base1 s hs) hg o o' v, beam_same hm.skin hv f f']
  · obtain ⟨qb, qf, qj, o, f, j, a⟩ := hq
    obtain ⟨qb', qf', qj', o', f', j', a'⟩ := hq'
    have hmem := List.mem_of_getElem? hs
    rw [a, a', own_skin hm (hb.terms.base2 s hmem) hg o o' v, own_flange hm hs hg f f' v,
      joint_same hm.skin hm.panels hv h.exact h.smooth h.sides.1.ne' h.sides.2.ne' (fun x hx => ?_)
        (after_skin R i) (by rw [← hm.skin]; exact after_skin R' (σ i)) (fun k hk => ?_) j j']
    · obtain ⟨x1, x2, -⟩ := h.flange s hmem x hx
      exact ⟨by rw [x1]; exact h.sides.1.ne', x2.ne'⟩
    · rw [num_block hm hi (by rw [len_some hs]; exact hk)]

/-- **C101, geometric stiffness.** -/
theorem geometric (h : SolidBay E B R N) (h' : SolidBay E B' R' N) :
    ∃ kG B1 kG' B1', B.calcKG E none = .ok (kG, B1) ∧ B'.calcKG E none = .ok (kG', B1') ∧ Moved σ R R' kG kG' := by
  obtain ⟨⟨k0, B1⟩, c⟩ := C57.kG_exists E B R N h.terms h.panels h.rebuilt h.size h.ready
  obtain ⟨⟨k0', B1'⟩, c'⟩ := C57.kG_exists E B' R' N h'.terms h'.panels h'.rebuilt h'.size h'.ready
  refine ⟨k0, B1, k0', B1', c, c',
    (moved_iff hm).2 (C91.perm_of_quad (C81.symmetric.2.1 none c) (C81.symmetric.2.1 none c') ?_)⟩
  intro v
  obtain ⟨R0, N0, r0, n0, Qp, Q1, Q2, ep, e1, l2, e2, w⟩ := C52.kG_energy E B B1 k0 h.terms c
  obtain ⟨R0', N0', r0', n0', Qp', Q1', Q2', ep', e1', l2', e2', w'⟩ := C52.kG_energy E B' B1' k0' h'.terms c'
  cases r0.symm.trans h.rebuilt
  cases r0'.symm.trans h'.rebuilt
  have hb := C52.built h.terms h.rebuilt
  simp only [numEquiv_apply]
  rw [w, w']
  have hv : ∀ k < 3 * R.skin.m * R.skin.n, v (num σ R R' k) = v k := fun k hk => by rw [num_skin hm hk]
  have hg : ∀ (b : Shell ℝ) L t, b.calcKG E.toEnv {} = .ok (L, t) →
      ∀ x ∈ L, x.row < 3 * b.pan.m * b.pan.n ∧ x.col < 3 * b.pan.m * b.pan.n := fun b L t hb => calcKG_within hb
  refine sums hm (P2 := fun off s q => C52.Own (fun b => b.calcKG E.toEnv {}) off s.flange q)
    (P2' := fun off s q => C52.Own (fun b => b.calcKG E.toEnv {}) off s.flange q)
    ep ep' e1 e1' l2 l2' e2 e2' (fun p hp q q' hq hq' => ?_) (fun s hs q q' hq hq' => ?_)
    fun i s q q' hs hi hq hq' => ?_
  · exact own_skin hm (fun b e => by cases e; exact hb.terms.panels p hp) hg hq hq' v
  · exact beamG_same hm.skin hv hq hq'
  · exact own_flange hm hs hg hq hq' v

/-- **C101, mass.**  Of a bay whose mass matrix exists, see `C57`. -/
theorem mass (h : SolidBay E B R N) (h' : SolidBay E B' R' N) {kM kM' : Coo ℝ} {B1 B1' : Bay ℝ}
    (c : B.calcKM E = .ok (kM, B1)) (c' : B'.calcKM E = .ok (kM', B1')) : Moved σ R R' kM kM' := by
  refine (moved_iff hm).2 (C91.perm_of_quad (C81.symmetric.2.2 c) (C81.symmetric.2.2 c') ?_)
  intro v
  obtain ⟨R0, N0, r0, n0, Qp, Q1, Q2, ep, e1, l2, e2, w⟩ := C52.kM_energy E B B1 kM h.terms c
  obtain ⟨R0', N0', r0', n0', Qp', Q1', Q2', ep', e1', l2', e2', w'⟩ := C52.kM_energy E B' B1' kM' h'.terms c'
  cases r0.symm.trans h.rebuilt
  cases r0'.symm.trans h'.rebuilt
  have hb := C52.built h.terms h.rebuilt
  simp only [numEquiv_apply]
  rw [w, w']
  have hv : ∀ k < 3 * R.skin.m * R.skin.n, v (num σ R R' k) = v k := fun k hk => by rw [num_skin hm hk]
  have hg : ∀ (b : Shell ℝ) L t, C52.massOf E b = .ok (L, t) →
      ∀ x ∈ L, x.row < 3 * b.pan.m * b.pan.n ∧ x.col < 3 * b.pan.m * b.pan.n := fun b L t hb => calcKM_within hb
  refine sums hm ep ep' e1 e1' l2 l2' e2 e2' (fun p hp q q' hq hq' => ?_) (fun s hs q q' hq hq' => ?_)
    fun i s q q' hs hi hq hq' => ?_
  · exact own_skin hm (fun b e => by cases e; exact hb.terms.panels p hp) hg hq hq' v
  · obtain ⟨qb, qf, o, f, a⟩ := hq
    obtain ⟨qb', qf', o', f', a'⟩ := hq'
    rw [a, a', own_skin hm (hb.terms.base1 s hs) hg o o' v, beamM_same hm.skin hm.panels hv f f']
  · obtain ⟨qb, qf, o, f, a⟩ := hq
    obtain ⟨qb', qf', o', f', a'⟩ := hq'
    rw [a, a', own_skin hm (hb.terms.base2 s (List.mem_of_getElem? hs)) hg o o' v, own_flange hm hs hg f f' v]

/-- The mass matrices exist together, where `C57` provides them. -/
theorem mass_exists (h : SolidBay E B R N) (h' : SolidBay E B' R' N) (h1 : ∀ s ∈ R.blade1, s.base = none)
    (h2 : ∀ s ∈ R.blade2, ∀ b, s.base = some b → b.model.bind kindOf ≠ none) :
    ∃ kM B1 kM' B1', B.calcKM E = .ok (kM, B1) ∧ B'.calcKM E = .ok (kM', B1') ∧ Moved σ R R' kM kM' := by
  obtain ⟨⟨kM, B1⟩, c⟩ := C57.kM_exists_partial E B R N h.terms h.panels h.rebuilt h.size h1 h2
  obtain ⟨⟨kM', B1'⟩, c'⟩ := C57.kM_exists_partial E B' R' N h'.terms h'.panels h'.rebuilt h'.size
    (fun s hs => h1 s (hm.mem1.1 hs)) fun s hs => h2 s (hm.mem2.1 hs)
  exact ⟨kM, B1, kM', B1', c, c', mass hm h h' c c'⟩

/-! ## Analyses -/

/-- The unknowns of the reordered bay. -/
theorem mem_actives (hf : ∀ s ∈ R.blade2, ∃ f, s.flange = some f) (k : ℕ) :
    k ∈ C81.actives R' ↔ num σ R R' k ∈ C81.actives R := by
  have key : ∀ p < R.blade2.length + 1, ∀ k,
      (bayStart R' (part σ p) + k ∈ C76.actives (bayPanel R' (part σ p)) (bayStart R' (part σ p)) ↔
        bayStart R p + k ∈ C76.actives (bayPanel R p) (bayStart R p)) := fun p hp k => by
    rw [part_panel hm hp, C76.mem_actives, C76.mem_actives]
    simp only [Active, add_assoc, Nat.add_left_cancel_iff]
  have back : ∀ q < R'.blade2.length + 1, ∃ p < R.blade2.length + 1, part σ p = q := fun q hq => by
    cases q with
    | zero => exact ⟨0, Nat.succ_pos _, rfl⟩
    | succ j =>
      obtain ⟨i, hi, rfl⟩ := hm.back (Nat.lt_of_succ_lt_succ hq)
      exact ⟨i + 1, by omega, rfl⟩
  simp only [C81.actives, C78.actives, mem_biUnion, mem_range]
  constructor
  · rintro ⟨q, hq, hk⟩
    obtain ⟨p, hp, rfl⟩ := back q hq
    have hb := in_block hk
    rw [part_panel hm hp] at hb
    obtain ⟨r, rfl⟩ := Nat.exists_eq_add_of_le hb.1
    refine ⟨p, hp, ?_⟩
    rw [part_len hm hp hf r (by rw [mul_assoc]; omega)]
    exact (key p hp r).1 hk
  · rintro ⟨p, hp, hk⟩
    have hb := in_block hk
    obtain ⟨r, hr⟩ := Nat.exists_eq_add_of_le hb.1
    have hlt : r < 3 * (bayPanel R p).m * (bayPanel R p).n := by
      rw [mul_assoc]
      omega
    have e : k = bayStart R' (part σ p) + r := by
      apply (numEquiv hm).injective
      rw [numEquiv_apply, numEquiv_apply, part_len hm hp hf r hlt, hr]
    rw [hr] at hk
    refine ⟨part σ p, ?_, by rw [e]; exact (key p hp r).2 hk⟩
    cases p with
    | zero => exact Nat.succ_pos _
    | succ i => exact Nat.succ_lt_succ (hm.in_new (by omega))

variable (hf : ∀ s ∈ R.blade2, ∃ f, s.flange = some f)
include hf

/-- **C101, frequencies.** -/
theorem frequencies {K M K' M' : Coo ℝ} (hK : Moved σ R R' K K') (hM : Moved σ R R' M M') (μ : ℂ) :
    Eigen (C81.actives R') K' M' μ ↔ Eigen (C81.actives R) K M μ :=
  C92.eigen_iff (e := numEquiv hm) (mem_actives hm hf) hK hM μ

/-- **C101, the list of frequencies**, with multiplicities. -/
theorem frequency_list {K M K' M' : Coo ℝ} (hK : Moved σ R R' K K') (hM : Moved σ R R' M M') (hs : Sym M)
    (hs' : Sym M') (hp : Pos (C81.actives R) M) {φ lam φ' lam'} (h1 : Modes (C81.actives R) K M φ lam)
    (h2 : Modes (C81.actives R') K' M' φ' lam') :
    (C81.actives R').card = (C81.actives R).card ∧ ∀ a, ∀ ha ha', lam' ⟨a, ha'⟩ = lam ⟨a, ha⟩ :=
  C91.values (e := numEquiv hm) (mem_actives hm hf) hK hM hs hs' hp h1 h2

/-- **C101, buckling.** -/
theorem buckling {K G K' G' : Coo ℝ} (hK : Moved σ R R' K K') (hG : Moved σ R R' G G') (p : ℂ) :
    Critical (C81.actives R') K' G' p ↔ Critical (C81.actives R) K G p :=
  C91.critical_iff (e := numEquiv hm) (mem_actives hm hf) hK hG p

/-- **C101, static analysis.**  The same displacements at every point of the skin and of every flange. -/
theorem static {K K' : Coo ℝ} (hK : Moved σ R R' K K') {f f' : ℕ → ℝ}
    (hforce : ∀ k ∈ C81.actives R', f' k = f (num σ R R' k)) {c : ℕ → ℝ} (hc : Balanced (C81.actives R) K f c)
    {S : Shape ℝ} :
    ∃ c', Balanced (C81.actives R') K' f' c' ∧ ∀ k < R.blade2.length + 1, ∀ α < 3,
      u S (bayPanel R' (part σ k)) (bayStart R' (part σ k)) c' α = u S (bayPanel R k) (bayStart R k) c α :=
  ⟨fun k => c (num σ R R' k), C92.balanced_to (e := numEquiv hm) (mem_actives hm hf) hK hforce hc,
    fun _ hk _ hα => displacement hm hf hk c hα⟩

end

/-! ## Example -/

theorem swapped {B : Bay ℝ} (hl : B.blade2.length = 2) :
    MovedBay (Equiv.swap 0 1) B { B with blade2 := B.blade2.reverse } := by
  obtain ⟨x, y, hxy⟩ := List.length_eq_two.1 hl
  refine ⟨rfl, .refl _, List.length_reverse, fun i => ?_, fun i hi => ?_⟩
  · rw [hl, Equiv.swap_apply_def]
    split_ifs <;> omega
  · rw [hl] at hi
    simp only [hxy]
    interval_cases i <;> simp

/-- The two flanges of the bay of `C81` in the other order. -/
example : ∃ B, full = .ok B ∧ ∃ R N, SolidBay env B R N ∧ ∃ B', B'.blade2 = B.blade2.reverse ∧
    MovedBay (Equiv.swap 0 1) B B' ∧ ∃ R', SolidBay env B' R' N ∧
    ∃ k0 B1 k0' B1' kG B2 kG' B2', B.calcKC env = .ok (k0, B1) ∧ B'.calcKC env = .ok (k0', B1') ∧
      B.calcKG env none = .ok (kG, B2) ∧ B'.calcKG env none = .ok (kG', B2') ∧
      ∀ p : ℂ, Critical (C81.actives R') k0' kG' p ↔ Critical (C81.actives R) k0 kG p := by
  obtain ⟨B, hB, R, N, h, -, -⟩ := full_solid
  have hl : B.blade2.length = 2 := by
    unfold full at hB
    obtain ⟨B1, h1, hB⟩ := bind_ok.1 hB
    obtain ⟨B2, h2, hB⟩ := bind_ok.1 hB
    obtain ⟨s1, -, rfl⟩ := (C100.added _ _ _ _ _ _).1 h1
    obtain ⟨s2, -, rfl⟩ := (C100.added _ _ _ _ _ _).2 _ _ h2
    obtain ⟨s3, -, rfl⟩ := (C100.added _ _ _ _ _ _).2 _ _ hB
    rfl
  have hx := swapped hl
  obtain ⟨R', hm, h'⟩ := solid hx h
  obtain ⟨k0, B1, k0', B1', c, c', r⟩ := stiffness hm h h'
  obtain ⟨kG, B2, kG', B2', g, g', rG⟩ := geometric hm h h'
  exact ⟨B, hB, R, N, h, _, rfl, hx, R', h', k0, B1, k0', B1', kG, B2, kG', B2', c, c', g, g',
    buckling hm (flanges h) r rG⟩

/-- Two flanges without bases. -/
noncomputable def twins : Except Fail (Bay ℝ) := do
  let B ← bare.addBlade2 env (1 / 2) none none (some (1 / 3)) {} ply 4 6
  B.addBlade2 env (1 / 2) none none (some (1 / 4)) {} ply 5 4

theorem twins_solid : ∃ B, twins = .ok B ∧ B.blade2.length = 2 ∧ ∃ R N, SolidBay env B R N ∧ R.blade1 = [] ∧
    ∀ s ∈ R.blade2, s.base = none := by
  have hp : ∀ B : Bay ℝ, B.panels = bare.panels → B.pair 0 1 = .ok _ := fun B hB => by
    unfold Bay.pair
    rw [hB]
    exact if_pos ⟨rfl, rfl, rfl, rfl⟩
  have key : ∃ B, twins = .ok B ∧ B.blade2.length = 2 ∧ B.panels ≠ [] ∧ ∃ R, B.rebuild env = .ok R ∧ Ready env R ∧
      R.getSize = .ok (105 + (72 + (60 + 0))) ∧ (0 < R.skin.a ∧ 0 < R.skin.b) ∧ Curved R.r R.model ∧
      R.blade1 = [] ∧ ∀ s ∈ R.blade2, s.base = none := by
    refine ⟨_, bind_ok.2 ⟨_, bind_ok.2 ⟨_, rfl, bind_ok.2 ⟨_, rfl, bind_ok.2 ⟨_, found _ rfl rfl,
        bind_ok.2 ⟨_, rfl, bind_ok.2 ⟨_, rfl, bind_ok.2 ⟨_, bind_ok.2 ⟨_, hp _ rfl, rfl⟩, rfl⟩⟩⟩⟩⟩⟩,
      bind_ok.2 ⟨_, rfl, bind_ok.2 ⟨_, rfl, bind_ok.2 ⟨_, found _ rfl rfl,
        bind_ok.2 ⟨_, rfl, bind_ok.2 ⟨_, rfl, bind_ok.2 ⟨_, bind_ok.2 ⟨_, hp _ rfl, rfl⟩, rfl⟩⟩⟩⟩⟩⟩⟩, rfl, ?_, _,
      bind_ok.2 ⟨_, rfl, bind_ok.2 ⟨_, rfl, bind_ok.2 ⟨_,
        bind_ok.2 ⟨_, bind_ok.2 ⟨_, if_pos ⟨rfl, rfl, rfl, rfl⟩, rfl⟩,
          bind_ok.2 ⟨_, bind_ok.2 ⟨_, bind_ok.2 ⟨_, if_pos ⟨rfl, rfl, rfl, rfl⟩, rfl⟩, rfl⟩, rfl⟩⟩, rfl⟩⟩⟩, ?_, rfl,
      ?_, ?_, rfl, ?_⟩
    · exact List.cons_ne_nil _ _
    · refine ⟨fun s hs b hb => ?_, fun s hs b hb => ?_, fun s hs b hb => ?_⟩
      · cases hs
      · rcases List.mem_pair.1 hs with rfl | rfl <;> cases hb
      · rcases List.mem_pair.1 hs with rfl | rfl <;> cases hb <;> exact ⟨_, rfl⟩
    · show 0 < (3 : ℝ) ∧ 0 < (1 : ℝ)
      norm_num
    · exact .inr ⟨5, by norm_num, rfl, rfl⟩
    · intro s hs
      rcases List.mem_pair.1 hs with rfl | rfl <;> rfl
  obtain ⟨B, hB, hl, hne, R, hR, hr, hN, hs, hk, h1, h2⟩ := key
  have hS : Shaped B := by
    unfold twins at hB
    obtain ⟨B1, h1, hB⟩ := bind_ok.1 hB
    exact shaped_addBlade2 (shaped_addBlade2 bare_shaped _ _ _ (by norm_num) _ _ _ _ h1) _ _ _ (by norm_num) _ _ _ _ hB
  refine ⟨B, hB, hl, R, _, C81.solid (Tab.of_exact _ _) bardellShape_C2 env_good hS hne hR hN hs hr hk
    (fun s hs => ?_), h1, h2⟩
  rw [h1] at hs
  cases hs

/-- Their bay vibrates alike with the flanges in the other order. -/
example : ∃ B, twins = .ok B ∧ ∃ R N, SolidBay env B R N ∧ ∃ B', B'.blade2 = B.blade2.reverse ∧
    ∃ R', SolidBay env B' R' N ∧ ∃ k0 B1 k0' B1' kM B2 kM' B2', B.calcKC env = .ok (k0, B1) ∧
      B'.calcKC env = .ok (k0', B1') ∧ B.calcKM env = .ok (kM, B2) ∧ B'.calcKM env = .ok (kM', B2') ∧
      ∀ μ : ℂ, Eigen (C81.actives R') k0' kM' μ ↔ Eigen (C81.actives R) k0 kM μ := by
  obtain ⟨B, hB, hl, R, N, h, e1, e2⟩ := twins_solid
  have hx := swapped hl
  obtain ⟨R', hm, h'⟩ := solid hx h
  obtain ⟨k0, B1, k0', B1', c, c', r⟩ := stiffness hm h h'
  obtain ⟨kM, B2, kM', B2', g, g', rM⟩ := mass_exists hm h h' (by simp [e1]) fun s hs b hb => by
    rw [e2 s hs] at hb
    cases hb
  exact ⟨B, hB, R, N, h, _, rfl, R', h', k0, B1, k0', B1', kM, B2, kM', B2', c, c', g, g',
    frequencies hm (flanges h) r rM⟩

end Verif.C101
