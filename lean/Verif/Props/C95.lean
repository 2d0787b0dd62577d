import Verif.Proofs.MirrorAll
import Verif.Proofs.Signed
import Verif.Props.C92

/-!
# C95: an assembly behaves as its mirror image

Panels, joints and loads of an assembly mirrored in a plane (`Spec/MirrorAll.lean`): the same matrices and forces
with the terms exchanged and their signs changed, the same frequencies and buckling loads, and mirrored
displacements.  Curved panels, upright flanges and panels laid over each other are included.
-/

set_option linter.unusedSectionVars false

namespace Verif.C95

open Finset Spec Model Indep C80

/-! ## The numbers of an assembly -/

section
variable {E : Env ℝ} {g : ℕ → Facing} {A A' : Assy ℝ} {T T' : ℕ → Shell ℝ}

/-- The numbers of the mirrored assembly. -/
noncomputable def num (g : ℕ → Facing) (A : Assy ℝ) (k : ℕ) : ℕ :=
  mirNo g (fun p => (A.panel p).m) (fun p => (A.panel p).n) A.start A.count k

/-- Their signs. -/
noncomputable def sign (g : ℕ → Facing) (A : Assy ℝ) (k : ℕ) : ℝ :=
  mirSign g (fun p => (A.panel p).m) (fun p => (A.panel p).n) A.start A.count k

/-- Entry by entry the same matrix, with the numbers and signs of the mirrored assembly. -/
def Mirrored (g : ℕ → Facing) (A : Assy ℝ) (L L' : Coo ℝ) : Prop :=
  ∀ k l, Coo.entry L' k l = sign g A k * sign g A l * Coo.entry L (num g A k) (num g A l)

/-- Enough terms along the mirrored axes. -/
def Enough (g : ℕ → Facing) (A : Assy ℝ) : Prop :=
  ∀ p < A.count, ((g p).X = true → 4 ≤ (A.panel p).m) ∧ ((g p).Y = true → 4 ≤ (A.panel p).n)

theorem start_sep {A : Assy ℝ} (p q : ℕ) (hpq : p < q) (hq : q < A.count) :
    A.start p + 3 * ((A.panel p).m * (A.panel p).n) ≤ A.start q := by
  rw [mul_comm (A.panel p).m]
  exact C92.start_sep p q hpq hq

theorem num_num (h : Enough g A) : Function.Involutive (num g A) := fun k => mirNo_mirNo h start_sep k

theorem sign_sq (h : Enough g A) (k : ℕ) : sign g A k * sign g A k = 1 := mirSign_sq h k

/-- The numbers as a permutation. -/
noncomputable def numEquiv (h : Enough g A) : ℕ ≃ ℕ := (num_num h).toPerm

theorem numEquiv_apply (h : Enough g A) (k : ℕ) : numEquiv h k = num g A k := rfl

theorem in_block {A : Assy ℝ} {p k : ℕ} (hk : k < 3 * (A.panel p).m * (A.panel p).n) :
    A.start p ≤ A.start p + k ∧ A.start p + k < A.start p + 3 * ((A.panel p).m * (A.panel p).n) :=
  ⟨by omega, by rw [← mul_assoc]; omega⟩

/-- Inside the block of a panel. -/
theorem block (h : Enough g A) {p : ℕ} (hp : p < A.count) (v : ℕ → ℝ) {k : ℕ}
    (hk : k < 3 * (A.panel p).m * (A.panel p).n) :
    sign g A (A.start p + k) * v (num g A (A.start p + k))
      = mir (g p) (A.panel p).m (A.panel p).n (A.start p) v (A.start p + k) := by
  have e1 := mirNo_block (m := fun p => (A.panel p).m) (n := fun p => (A.panel p).n) h start_sep hp
    (in_block hk)
  have e2 := mirSign_block (g := g) (m := fun p => (A.panel p).m) (n := fun p => (A.panel p).n) start_sep hp
    (in_block hk)
  unfold num sign
  rw [e1, e2, mul_assoc]
  rfl

theorem enough (h : MirAssy g A A' T T') : Enough g A := h.terms

theorem starts (h : MirAssy g A A' T T') {p : ℕ} (hp : p ≤ A.count) : A'.start p = A.start p := by
  induction p with
  | zero => rfl
  | succ p ih =>
    have hp' : p < A.count := hp
    rw [Assy_start_succ hp', Assy_start_succ (by rw [h.count]; exact hp'), ih hp'.le]
    obtain ⟨e1, e2⟩ : (A'.part p).shell.pan.m = (A.part p).shell.pan.m ∧
        (A'.part p).shell.pan.n = (A.part p).shell.pan.n := ⟨(h.parts p hp').panel.m, (h.parts p hp').panel.n⟩
    rw [e1, e2]

theorem u_same (h : MirAssy g A A' T T') {S : Shape ℝ} {p : ℕ} (hp : p < A.count) (v : ℕ → ℝ) {α : ℕ}
    (hα : α < 3) :
    u S (A'.panel p) (A.start p) (fun k => sign g A k * v (num g A k)) α
      = u S (A'.panel p) (A.start p) (mir (g p) (A.panel p).m (A.panel p).n (A.start p) v) α := by
  have hx := (h.parts p hp).panel
  have e1 : (A'.panel p).m = (A.panel p).m := hx.m
  have e2 : (A'.panel p).n = (A.panel p).n := hx.n
  refine u_block (fun k hk => ?_) hα
  rw [e1, e2] at hk
  exact block (enough h) hp v hk

/-- The displacements and slopes of every panel are mirrored. -/
theorem image (h : MirAssy g A A' T T') (hS : E.S.C2) (hE : E.S.Even) {p : ℕ} (hp : p < A.count)
    (ha : (A.panel p).a ≠ 0) (hb : (A.panel p).b ≠ 0) (v : ℕ → ℝ) :
    Image (g p) (A.panel p).a (A.panel p).b (u E.S (A.panel p) (A.start p) v)
      (u E.S (A'.panel p) (A.start p) fun k => sign g A k * v (num g A k)) := by
  obtain ⟨hm, hn⟩ := enough h p hp
  have hx : Turned (g p).X (g p).Y (A.panel p) (A'.panel p) := (h.parts p hp).panel
  refine ⟨fun α hα x y => ?_, fun x y => ?_, fun x y => ?_⟩
  · rw [u_same h hp v hα]
    exact u_mir hE hx hm hn ha hb _ v hα x y
  · rw [u_same h hp v (by omega)]
    exact dx_mir hE hx hm hn ha hb hS _ v (by omega) x y
  · rw [u_same h hp v (by omega)]
    exact dy_mir hE hx hm hn ha hb hS _ v (by omega) x y

theorem mir_zero (f : Facing) (m n s : ℕ) (v : ℕ → ℝ) {k : ℕ} (hk : k < 3 * (m * n)) :
    mir f m n s v (s + k) = mir f m n 0 (fun i => v (s + i)) k := by
  have c1 : s ≤ s + k ∧ s + k < s + 3 * (m * n) := ⟨by omega, by omega⟩
  unfold mir overNo turn signNo twinNo
  simp only [c1, hk, and_self, true_and, if_true, Nat.add_sub_cancel_left, Nat.sub_zero, Nat.zero_add,
    Nat.add_assoc, Nat.zero_le]

/-- Amplitudes of one panel, counted from zero. -/
theorem own_block (h : MirAssy g A A' T T') {p : ℕ} (hp : p < A.count) (v : ℕ → ℝ) {k : ℕ}
    (hk : k < 3 * (A'.panel p).m * (A'.panel p).n) :
    sign g A (A'.start p + k) * v (num g A (A'.start p + k))
      = mir (g p) (A.panel p).m (A.panel p).n 0 (fun i => v (A.start p + i)) k := by
  have hx := (h.parts p hp).panel
  have e1 : (A'.panel p).m = (A.panel p).m := hx.m
  have e2 : (A'.panel p).n = (A.panel p).n := hx.n
  rw [e1, e2] at hk
  rw [starts h hp.le, block (enough h) hp v hk, mir_zero _ _ _ _ _ (by rw [← mul_assoc]; exact hk)]

/-! ## The mirrored assembly can be analysed when the given one can -/

/-- The mirrored joint in a given assembly. -/
noncomputable def image_conn (g : ℕ → Facing) (A : Assy ℝ) : ConnD ℝ → ConnD ℝ :=
  mirConn g (fun p => (A.part p).shell.pan.a) fun p => (A.part p).shell.pan.b

theorem joinable {l : List ℕ} {d : ConnD ℝ} (h : Joinable l d) : Joinable l (image_conn g A d) := by
  obtain ⟨m1, m2, hne, hk⟩ := h
  refine ⟨m1, m2, hne, ?_⟩
  rcases hk with ⟨h1, x, y, h2, h3⟩ | ⟨h1, x, y, h2, h3⟩ | h1
  · exact .inl ⟨h1, by simp [image_conn, mirConn, h2, h3]⟩
  · exact .inr (.inl ⟨h1, by simp [image_conn, mirConn, h2, h3]⟩)
  · exact .inr (.inr h1)

/-- Stiffnesses and sizes that enter the constants of a joint do not change. -/
theorem pen_eq (hx : MirAssy g A A' T T') (hb : ∀ p < A.count, (A'.part p).shell.rebuild E = .ok (T' p))
    (h : Fit E A T) {p : ℕ} (hp : p < A.count) {l l' : LamObj ℝ} (h1 : (T p).lam = some l)
    (h2 : (T' p).lam = some l') : penOf (T' p) l' = penOf (T p) l := by
  obtain ⟨m, m', m1, m2, m3, m4⟩ := (hx.parts p hp).lam
  obtain rfl : m = l := Option.some.inj (m1.symm.trans h1)
  obtain rfl : m' = l' := Option.some.inj (m2.symm.trans h2)
  have e0 : (T' p).pan = (A'.part p).shell.pan := (rebuild_kept E (hb p hp)).1
  have e1 : (A'.part p).shell.pan.a = (A.part p).shell.pan.a := (hx.parts p hp).panel.a
  have e2 : (A'.part p).shell.pan.b = (A.part p).shell.pan.b := (hx.parts p hp).panel.b
  have e3 := h.pan hp
  have z := sgn_sq (K := ℝ) (g p).Z
  have d0 : m'.ABD 0 0 = m.ABD 0 0 := by rw [m3]; simp [mirLam, kSign, eSign]
  have d1 : m'.ABD 1 1 = m.ABD 1 1 := by rw [m3]; simp [mirLam, kSign, eSign]
  have d3 : m'.ABD 3 3 = m.ABD 3 3 := by rw [m3]; simp [mirLam, kSign, eSign, z]
  have d4 : m'.ABD 4 4 = m.ABD 4 4 := by rw [m3]; simp [mirLam, kSign, eSign, z]
  simp only [penOf, d0, d1, d3, d4, m4, e0, e1, e2, e3]

theorem fit (h : Fit E A T) (hx : MirAssy g A A' T T')
    (hb : ∀ p < A.count, (A'.part p).shell.rebuild E = .ok (T' p)) : Fit E A' T' where
  exact := h.exact
  smooth := h.smooth
  pos := hx.count ▸ h.pos
  terms p hp := by
    rw [hx.count] at hp
    obtain ⟨h1, h2⟩ := h.terms p hp
    have e1 : (A'.part p).shell.pan.m = (A.part p).shell.pan.m := (hx.parts p hp).panel.m
    have e2 : (A'.part p).shell.pan.n = (A.part p).shell.pan.n := (hx.parts p hp).panel.n
    exact ⟨e1 ▸ h1, e2 ▸ h2⟩
  built p hp := hb p (hx.count ▸ hp)
  stiff p hp := by
    rw [hx.count] at hp
    obtain ⟨l, hl, hP⟩ := h.stiff p hp
    obtain ⟨-, l', -, h2, -⟩ := (hx.parts p hp).lam
    exact ⟨l', h2, by rw [pen_eq hx hb h hp hl h2]; exact hP⟩
  sides p hp := by
    rw [hx.count] at hp
    obtain ⟨h1, h2⟩ := h.sides p hp
    have e1 : (A'.part p).shell.pan.a = (A.part p).shell.pan.a := (hx.parts p hp).panel.a
    have e2 : (A'.part p).shell.pan.b = (A.part p).shell.pan.b := (hx.parts p hp).panel.b
    exact ⟨e1 ▸ h1, e2 ▸ h2⟩
  conns := by
    rw [hx.conns]
    simpa using h.conns
  joined d hd := by
    rw [hx.conns] at hd
    obtain ⟨d0, h0, rfl⟩ := List.mem_map.1 hd
    rw [hx.count]
    exact joinable (A := A) (h.joined d0 h0)

/-! ## One joint -/

theorem samePlane_symm {f : String} {a b : Facing} (h : SamePlane f a b) : SamePlane f b a := by
  unfold SamePlane at *
  split_ifs at * <;> tauto

theorem pos_mir {l : List ℕ} {d : ConnD ℝ} (h : Joinable l d) (hf : d.func ≠ "SB") :
    posLo (image_conn g A d) = (if d.func = "SSxcte" ∨ d.func = "BFxcte"
        then across (g (lo d)).X (A.panel (lo d)).a (posLo d) else across (g (lo d)).Y (A.panel (lo d)).b (posLo d)) ∧
    posHi (image_conn g A d) = (if d.func = "SSxcte" ∨ d.func = "BFxcte"
        then across (g (hi d)).X (A.panel (hi d)).a (posHi d)
        else across (g (hi d)).Y (A.panel (hi d)).b (posHi d)) := by
  obtain ⟨-, -, -, ⟨h1, x, y, h2, h3⟩ | ⟨h1, x, y, h2, h3⟩ | h1⟩ := h
  · simp only [posLo, posHi, lo, hi, image_conn, mirConn, jointPos, if_pos h1, h2, h3, Option.map_some,
      Option.getD_some]
    by_cases hc : d.p1 < d.p2
    · simp only [if_pos hc]
      exact ⟨rfl, rfl⟩
    · simp only [if_neg hc]
      exact ⟨rfl, rfl⟩
  · have hn : ¬ (d.func = "SSxcte" ∨ d.func = "BFxcte") := by
      rcases h1 with e | e <;> rw [e] <;> decide
    simp only [posLo, posHi, lo, hi, image_conn, mirConn, jointPos, if_neg hn, h2, h3, Option.map_some,
      Option.getD_some]
    by_cases hc : d.p1 < d.p2
    · simp only [if_pos hc]
      exact ⟨rfl, rfl⟩
    · simp only [if_neg hc]
      exact ⟨rfl, rfl⟩
  · exact absurd h1 hf

theorem term_eq (h : Fit E A T) (hx : MirAssy g A A' T T') (hE : E.S.Even)
    (hb : ∀ p < A.count, (A'.part p).shell.rebuild E = .ok (T' p)) {d : ConnD ℝ}
    (hd : d ∈ A.conns) {e e' : (ℕ → ℝ) → ℝ} (ht : C40.Term E (A.after T) d e)
    (ht' : C40.Term E (A'.after T') (image_conn g A d) e') (v : ℕ → ℝ) :
    e' (fun k => sign g A k * v (num g A k)) = e v := by
  have h' := fit h hx hb
  have hd' : image_conn g A d ∈ A'.conns := by
    rw [hx.conns]
    exact List.mem_map_of_mem hd
  have hj := h.joined d hd
  obtain ⟨p1, p2, lA, lB, kt, kr, l1, l2, -, hk, he⟩ := h.joint hd ht
  obtain ⟨-, -, lA', lB', kt', kr', l1', l2', -, hk', he'⟩ := h'.joint hd' ht'
  have q1 : lo (image_conn g A d) = lo d := rfl
  have q2 : hi (image_conn g A d) = hi d := rfl
  have q3 : (image_conn g A d).func = d.func := rfl
  rw [q1, q2, q3] at he' hk'
  rw [q1] at l1'
  rw [q2] at l2'
  rw [pen_eq hx hb h p1 l1 l1', pen_eq hx hb h p2 l2 l2', hk] at hk'
  obtain ⟨rfl, rfl⟩ : kt = kt' ∧ kr = kr' := by simpa using hk'
  have s1 := h.sides _ p1
  have s2 := h.sides _ p2
  have hpl : SamePlane d.func (g (lo d)) (g (hi d)) := by
    have := hx.plane d hd
    unfold lo hi
    split
    · exact this
    · exact samePlane_symm this
  have key := springs_mir (S := E.S) (hx.parts _ p1).panel (hx.parts _ p2).panel s1.1.ne' s1.2.ne'
    (image hx h.smooth hE p1 s1.1.ne' s1.2.ne' v) (image hx h.smooth hE p2 s2.1.ne' s2.2.ne' v)
    (C92.kinds hj) hpl kt (kr.getD 0)
    (if d.func = "SB" then (thick T (lo d) + thick T (hi d)) / 2 else posLo d) (posHi d)
  rw [he, he', starts hx p1.le, starts hx p2.le]
  refine Eq.trans ?_ key
  by_cases hs : d.func = "SB"
  · have t1 : thick T' (lo d) = thick T (lo d) := (hx.parts _ p1).thick
    have t2 : thick T' (hi d) = thick T (hi d) := (hx.parts _ p2).thick
    simp only [hs, if_true, t1, t2, String.reduceEq, or_self, if_false]
    exact springs_SB ..
  · obtain ⟨g1, g2⟩ := pos_mir (g := g) (A := A) hj hs
    simp only [if_neg hs, g1, g2]
    rfl

/-! ## Matrices -/

theorem mirrored_iff (h : Enough g A) {L L' : Coo ℝ} :
    Mirrored g A L L' ↔ Signs.Signed (numEquiv h) (sign g A) L L' := Iff.rfl

section
variable (h : Fit E A T) (hE : E.S.Even) (hx : MirAssy g A A' T T')
  (hb : ∀ p < A.count, (A'.part p).shell.rebuild E = .ok (T' p)) (hP : C92.Plain A T)
  (hP' : ∀ p < A.count, ¬ C38.PreStress (A'.part p).shell)

include h hE hx hb hP hP'

/-- **C95, matrices.** -/
theorem matrices : ∃ k0 M k0' M', A.multi.calcKC E (some A.conns) none = .ok (k0, M) ∧
    A'.multi.calcKC E (some A'.conns) none = .ok (k0', M') ∧ Mirrored g A k0 k0' ∧
    (∃ kG M1 kG' M1', M.calcKG E none = .ok (kG, M1) ∧ M'.calcKG E none = .ok (kG', M1') ∧
      Mirrored g A kG kG') ∧
    ∃ kM M1 kM' M1', M.calcKM E = .ok (kM, M1) ∧ M'.calcKM E = .ok (kM', M1') ∧ Mirrored g A kM kM' := by
  have h' := fit h hx hb
  have hN := enough hx
  obtain ⟨own, o1, k0, M, es, c1, t1, w1, s1, s2, s3⟩ := h.kC
  obtain ⟨own', o1', k0', M', es', c1', t1', w1', s1', s2', s3'⟩ := h'.kC
  obtain ⟨ownG, g1, kG, MG, g2, g3⟩ := h.kG s1 s2 s3
  obtain ⟨ownG', g1', kG', MG', g2', g3'⟩ := h'.kG s1' s2' s3'
  obtain ⟨kM, MM, m2, m3⟩ := h.kM s1 s2 s3
  obtain ⟨kM', MM', m2', m3'⟩ := h'.kM s1' s2' s3'
  rw [hx.count] at w1' g3' m3'
  rw [hx.conns, List.forall₂_map_left_iff] at t1'
  have side : ∀ p < A.count, (A.part p).shell.pan.a ≠ 0 ∧ (A.part p).shell.pan.b ≠ 0 ∧
      (A'.part p).shell.pan.a ≠ 0 ∧ (A'.part p).shell.pan.b ≠ 0 := fun p hp => by
    obtain ⟨a1, a2⟩ := h.sides p hp
    obtain ⟨b1, b2⟩ := h'.sides p (hx.count.symm ▸ hp)
    exact ⟨a1.ne', a2.ne', b1.ne', b2.ne'⟩
  refine ⟨k0, M, k0', M', c1, c1', (mirrored_iff hN).2 ?_, ⟨kG, MG, kG', MG', g2, g2', (mirrored_iff hN).2 ?_⟩,
    kM, MM, kM', MM', m2, m2', (mirrored_iff hN).2 ?_⟩
  · refine Signs.signed_of_quad (sign_sq hN) (Assy.calcKC_sym c1) (Assy.calcKC_sym c1') fun v => ?_
    simp only [numEquiv_apply]
    rw [w1, w1', C92.forall₂_sum t1 t1' fun d hd e e' he he' => term_eq h hx hE hb hd he he' v]
    refine congrArg (fun x => x + _) (congrArg List.sum (List.map_congr_left fun p hp => ?_))
    have hp := List.mem_range.1 hp
    obtain ⟨a1, a2, b1, b2⟩ := side p hp
    have hxp := hx.parts p hp
    obtain ⟨n1, n2⟩ := hN p hp
    obtain ⟨l, l', l1, l2, l3, l4⟩ := hxp.lam
    rw [shell_kC_strain h.exact h.smooth (h.built p hp) a1 a2
      (hxp.shape.imp id fun q => ⟨q.1, q.2.1⟩) (hP.free p hp) l1 (hP.sym p hp l l1) (o1 p hp)]
    rw [shell_kC_strain h.exact h.smooth (hb p hp) b1 b2
      (by rw [hxp.radius, hxp.kind]; exact hxp.shape.imp id fun q => ⟨q.1, q.2.1⟩)
      (hP' p hp) l2 (l3 ▸ mirLam_sym (hP.sym p hp l l1) _) (o1' p (hx.count.symm ▸ hp)), l3]
    refine (strainWork_block (P := A'.panel p) _ fun k hk => own_block hx hp v hk).trans ?_
    refine strainWork_mir hE hxp.panel n1 n2 a1 a2 h.smooth (fun hz => ?_) _ _
    rcases hxp.shape with q | q
    · exact q.1
    · rw [q.2.2] at hz
      cases hz
  · refine Signs.signed_of_quad (sign_sq hN) (Multi.calcKG_sym g2) (Multi.calcKG_sym g2') fun v => ?_
    simp only [numEquiv_apply]
    rw [g3, g3']
    refine congrArg List.sum (List.map_congr_left fun p hp => ?_)
    have hp := List.mem_range.1 hp
    obtain ⟨a1, a2, b1, b2⟩ := side p hp
    have hxp := hx.parts p hp
    obtain ⟨n1, n2⟩ := hN p hp
    rw [shell_kG_slope h.exact h.smooth (h.built p hp) a1 a2 (g1 p hp),
      shell_kG_slope h.exact h.smooth (hb p hp) b1 b2 (g1' p (hx.count.symm ▸ hp)),
      hxp.nxx, hxp.nyy, hxp.nxy]
    refine (slopeWork_block (P := A'.panel p) _ _ _ fun k hk => own_block hx hp v hk).trans ?_
    exact slopeWork_mir hE hxp.panel n1 n2 a1 a2 h.smooth _ _ _ _
  · refine Signs.signed_of_quad (sign_sq hN) (Multi.calcKM_sym m2) (Multi.calcKM_sym m2') fun v => ?_
    simp only [numEquiv_apply]
    rw [m3, m3']
    refine congrArg List.sum (List.map_congr_left fun p hp => ?_)
    have hp := List.mem_range.1 hp
    obtain ⟨a1, a2, b1, b2⟩ := side p hp
    have hxp := hx.parts p hp
    obtain ⟨n1, n2⟩ := hN p hp
    rw [hxp.rho, hxp.offset, hxp.thick]
    refine (kineticWork_block (P := A'.panel p) _ _ _ fun k hk => own_block hx hp v hk).trans ?_
    exact kineticWork_mir hE hxp.panel n1 n2 a1 a2 h.smooth _ _ _ _

end

/-! ## Analyses -/

theorem active_block {A : Assy ℝ} {p k : ℕ} (hk : k ∈ C76.actives (A.panel p) (A.start p)) :
    A.start p ≤ k ∧ k < A.start p + 3 * ((A.panel p).m * (A.panel p).n) := by
  obtain ⟨α, hα, i, hi, j, hj, -, -, rfl⟩ := (C76.mem_actives _ _ _).1 hk
  have := number_lt (s := A.start p) hi hj hα
  exact ⟨by omega, this⟩

/-- The unknowns of the mirrored assembly. -/
theorem mem_actives (hx : MirAssy g A A' T T') (k : ℕ) :
    k ∈ C78.actives A'.count A'.panel A'.start ↔ num g A k ∈ C78.actives A.count A.panel A.start := by
  have hN := enough hx
  rw [hx.count]
  have key : ∀ p < A.count, ∀ k, A.start p ≤ k → k < A.start p + 3 * ((A.panel p).m * (A.panel p).n) →
      (k ∈ C76.actives (A'.panel p) (A'.start p) ↔ num g A k ∈ C76.actives (A.panel p) (A.start p)) := by
    intro p hp k h1 h2
    have := C89.mem_actives (hx.parts p hp).panel (hN p hp).1 (hN p hp).2 (A.start p) k
    rw [starts hx hp.le]
    have e := mirNo_block (m := fun p => (A.panel p).m) (n := fun p => (A.panel p).n) hN start_sep hp ⟨h1, h2⟩
    unfold num
    rw [e]
    exact this
  have inb' : ∀ p < A.count, ∀ k ∈ C76.actives (A'.panel p) (A'.start p),
      A.start p ≤ k ∧ k < A.start p + 3 * ((A.panel p).m * (A.panel p).n) := by
    intro p hp k hk
    have := active_block hk
    have e1 : (A'.panel p).m = (A.panel p).m := (hx.parts p hp).panel.m
    have e2 : (A'.panel p).n = (A.panel p).n := (hx.parts p hp).panel.n
    rwa [starts hx hp.le, e1, e2] at this
  simp only [C78.actives, mem_biUnion, mem_range]
  constructor
  · rintro ⟨p, hp, hk⟩
    obtain ⟨b1, b2⟩ := inb' p hp k hk
    exact ⟨p, hp, (key p hp k b1 b2).1 hk⟩
  · rintro ⟨p, hp, hk⟩
    have hb := active_block hk
    have e := mirNo_block (m := fun p => (A.panel p).m) (n := fun p => (A.panel p).n) hN start_sep hp hb
    have e1 : num g A (num g A k) = k := num_num hN k
    have e2 : twinNo (g p).X (g p).Y (A.panel p).m (A.panel p).n (A.start p) (num g A k) = k :=
      e.symm.trans e1
    have hb' := twinNo_in (hN p hp).1 (hN p hp).2 hb
    rw [e2] at hb'
    exact ⟨p, hp, (key p hp k hb'.1 hb'.2).2 hk⟩

/-- **C95, frequencies.** -/
theorem frequencies (hx : MirAssy g A A' T T') {K M K' M' : Coo ℝ} (hK : Mirrored g A K K')
    (hM : Mirrored g A M M') (μ : ℂ) :
    Eigen (C78.actives A'.count A'.panel A'.start) K' M' μ ↔
      Eigen (C78.actives A.count A.panel A.start) K M μ :=
  Signs.eigen_iff (e := numEquiv (enough hx)) (sign_sq (enough hx)) (mem_actives hx) hK hM μ

/-- **C95, the list of frequencies**, with multiplicities. -/
theorem frequency_list (hx : MirAssy g A A' T T') {K M K' M' : Coo ℝ} (hK : Mirrored g A K K')
    (hM : Mirrored g A M M') (hs : Sym M) (hs' : Sym M')
    (hp : Pos (C78.actives A.count A.panel A.start) M) {φ lam φ' lam'}
    (h1 : Modes (C78.actives A.count A.panel A.start) K M φ lam)
    (h2 : Modes (C78.actives A'.count A'.panel A'.start) K' M' φ' lam') :
    (C78.actives A'.count A'.panel A'.start).card = (C78.actives A.count A.panel A.start).card ∧
      ∀ a, ∀ ha ha', lam' ⟨a, ha'⟩ = lam ⟨a, ha⟩ :=
  Signs.values (e := numEquiv (enough hx)) (sign_sq (enough hx)) (mem_actives hx) hK hM hs hs' hp h1 h2

/-- **C95, buckling.** -/
theorem buckling (hx : MirAssy g A A' T T') {K G K' G' : Coo ℝ} (hK : Mirrored g A K K')
    (hG : Mirrored g A G G') (p : ℂ) :
    Critical (C78.actives A'.count A'.panel A'.start) K' G' p ↔
      Critical (C78.actives A.count A.panel A.start) K G p :=
  Signs.critical_iff (e := numEquiv (enough hx)) (sign_sq (enough hx)) (mem_actives hx) hK hG p

theorem block_le {A : Assy ℝ} {p : ℕ} (hp : p < A.count) :
    A.start p + 3 * ((A.panel p).m * (A.panel p).n) ≤ A.start A.count := by
  rw [mul_comm (A.panel p).m]
  exact C92.block_le hp

theorem num_lt (h : Enough g A) {k : ℕ} (hk : k < A.start A.count) : num g A k < A.start A.count := by
  by_cases hb : ∃ p < A.count, A.start p ≤ k ∧ k < A.start p + 3 * ((A.panel p).m * (A.panel p).n)
  · obtain ⟨p, hp, hb⟩ := hb
    have e := mirNo_block (m := fun p => (A.panel p).m) (n := fun p => (A.panel p).n) h start_sep hp hb
    unfold num
    rw [e]
    exact (twinNo_in (h p hp).1 (h p hp).2 hb).2.trans_le (block_le hp)
  · unfold num
    rw [mirNo_off fun p hp h => hb ⟨p, hp, h⟩]
    exact hk

/-- **C95, forces.**  `hG`: the points of the quadrature along the loaded lines are symmetric. -/
theorem forces (h : Fit E A T) (hE : E.S.Even) (hx : MirAssy g A A' T T')
    (hb : ∀ p < A.count, (A'.part p).shell.rebuild E = .ok (T' p))
    (hG : ∀ p < A.count, ((g p).X = true → E.G.Even (A.panel p).m) ∧ ((g p).Y = true → E.G.Even (A.panel p).n))
    (hL : ∀ p < A.count, WellFormed (A.part p).loads) :
    ∃ f M f' M', A.fext E = .ok (f, M) ∧ A'.fext E = .ok (f', M') ∧
      ∀ k < A.multi.getSize, f' k = sign g A k * f (num g A k) := by
  have hN := enough hx
  obtain ⟨f, M, c1, w1⟩ := C67.fext_work E A.multi (laid_init _ _ _ _ List.nodup_range)
    (fun p => (A.part p).loads) 1 T (fun p hp => h.built p (List.mem_range.1 hp))
    (fun p hp => hL p (List.mem_range.1 hp))
  obtain ⟨f', M', c1', w1'⟩ := C67.fext_work E A'.multi (laid_init _ _ _ _ List.nodup_range)
    (fun p => (A'.part p).loads) 1 T' (fun p hp => hb p (hx.count ▸ List.mem_range.1 hp))
    (fun p hp => by
      have hp' : p < A.count := hx.count ▸ List.mem_range.1 hp
      rw [hx.loads p hp']
      exact mirLoads_wf (hL p hp') _ _ _)
  refine ⟨f, M, f', M', c1, c1', fun k hk => ?_⟩
  have hsz : A'.multi.getSize = A.multi.getSize := by
    rw [C92.size_eq, C92.size_eq, hx.count, starts hx le_rfl]
  have e : ∀ c : ℕ → ℝ, ∑ l ∈ range A.multi.getSize, f' l * (sign g A l * c (num g A l))
      = ∑ l ∈ range A.multi.getSize, f l * c l := fun c => by
    have w := w1' fun l => sign g A l * c (num g A l)
    rw [hsz] at w
    rw [w, w1 c]
    have n1 : A.multi.panels = List.range A.count := rfl
    have n2 : A'.multi.panels = List.range A.count := by rw [← hx.count]; rfl
    rw [n1, n2, List.length_range]
    refine congrArg List.sum (List.map_congr_left fun p hp => ?_)
    have hp := List.mem_range.1 hp
    have gp : (List.range A.count).getD p 0 = p := by simp [List.getD, hp]
    rw [gp, hx.loads p hp]
    have d1 : C40.start A'.multi.shells (List.range A.count) p = A.start p := by
      rw [← starts hx hp.le, ← hx.count]; rfl
    have d2 : C40.start A.multi.shells (List.range A.count) p = A.start p := rfl
    rw [d1, d2]
    obtain ⟨a1, a2⟩ := h.sides p hp
    have key := mir_loads hE (hx.parts p hp).panel (hN p hp).1 (hN p hp).2 (hG p hp).1 (hG p hp).2
      a1.ne' a2.ne' (A.part p).loads 1 (A.start p) c
    refine Eq.trans ?_ key
    refine C92.load_congr _ _ _ fun α hα => ?_
    funext x y
    rw [C92.field_u, C92.field_u]
    exact congrFun (congrFun (u_same (S := E.S) hx hp c hα) x) y
  have hk' := num_lt hN (C92.size_eq ▸ hk)
  rw [← C92.size_eq] at hk'
  have := e fun l => sign g A k * unit (num g A k) l
  have e1 : ∀ (g : ℕ → ℝ) k, k < A.multi.getSize →
      ∑ l ∈ range A.multi.getSize, g l * unit k l = g k := fun g k hk => by
    rw [Finset.sum_eq_single k (fun l _ hl => by rw [unit, if_neg hl, mul_zero])
      (fun h => absurd (mem_range.2 hk) h), unit, if_pos rfl, mul_one]
  have e2 : ∀ l, sign g A l * (sign g A k * unit (num g A k) (num g A l)) = (unit k l : ℝ) := fun l => by
    have hu := congrFun (C91.unit_perm (numEquiv hN) k) l
    simp only [numEquiv_apply] at hu
    rw [hu]
    by_cases hl : l = k
    · subst hl
      rw [unit, if_pos rfl, mul_one, sign_sq hN]
    · rw [unit, if_neg hl, mul_zero, mul_zero]
  simp only [e2] at this
  rw [e1 _ _ hk] at this
  rw [this, ← e1 f _ hk', Finset.mul_sum]
  exact Finset.sum_congr rfl fun l _ => by ring

/-- **C95, static analysis.**  Mirrored displacements at every point of every panel. -/
theorem static (h : Fit E A T) (hE : E.S.Even) (hx : MirAssy g A A' T T') {K K' : Coo ℝ}
    (hK : Mirrored g A K K') {f f' : ℕ → ℝ} (hf : ∀ k < A.multi.getSize, f' k = sign g A k * f (num g A k))
    {c : ℕ → ℝ} (hc : Balanced (C78.actives A.count A.panel A.start) K f c) :
    ∃ c', Balanced (C78.actives A'.count A'.panel A'.start) K' f' c' ∧
      ∀ p < A.count, ∀ α < 3, ∀ x y,
        u E.S (A'.panel p) (A'.start p) c' α (across (g p).X (A.panel p).a x) (across (g p).Y (A.panel p).b y)
          = dSign (g p) α * u E.S (A.panel p) (A.start p) c α x y := by
  have hN := enough hx
  refine ⟨fun k => sign g A k * c (num g A k), ?_, fun p hp α hα x y => ?_⟩
  · refine Signs.balanced_to (e := numEquiv hN) (sign_sq hN) (mem_actives hx) hK (fun k hk => hf k ?_) hc
    simp only [C78.actives, mem_biUnion, mem_range] at hk
    obtain ⟨p, hp, hk⟩ := hk
    rw [hx.count] at hp
    have h1 := active_block hk
    have e1 : (A'.panel p).m = (A.panel p).m := (hx.parts p hp).panel.m
    have e2 : (A'.panel p).n = (A.panel p).n := (hx.parts p hp).panel.n
    rw [starts hx hp.le, e1, e2] at h1
    rw [C92.size_eq]
    exact h1.2.trans_le (block_le hp)
  · obtain ⟨a1, a2⟩ := h.sides p hp
    rw [starts hx hp.le]
    exact (image hx h.smooth hE hp a1.ne' a2.ne' c).disp α hα x y

end

/-! ## Example -/

/-- A skin mirrored along both its axes. -/
def flat : Facing := ⟨true, true, false⟩

/-- The flange standing on it. -/
def upright : Facing := ⟨true, false, true⟩

/-- The first and the third panel are skins, the second one is the flange. -/
def facing (p : ℕ) : Facing := if p = 1 then upright else flat

/-- A laminate with shear and bending coupling. -/
noncomputable def coupled (s t : ℕ) : ℝ := C13.lam s t + if s + t = 2 ∧ s * t = 0 then 1 else 0

noncomputable def env : Env ℝ :=
  { C89.env with
    mkLam := fun stack plyts _ _ _ => .ok
      ⟨if stack = [1] then mirLam flat coupled else if stack = [2] then mirLam upright coupled else coupled,
        plyts.sum, 1⟩ }

noncomputable def skin : Shell ℝ :=
  { C40.shell with pan := Witness.panel, stack := [0], Nxx := 5, Nyy := 7, Nxy := 2, offset := 1 / 5 }

noncomputable def skin' : Shell ℝ := { skin with pan := C89.half, stack := [1] }

noncomputable def flange : Shell ℝ := { skin with pan := C89.part }

noncomputable def flange' : Shell ℝ :=
  { skin with pan := C89.image, stack := [2], Nxy := -2, offset := -(1 / 5) }

noncomputable def conns : List (ConnD ℝ) :=
  [{ p1 := 0, p2 := 1, func := "BFycte", ycte1 := some (1 / 4), ycte2 := some 0 },
   { p1 := 2, p2 := 0, func := "SSxcte", xcte1 := some 0, xcte2 := some 3 },
   { p1 := 0, p2 := 2, func := "SB" }]

/-- Two skins, one beside and one over the other, and a flange. -/
noncomputable def assy : Assy ℝ :=
  ⟨fun p => ⟨"panel", 0, 0, if p = 1 then flange else skin, C89.loads⟩, 3, conns⟩

noncomputable def conns' : List (ConnD ℝ) :=
  [{ p1 := 0, p2 := 1, func := "BFycte", ycte1 := some (3 / 4), ycte2 := some 0 },
   { p1 := 2, p2 := 0, func := "SSxcte", xcte1 := some 3, xcte2 := some 0 },
   { p1 := 0, p2 := 2, func := "SB" }]

noncomputable def assy' : Assy ℝ :=
  ⟨fun p => ⟨"panel", 0, 0, if p = 1 then flange' else skin', mirLoads (facing p) 3 1 C89.loads⟩, 3, conns'⟩

theorem coupled_sym : ABDSym coupled where
  symm s t := by simp only [coupled, C13.lam_sym.symm s t, add_comm s t, mul_comm s t]
  b12 := by norm_num [coupled, C13.lam]
  b16 := by norm_num [coupled, C13.lam]
  b26 := by norm_num [coupled, C13.lam]

/-- One panel and its image. -/
theorem built {g : Facing} {s s' : Shell ℝ} {θ : ℝ} (hp : Turned g.X g.Y s.panel s'.panel) (hs : s.panel.a = 3 ∧ s.panel.b = 1)
    (h : s = { skin with pan := s.pan })
    (h' : s' = { skin with
      pan := s'.pan, stack := [θ], Nxy := sgn g.X * sgn g.Y * 2, offset := sgn g.Z * (1 / 5) })
    (hl : (if [θ] = [1] then mirLam flat coupled else if [θ] = [2] then mirLam upright coupled
      else coupled) = mirLam g coupled) :
    ∃ t t' l, s.rebuild env = .ok t ∧ s'.rebuild env = .ok t' ∧ MirPart g s s' t t' ∧ t.lam = some l ∧
      ABDSym l.ABD ∧ C44.Pos (penOf t l) := by
  obtain ⟨P, hP⟩ : ∃ P, s.pan = P := ⟨_, rfl⟩
  obtain ⟨P', hP'⟩ : ∃ P, s'.pan = P := ⟨_, rfl⟩
  have hsa : P.a = 3 ∧ P.b = 1 := hP ▸ hs
  rw [hP] at h
  rw [hP'] at h'
  subst h h'
  refine ⟨_, _, _, rfl, rfl, ⟨hp, rfl, rfl, .inl ⟨rfl, rfl⟩, rfl, rfl, rfl, rfl, rfl, ?_, _, _, rfl, rfl, ?_, ?_⟩,
    rfl, ?_, ?_⟩
  · simp [skin, C40.shell, orFill]
  · simp [skin, C40.shell, lamABD, env, orFill]
    simpa using hl
  · simp [skin, C40.shell, orFill]
  · simpa [skin, C40.shell, lamABD, env, orFill] using coupled_sym
  · constructor <;> simp [penOf, skin, C40.shell, env, orFill, lamABD, coupled, C13.lam, hsa]

theorem half_image : Turned true true skin.panel skin'.panel where
  m := rfl
  n := rfl
  a := rfl
  b := rfl
  r := rfl
  xf := C89.panel_half.xf
  yf := C89.panel_half.yf
  xdom := C89.panel_half.xdom
  ydom := C89.panel_half.ydom

theorem flange_image : Turned true false flange.panel flange'.panel where
  m := rfl
  n := rfl
  a := rfl
  b := rfl
  r := rfl
  xf := C89.part_image.xf
  yf := C89.part_image.yf
  xdom := C89.part_image.xdom
  ydom := C89.part_image.ydom

/-- All that the theorems ask for. -/
theorem ready : ∃ T T', Fit env assy T ∧ MirAssy facing assy assy' T T' ∧
    (∀ p < assy.count, (assy'.part p).shell.rebuild env = .ok (T' p)) ∧ C92.Plain assy T ∧
    ∀ p < assy.count, ¬ C38.PreStress (assy'.part p).shell := by
  obtain ⟨t, t', l, b1, b2, b3, b4, b5, b6⟩ := built (g := flat) (s := skin) (s' := skin') (θ := 1) half_image
    (by simp [skin, Shell.panel, Witness.panel]) rfl (by simp [skin', flat, sgn, skin]) (by simp)
  obtain ⟨r, r', k, c1, c2, c3, c4, c5, c6⟩ := built (g := upright) (s := flange) (s' := flange') (θ := 2)
    flange_image (by simp [flange, skin, Shell.panel, C89.part, Witness.panel]) rfl
    (by simp [flange', upright, sgn, skin]) (by norm_num)
  have hside : ∀ p, (assy.part p).shell.pan.a = 3 ∧ (assy.part p).shell.pan.b = 1 ∧
      (assy.part p).shell.pan.m = 5 ∧ (assy.part p).shell.pan.n = 7 := fun p => by
    by_cases hp : p = 1 <;> simp [assy, hp, flange, skin, C89.part, Witness.panel]
  refine ⟨fun p => if p = 1 then r else t, fun p => if p = 1 then r' else t',
    ⟨Tab.of_exact _ _, bardellShape_C2, by simp [assy], fun p _ => ?_, fun p _ => ?_, fun p _ => ?_,
      fun p _ => ?_, by simp [assy, conns], ?_⟩,
    ⟨rfl, ?_, ?_, fun p _ => ?_, fun p _ => ?_, fun p _ => ?_⟩, fun p _ => ?_, ⟨fun p _ => ?_, fun p _ l' hl' => ?_⟩,
    fun p _ => ?_⟩
  · rw [(hside p).2.2.1, (hside p).2.2.2]; norm_num
  · by_cases hp : p = 1 <;> simp only [assy, hp, if_true, if_false] <;> assumption
  · by_cases hp : p = 1
    · simp only [hp, if_true]
      exact ⟨k, c4, c6⟩
    · simp only [hp, if_false]
      exact ⟨l, b4, b6⟩
  · rw [(hside p).1, (hside p).2.1]; norm_num
  · simp [assy, conns, Joinable]
  · simp only [(hside _).1, (hside _).2.1]
    simp [assy, assy', conns, conns', mirConn, facing, flat, upright, across]
    norm_num
  · simp [assy, conns, SamePlane, facing, flat, upright]
  · by_cases hp : p = 1 <;> simp only [assy, assy', facing, hp, if_true, if_false] <;> assumption
  · rw [(hside p).1, (hside p).2.1]; rfl
  · rw [(hside p).2.2.1, (hside p).2.2.2]; norm_num
  · by_cases hp : p = 1 <;> simp only [assy', hp, if_true, if_false] <;> assumption
  · by_cases hp : p = 1 <;> simp [C38.PreStress, assy, hp, flange, skin, C40.shell]
  · by_cases hp : p = 1
    · simp only [hp, if_true] at hl'
      obtain rfl : k = l' := Option.some.inj (c4.symm.trans hl')
      exact c5
    · simp only [hp, if_false] at hl'
      obtain rfl : l = l' := Option.some.inj (b4.symm.trans hl')
      exact b5
  · by_cases hp : p = 1 <;> simp [C38.PreStress, assy', hp, flange', skin', skin, C40.shell]

example : ∃ k0 M k0' M', assy.multi.calcKC env (some assy.conns) none = .ok (k0, M) ∧
    assy'.multi.calcKC env (some assy'.conns) none = .ok (k0', M') ∧
    (∃ kG M1 kG' M1', M.calcKG env none = .ok (kG, M1) ∧ M'.calcKG env none = .ok (kG', M1') ∧
      ∀ p : ℂ, Critical (C78.actives 3 assy'.panel assy'.start) k0' kG' p ↔
        Critical (C78.actives 3 assy.panel assy.start) k0 kG p) ∧
    (∃ kM M1 kM' M1', M.calcKM env = .ok (kM, M1) ∧ M'.calcKM env = .ok (kM', M1') ∧
      ∀ μ : ℂ, Eigen (C78.actives 3 assy'.panel assy'.start) k0' kM' μ ↔
        Eigen (C78.actives 3 assy.panel assy.start) k0 kM μ) ∧
    ∃ f M f' M', assy.fext env = .ok (f, M) ∧ assy'.fext env = .ok (f', M') ∧
      ∀ c, Balanced (C78.actives 3 assy.panel assy.start) k0 f c →
        ∃ c', Balanced (C78.actives 3 assy'.panel assy'.start) k0' f' c' ∧
          ∀ x y, u env.S (assy'.panel 1) (assy'.start 1) c' 2 (3 - x) y
            = -u env.S (assy.panel 1) (assy.start 1) c 2 x y := by
  obtain ⟨T, T', h, hx, hb, hP, hP'⟩ := ready
  obtain ⟨k0, M, k0', M', c1, c2, r, ⟨kG, M1, kG', M1', g1, g2, rG⟩, kM, M2, kM', M2', m1, m2, rM⟩ :=
    matrices h bardellShape_even hx hb hP hP'
  have hpan : ∀ p, (assy.panel p).m = 5 ∧ (assy.panel p).n = 7 ∧ (assy.panel p).a = 3 := fun p => by
    by_cases hp : p = 1 <;> simp [assy, Assy.panel, Shell.panel, hp, flange, skin, C89.part, Witness.panel]
  obtain ⟨f, N, f', N', e1, e2, e3⟩ := forces h bardellShape_even hx hb
    (fun p _ => ⟨fun _ => by rw [(hpan p).1]; exact C89.gaussTab_even (by norm_num) (by norm_num),
      fun _ => by rw [(hpan p).2.1]; exact C89.gaussTab_even (by norm_num) (by norm_num)⟩) fun _ _ => C89.loads_wf
  refine ⟨k0, M, k0', M', c1, c2, ⟨kG, M1, kG', M1', g1, g2, buckling hx r rG⟩,
    ⟨kM, M2, kM', M2', m1, m2, frequencies hx r rM⟩, f, N, f', N', e1, e2, fun c hc => ?_⟩
  obtain ⟨c', h1, h2⟩ := static h bardellShape_even hx r e3 hc
  refine ⟨c', h1, fun x y => ?_⟩
  have := h2 1 (by simp [assy]) 2 (by omega) x y
  simpa [facing, upright, across, dSign, sgn, (hpan 1).2.2] using this

end Verif.C95
