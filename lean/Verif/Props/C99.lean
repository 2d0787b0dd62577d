import Verif.Props.C80Ready
import Verif.Props.C98
import Verif.Proofs.Freer

/-!
# C99: an assembly that admits more motions is never stiffer

More terms in the panels, released edges and fewer joints (`Spec/Freer.lean`): no frequency and no buckling load
rises, and the loads do no less work.
-/

set_option linter.unusedSectionVars false

namespace Verif.C99

open Finset Spec Model Indep C80

/-! ## Structures in general -/

section
variable {t t' : Finset ℕ} {K K' M M' G G' : Coo ℝ} (J : (ℕ → ℝ) →ₗ[ℝ] (ℕ → ℝ))
  (hJ : ∀ v : ℕ → ℝ, (∀ k ∉ t, v k = 0) → ∀ k ∉ t', J v k = 0)
  (hK : ∀ v : ℕ → ℝ, (∀ k ∉ t, v k = 0) → Coo.quad K' (J v) ≤ Coo.quad K v)

include hJ hK

theorem frequencies_of (hM : ∀ v : ℕ → ℝ, (∀ k ∉ t, v k = 0) → Coo.quad M' (J v) = Coo.quad M v) (hs : Sym M)
    (hs' : Sym M') (hp : Pos t M) {φ lam φ' lam'} (h : Modes t K M φ lam) (h' : Modes t' K' M' φ' lam') {a : ℕ}
    (ha : a < t.card) : ∃ ha' : a < t'.card, lam' ⟨a, ha'⟩ ≤ lam ⟨a, ha⟩ := by
  have hc : t.card ≤ t'.card := card_le_of_map J hJ fun v hv h0 k hk => by
    by_contra hne
    have h1 := hp v ⟨k, hk, hne⟩ hv
    rw [← hM v hv, show J v = fun _ => 0 from funext h0] at h1
    have : Coo.quad M' (fun _ => 0) = 0 := by
      unfold Coo.quad
      rw [C87.bilin_on M' (∅ : Finset ℕ) (fun _ _ => rfl) fun _ _ => rfl]
      simp
    unfold Coo.quad at this h1
    rw [this] at h1
    exact lt_irrefl _ h1
  exact ⟨ha.trans_le hc, C88.compare h h' hs hs' J ha (ha.trans_le hc) hJ hK (fun v hv => by rw [hM v hv])
    fun v hne hv => by rw [hM v hv]; exact hp v hne hv⟩

theorem buckling_of (hG : ∀ v : ℕ → ℝ, (∀ k ∉ t, v k = 0) → Coo.quad G' (J v) = Coo.quad G v)
    (hi : ∀ v : ℕ → ℝ, (∀ k ∉ t, v k = 0) → (∀ k, J v k = 0) → ∀ k ∈ t, v k = 0)
    (sK : Sym K) (sK' : Sym K') (sG : Sym G) (sG' : Sym G') (hp : Pos t' K') {p : ℝ} (h0 : 0 ≤ p)
    (h : ∀ r : ℝ, 0 < r → Critical t' K' G' r → p < r) : ∀ r : ℝ, 0 < r → Critical t K G r → p < r := by
  have up : ∀ v : ℕ → ℝ, (∃ k ∈ t, v k ≠ 0) → (∀ k ∉ t, v k = 0) → ∃ k ∈ t', J v k ≠ 0 := by
    rintro v ⟨k, hk, hne⟩ hv
    by_contra hz
    refine hne (hi v hv (fun l => ?_) k hk)
    by_cases hl : l ∈ t'
    · by_contra hne
      exact hz ⟨l, hl, hne⟩
    · exact hJ v hv l hl
  have hpt : Pos t K := fun v hne hv => (hp _ (up v hne hv) (hJ v hv)).trans_le (hK v hv)
  refine (stable_iff sG sK hpt h0).1 fun v hne hv => ?_
  have h1 := (stable_iff sG' sK' hp h0).2 h (J v) (up v hne hv) (hJ v hv)
  rw [hG v hv] at h1
  have h2 := hK v hv
  linarith

theorem compliance_of (sK' : Sym K') (hp : Pos t' K') {f f' d d' : ℕ → ℝ}
    (hf : ∑ k ∈ t', f' k * J d k = ∑ k ∈ t, f k * d k) (h : Balanced t K f d) (h' : Balanced t' K' f' d') :
    ∑ k ∈ t, f k * d k ≤ ∑ k ∈ t', f' k * d' k := by
  have e1 : Coo.quad K d = ∑ k ∈ t, f k * d k := C87.bilin_balanced h h.off
  have e2 : Coo.bilin K' (J d) d' = ∑ k ∈ t', f' k * J d k := C87.bilin_balanced h' (hJ d h.off)
  have e3 : Coo.quad K' d' = ∑ k ∈ t', f' k * d' k := C87.bilin_balanced h' h'.off
  have h0 : ∀ w : ℕ → ℝ, (∀ k ∉ t', w k = 0) → 0 ≤ Coo.quad K' w := fun w hw => by
    by_cases hz : ∃ k ∈ t', w k ≠ 0
    · exact (hp w hz hw).le
    · have : ∀ k, w k = 0 := fun k => by
        by_cases hk : k ∈ t'
        · by_contra hne
          exact hz ⟨k, hk, hne⟩
        · exact hw k hk
      unfold Coo.quad
      rw [C87.bilin_on K' (∅ : Finset ℕ) (fun k _ => this k) fun k _ => this k]
      simp
  have e4 : Coo.quad K' (fun k => J d k + (-1) * d' k)
      = Coo.quad K' (J d) - 2 * Coo.bilin K' (J d) d' + Coo.quad K' d' := by
    have hc : Coo.bilin K' d' (J d) = Coo.bilin K' (J d) d' := by
      rw [C87.bilin_on K' t' h'.off (hJ d h.off), C87.bilin_on K' t' (hJ d h.off) h'.off]
      exact C79.sum_comm2 t' d' (J d) (fun k l => Coo.entry K' k l) fun k l => sK' k l
    unfold Coo.quad
    rw [Coo.bilin_add_left, Coo.bilin_add_right, Coo.bilin_add_right, hc]
    ring
  have h1 := h0 (fun k => J d k + (-1) * d' k) fun k hk => by rw [hJ d h.off k hk, h'.off k hk]; ring
  have h2 := hK d h.off
  rw [e4, e2, e3, hf] at h1
  linarith

end

/-! ## Assemblies -/

section
variable {E : Env ℝ} {A A' : Assy ℝ} {T : ℕ → Shell ℝ} {N : ℕ}

/-- The amplitudes of `A` in the model of `A'`. -/
noncomputable def wide (A A' : Assy ℝ) : (ℕ → ℝ) →ₗ[ℝ] (ℕ → ℝ) :=
  widenMap (fun p => (A.panel p).m) (fun p => (A.panel p).n) A.start (fun p => (A'.panel p).m)
    (fun p => (A'.panel p).n) A'.start A'.count

/-- The unknowns of an assembly. -/
noncomputable def free (A : Assy ℝ) : Finset ℕ := C78.actives A.count A.panel A.start

/-- The panels of `A'` after they have been built. -/
noncomputable def rebuilt (A A' : Assy ℝ) (T : ℕ → Shell ℝ) (p : ℕ) : Shell ℝ :=
  { T p with
    pan := (A'.part p).shell.pan
    nx := max (A.part p).shell.nx (A'.part p).shell.pan.m
    ny := max (A.part p).shell.ny (A'.part p).shell.pan.n
    size := some (3 * (A'.part p).shell.pan.m * (A'.part p).shell.pan.n) }

variable (hx : FreerAssy A A')
include hx

theorem panel_freer {p : ℕ} (hp : p < A.count) : Freer (A.panel p) (A'.panel p) ∧ (A'.panel p).r = (A.panel p).r := by
  obtain ⟨P, hP, e⟩ := hx.parts p hp
  have e' : A'.panel p = { P with r := (A.part p).shell.r.getD 0 } := by
    show (A'.part p).shell.panel = _
    rw [e]
    rfl
  rw [e']
  exact ⟨⟨hP.m, hP.n, hP.a, hP.b, hP.x, hP.y⟩, rfl⟩

theorem fit (h : Fit E A T) : Fit E A' (rebuilt A A' T) := by
  refine ⟨h.exact, h.smooth, hx.count ▸ h.pos, fun p hp => ?_, fun p hp => ?_, fun p hp => ?_, fun p hp => ?_,
    hx.left, fun d hd => ?_⟩
  · rw [hx.count] at hp
    obtain ⟨h1, -⟩ := panel_freer hx hp
    obtain ⟨a1, a2⟩ := h.terms p hp
    exact ⟨a1.trans_le h1.m, a2.trans_le h1.n⟩
  · rw [hx.count] at hp
    obtain ⟨P, hP, e⟩ := hx.parts p hp
    have := rebuild_pan (h.built p hp) P
    unfold rebuilt
    rw [e]
    exact this
  · rw [hx.count] at hp
    obtain ⟨h1, -⟩ := panel_freer hx hp
    obtain ⟨l, hl, k⟩ := h.stiff p hp
    have e : penOf (rebuilt A A' T p) l = penOf (T p) l := by
      have e1 : (T p).pan = (A.part p).shell.pan := by
        obtain ⟨-, -, -, -, l', -, ht⟩ := (C54.rebuild_ok_iff E _ _).1 (h.built p hp)
        rw [ht]
      have e2 : (A'.part p).shell.pan.a = (A.part p).shell.pan.a := h1.a
      have e3 : (A'.part p).shell.pan.b = (A.part p).shell.pan.b := h1.b
      simp only [penOf, rebuilt, e1, e2, e3]
    exact ⟨l, hl, e ▸ k⟩
  · rw [hx.count] at hp
    obtain ⟨h1, -⟩ := panel_freer hx hp
    obtain ⟨a1, a2⟩ := h.sides p hp
    exact ⟨(show (A'.part p).shell.pan.a = _ from h1.a) ▸ a1, (show (A'.part p).shell.pan.b = _ from h1.b) ▸ a2⟩
  · rw [hx.count]
    exact h.joined d (hx.conns.subset hd)

theorem wide_extends {p : ℕ} (hp : p < A.count) (v : ℕ → ℝ) :
    Extends (A.panel p).m (A.panel p).n (A.start p) (A'.panel p).m (A'.panel p).n (A'.start p) v (wide A A' v) := by
  refine widen_extends (m := fun p => (A.panel p).m) (n := fun p => (A.panel p).n) (s := A.start)
    (m' := fun p => (A'.panel p).m) (n' := fun p => (A'.panel p).n) (s' := A'.start) ?_ ?_ ?_ (hx.count ▸ hp) v
  · have := C98.starts_apart A'
    unfold C98.len at this
    simpa only [mul_assoc] using this
  · exact fun p hp => (panel_freer hx (hx.count ▸ hp)).1.m
  · exact fun p hp => (panel_freer hx (hx.count ▸ hp)).1.n

theorem wide_off {v : ℕ → ℝ} (hv : ∀ k ∉ free A, v k = 0) : ∀ k ∉ free A', wide A A' v k = 0 := by
  intro k hk
  by_cases hb : ∃ p < A'.count, A'.start p ≤ k ∧ k < A'.start p + 3 * ((A'.panel p).m * (A'.panel p).n)
  · obtain ⟨p, hp, hb⟩ := hb
    have hp' : p < A.count := hx.count ▸ hp
    obtain ⟨i, hi, j, hj, α, hα, rfl⟩ := exists_number (mem_Ico.2 hb)
    have hE := wide_extends hx hp' v
    by_cases hij : i < (A.panel p).m ∧ j < (A.panel p).n
    · rw [hE.1 i hij.1 j hij.2 α hα]
      refine hv _ fun ha => hk ?_
      have ha' : Spec.number (A.panel p).m (A.start p) i j α ∈ C76.actives (A.panel p) (A.start p) := by
        simp only [free, C78.actives, mem_biUnion, mem_range] at ha
        obtain ⟨q, hq, ha⟩ := ha
        have h1 := C98.in_block ha
        have h2 := number_lt (s := A.start p) hij.1 hij.2 hα
        have h3 : A.start p ≤ Spec.number (A.panel p).m (A.start p) i j α := by unfold Spec.number; omega
        rcases eq_or_ne p q with rfl | hne
        · exact ha
        · have := C98.starts_apart A p hp' q hq hne
          unfold C98.len at this h1
          rw [mul_assoc] at h1
          rw [mul_assoc, mul_assoc] at this
          omega
      simp only [free, C78.actives, mem_biUnion, mem_range]
      exact ⟨p, hp, (panel_freer hx hp').1.active hij.1 hij.2 hα ha'⟩
    · exact hE.2 i hi j hj α hα hij
  · exact widen_off v fun p hp hb' => hb ⟨p, hp, hb'⟩

/-- The same displacements. -/
theorem displacement (hH : Hier E.S N) (hN : ∀ p < A.count, (A.panel p).m ≤ N ∧ (A.panel p).n ≤ N) {p : ℕ}
    (hp : p < A.count) {v : ℕ → ℝ} (hv : ∀ k ∉ free A, v k = 0) {α : ℕ} (hα : α < 3) :
    u E.S (A'.panel p) (A'.start p) (wide A A' v) α = u E.S (A.panel p) (A.start p) v α := by
  have key : u E.S (A'.panel p) (A'.start p) (wide A A' v) α
      = u E.S (A.panel p) (A.start p) (fun k => if k ∈ C76.actives (A.panel p) (A.start p) then v k else 0) α := by
    have hE := wide_extends hx hp v
    refine (panel_freer hx hp).1.u_eq hH (hN p hp).1 (hN p hp).2 ⟨fun i hi j hj β hβ => ?_, hE.2⟩
      (fun k hk => if_neg hk) hα
    rw [hE.1 i hi j hj β hβ]
    split
    · rfl
    · rename_i hk
      refine hv _ fun ha => hk ?_
      simp only [free, C78.actives, mem_biUnion, mem_range] at ha
      obtain ⟨q, hq, ha⟩ := ha
      have h1 := C98.in_block ha
      have h2 := number_lt (s := A.start p) hi hj hβ
      have h3 : A.start p ≤ Spec.number (A.panel p).m (A.start p) i j β := by unfold Spec.number; omega
      rcases eq_or_ne p q with rfl | hne
      · exact ha
      · have := C98.starts_apart A p hp q hq hne
        unfold C98.len at this h1
        rw [mul_assoc] at h1
        rw [mul_assoc, mul_assoc] at this
        omega
  rw [key]
  refine u_block (fun k hk => ?_) hα
  show (if A.start p + k ∈ C76.actives (A.panel p) (A.start p) then v (A.start p + k) else 0) = v (A.start p + k)
  split
  · rfl
  · rename_i hn
    refine (hv _ fun ha => hn ?_).symm
    simp only [free, C78.actives, mem_biUnion, mem_range] at ha
    obtain ⟨q, hq, ha⟩ := ha
    have h1 := C98.in_block ha
    rcases eq_or_ne p q with rfl | hne
    · exact ha
    · have := C98.starts_apart A p hp q hq hne
      unfold C98.len at this h1
      omega

theorem own (hH : Hier E.S N) (hN : ∀ p < A.count, (A.panel p).m ≤ N ∧ (A.panel p).n ≤ N) {p : ℕ}
    (hp : p < A.count) {v : ℕ → ℝ} (hv : ∀ k ∉ free A, v k = 0) {α : ℕ} (hα : α < 3) :
    u E.S (A'.panel p) 0 (fun i => wide A A' v (A'.start p + i)) α
      = u E.S (A.panel p) 0 (fun i => v (A.start p + i)) α := by
  rw [u_block (S := E.S) (P := A'.panel p) (s := 0) (s' := A'.start p) (d := wide A A' v) (fun k _ => by simp) hα,
    u_block (S := E.S) (P := A.panel p) (s := 0) (s' := A.start p) (d := v) (fun k _ => by simp) hα]
  exact displacement hx hH hN hp hv hα

/-- A joint that is left stores the same energy. -/
theorem term_eq (h : Fit E A T) (hH : Hier E.S N)
    (hN : ∀ p < A.count, (A.panel p).m ≤ N ∧ (A.panel p).n ≤ N) {d : ConnD ℝ} (hd : d ∈ A'.conns)
    {e e' : (ℕ → ℝ) → ℝ} (ht : C40.Term E (A.after T) d e) (ht' : C40.Term E (A'.after (rebuilt A A' T)) d e')
    {v : ℕ → ℝ} (hv : ∀ k ∉ free A, v k = 0) : e' (wide A A' v) = e v := by
  obtain ⟨p1, p2, lA, lB, kt, kr, l1, l2, -, hk, he⟩ := h.joint (hx.conns.subset hd) ht
  obtain ⟨-, -, lA', lB', kt', kr', l1', l2', -, hk', he'⟩ := (fit hx h).joint hd ht'
  have pen : ∀ p < A.count, ∀ l, penOf (rebuilt A A' T p) l = penOf (T p) l := fun p hp l => by
    obtain ⟨h1, -⟩ := panel_freer hx hp
    have e1 : (T p).pan = (A.part p).shell.pan := by
      obtain ⟨-, -, -, -, l', -, ht⟩ := (C54.rebuild_ok_iff E _ _).1 (h.built p hp)
      rw [ht]
    have e2 : (A'.part p).shell.pan.a = (A.part p).shell.pan.a := h1.a
    have e3 : (A'.part p).shell.pan.b = (A.part p).shell.pan.b := h1.b
    simp only [penOf, rebuilt, e1, e2, e3]
  obtain rfl : lA = lA' := Option.some.inj (l1.symm.trans l1')
  obtain rfl : lB = lB' := Option.some.inj (l2.symm.trans l2')
  rw [pen _ p1, pen _ p2, hk] at hk'
  cases hk'
  have f1 := (panel_freer hx p1).1
  have f2 := (panel_freer hx p2).1
  rw [he, he']
  exact springs_other ⟨f1.a, f1.b⟩ ⟨f2.a, f2.b⟩ (fun α hα => displacement hx hH hN p1 hv hα)
    (fun α hα => displacement hx hH hN p2 hv hα) _ _ _ _ _

/-- A flat or a curved panel with the model that belongs to it. -/
def Formed (A : Assy ℝ) (T : ℕ → Shell ℝ) : Prop := ∀ p < A.count,
  (A.part p).shell.r.getD 0 = 0 ∧ (T p).model.bind kindOf = some .plate ∨
    (A.part p).shell.r.getD 0 ≠ 0 ∧ (T p).model.bind kindOf = some .cyl

/-- **C99, matrices.**  A motion of `A` is a motion of `A'` with no more strain energy, the same work of the loads on
the slopes and the same kinetic energy. -/
theorem matrices (h : Fit E A T) (hP : C92.Plain A T) (hF : Formed A T) (hH : Hier E.S N)
    (hN : ∀ p < A.count, (A.panel p).m ≤ N ∧ (A.panel p).n ≤ N) :
    ∃ k0 M k0' M', A.multi.calcKC E (some A.conns) none = .ok (k0, M) ∧
    A'.multi.calcKC E (some A'.conns) none = .ok (k0', M') ∧
    (∀ v, (∀ k ∉ free A, v k = 0) → Coo.quad k0' (wide A A' v) ≤ Coo.quad k0 v ∧
      (A'.conns = A.conns → Coo.quad k0' (wide A A' v) = Coo.quad k0 v)) ∧
    (∃ kG M1 kG' M1', M.calcKG E none = .ok (kG, M1) ∧ M'.calcKG E none = .ok (kG', M1') ∧
      ∀ v, (∀ k ∉ free A, v k = 0) → Coo.quad kG' (wide A A' v) = Coo.quad kG v) ∧
    ∃ kM M1 kM' M1', M.calcKM E = .ok (kM, M1) ∧ M'.calcKM E = .ok (kM', M1') ∧
      ∀ v, (∀ k ∉ free A, v k = 0) → Coo.quad kM' (wide A A' v) = Coo.quad kM v := by
  have h' := fit hx h
  obtain ⟨own1, o1, k0, M, es, c1, t1, w1, s1, s2, s3⟩ := h.kC
  obtain ⟨own1', o1', k0', M', es', c1', t1', w1', s1', s2', s3'⟩ := h'.kC
  obtain ⟨ownG, g1, kG, MG, g2, g3⟩ := h.kG s1 s2 s3
  obtain ⟨ownG', g1', kG', MG', g2', g3'⟩ := h'.kG s1' s2' s3'
  obtain ⟨kM, MM, m2, m3⟩ := h.kM s1 s2 s3
  obtain ⟨kM', MM', m2', m3'⟩ := h'.kM s1' s2' s3'
  rw [hx.count] at w1' g3' m3'
  have side : ∀ p < A.count, (A.part p).shell.pan.a ≠ 0 ∧ (A.part p).shell.pan.b ≠ 0 ∧
      (A'.part p).shell.pan.a ≠ 0 ∧ (A'.part p).shell.pan.b ≠ 0 := fun p hp => by
    obtain ⟨a1, a2⟩ := h.sides p hp
    obtain ⟨b1, b2⟩ := h'.sides p (hx.count.symm ▸ hp)
    exact ⟨a1.ne', a2.ne', b1.ne', b2.ne'⟩
  have keep : ∀ p < A.count, (A'.part p).shell.r = (A.part p).shell.r ∧
      (A'.part p).shell.Nxx = (A.part p).shell.Nxx ∧ (A'.part p).shell.Nyy = (A.part p).shell.Nyy ∧
      (A'.part p).shell.Nxy = (A.part p).shell.Nxy ∧ (A'.part p).shell.rho = (A.part p).shell.rho ∧
      (A'.part p).shell.offset = (A.part p).shell.offset ∧
      (C38.PreStress (A'.part p).shell → C38.PreStress (A.part p).shell) := fun p hp => by
    obtain ⟨P, -, e⟩ := hx.parts p hp
    rw [e]
    exact ⟨rfl, rfl, rfl, rfl, rfl, rfl, id⟩
  have panels : ∀ v, (∀ k ∉ free A, v k = 0) →
      ((List.range A.count).map fun k => Coo.quad (own1' k) fun i => wide A A' v (A'.start k + i)).sum
        = ((List.range A.count).map fun k => Coo.quad (own1 k) fun i => v (A.start k + i)).sum := fun v hv => by
    refine congrArg List.sum (List.map_congr_left fun p hp => ?_)
    have hp := List.mem_range.1 hp
    obtain ⟨a1, a2, b1, b2⟩ := side p hp
    obtain ⟨q1, -, -, -, -, -, q7⟩ := keep p hp
    obtain ⟨f1, f2⟩ := panel_freer hx hp
    obtain ⟨l, l1, -⟩ := h.stiff p hp
    rw [shell_kC_strain h.exact h.smooth (h.built p hp) a1 a2 (hF p hp) (hP.free p hp) l1 (hP.sym p hp l l1)
      (o1 p hp),
      shell_kC_strain h.exact h.smooth (h'.built p (hx.count.symm ▸ hp)) b1 b2 (by rw [q1]; exact hF p hp)
      (fun q => hP.free p hp (q7 q)) (lam := l) l1 (hP.sym p hp l l1) (o1' p (hx.count.symm ▸ hp))]
    exact strainWork_same f1.a f1.b f2 (fun α hα => own hx hH hN hp hv hα) _
  refine ⟨k0, M, k0', M', c1, c1', fun v hv => ⟨?_, fun hc => ?_⟩, ⟨kG, MG, kG', MG', g2, g2', fun v hv => ?_⟩,
    kM, MM, kM', MM', m2, m2', fun v hv => ?_⟩
  · rw [w1, w1', panels v hv]
    refine add_le_add le_rfl ?_
    exact forall₂_sublist hx.conns t1 t1' (fun d hd e e' he he' => term_eq hx h hH hN hd he he' hv)
      fun d hd e he => (h.conn_zero hd he v).1
  · rw [w1, w1', panels v hv]
    rw [hc] at t1'
    rw [C92.forall₂_sum t1 t1' fun d hd e e' he he' => term_eq hx h hH hN (hc ▸ hd) he he' hv]
  · rw [g3, g3']
    refine congrArg List.sum (List.map_congr_left fun p hp => ?_)
    have hp := List.mem_range.1 hp
    obtain ⟨a1, a2, b1, b2⟩ := side p hp
    obtain ⟨-, q2, q3, q4, -⟩ := keep p hp
    obtain ⟨f1, f2⟩ := panel_freer hx hp
    rw [shell_kG_slope h.exact h.smooth (h.built p hp) a1 a2 (g1 p hp),
      shell_kG_slope h.exact h.smooth (h'.built p (hx.count.symm ▸ hp)) b1 b2 (g1' p (hx.count.symm ▸ hp)), q2, q3, q4]
    exact slopeWork_same f1.a f1.b (fun α hα => own hx hH hN hp hv hα) _ _ _
  · rw [m3, m3']
    refine congrArg List.sum (List.map_congr_left fun p hp => ?_)
    have hp := List.mem_range.1 hp
    obtain ⟨-, -, -, -, q5, q6, -⟩ := keep p hp
    obtain ⟨f1, f2⟩ := panel_freer hx hp
    rw [q5, q6]
    exact kineticWork_same f1.a f1.b (fun α hα => own hx hH hN hp hv hα) _ _ _

/-- The kinetic energy of both. -/
theorem heavy (h : Fit E A T) (hH : Hier E.S N) (hN : ∀ p < A.count, (A.panel p).m ≤ N ∧ (A.panel p).n ≤ N)
    (hr : ∀ p < A.count, 0 < (A.part p).shell.rho) (ht : ∀ p < A.count, 0 < (T p).plyts.sum)
    {k0 kM : Coo ℝ} {M M1 : Multi ℝ} (hk : A.multi.calcKC E (some A.conns) none = .ok (k0, M))
    (hm : M.calcKM E = .ok (kM, M1)) : Pos (free A) kM := by
  obtain ⟨-, -, k0', M', -, c1, -, -, s1, s2, s3⟩ := h.kC
  rw [hk] at c1
  simp only [Except.ok.injEq, Prod.mk.injEq] at c1
  obtain ⟨-, rfl⟩ := c1
  obtain ⟨kM', g1, g2⟩ := h.mass hH hN hr ht s1 s2 s3
  rw [hm] at g1
  simp only [Except.ok.injEq, Prod.mk.injEq] at g1
  rw [g1.1]
  exact pos_of_assy g2

/-- A motion that is none in `A'` is none in `A`. -/
theorem wide_zero {v : ℕ → ℝ} (hv : ∀ k, wide A A' v k = 0) : ∀ k ∈ free A, v k = 0 := by
  intro k hk
  simp only [free, C78.actives, mem_biUnion, mem_range] at hk
  obtain ⟨p, hp, hk⟩ := hk
  obtain ⟨α, hα, i, hi, j, hj, -, -, rfl⟩ := (C76.mem_actives _ _ _).1 hk
  exact ((wide_extends hx hp v).1 i hi j hj α hα).symm.trans (hv _)

/-- **C99, frequencies.** -/
theorem frequencies (h : Fit E A T) (hP : C92.Plain A T) (hF : Formed A T) (hH : Hier E.S N)
    (hN : ∀ p < A.count, (A.panel p).m ≤ N ∧ (A.panel p).n ≤ N)
    (hr : ∀ p < A.count, 0 < (A.part p).shell.rho) (ht : ∀ p < A.count, 0 < (T p).plyts.sum) :
    ∃ k0 M k0' M' kM M1 kM' M1', A.multi.calcKC E (some A.conns) none = .ok (k0, M) ∧
    A'.multi.calcKC E (some A'.conns) none = .ok (k0', M') ∧ M.calcKM E = .ok (kM, M1) ∧
    M'.calcKM E = .ok (kM', M1') ∧
    ∀ φ lam φ' lam', Modes (free A) k0 kM φ lam → Modes (free A') k0' kM' φ' lam' →
      ∀ a, ∀ ha : a < (free A).card, ∃ ha' : a < (free A').card, lam' ⟨a, ha'⟩ ≤ lam ⟨a, ha⟩ := by
  obtain ⟨k0, M, k0', M', c1, c1', w, -, kM, M1, kM', M1', m1, m1', wM⟩ := matrices hx h hP hF hH hN
  refine ⟨k0, M, k0', M', kM, M1, kM', M1', c1, c1', m1, m1', fun φ lam φ' lam' e e' a ha => ?_⟩
  exact frequencies_of (wide A A') (fun v hv => wide_off hx hv) (fun v hv => (w v hv).1) wM (Multi.calcKM_sym m1)
    (Multi.calcKM_sym m1') (heavy hx h hH hN hr ht c1 m1) e e' ha

/-- **C99, buckling.**  When `A'` withstands the loads up to the factor `p`, so does `A`. -/
theorem buckling (h : Fit E A T) (hP : C92.Plain A T) (hF : Formed A T) (hH : Hier E.S N)
    (hN : ∀ p < A.count, (A.panel p).m ≤ N ∧ (A.panel p).n ≤ N) :
    ∃ k0 M k0' M' kG M1 kG' M1', A.multi.calcKC E (some A.conns) none = .ok (k0, M) ∧
    A'.multi.calcKC E (some A'.conns) none = .ok (k0', M') ∧ M.calcKG E none = .ok (kG, M1) ∧
    M'.calcKG E none = .ok (kG', M1') ∧
    (Pos (free A') k0' → Pos (free A) k0 ∧
      ∀ p : ℝ, 0 ≤ p → (∀ r : ℝ, 0 < r → Critical (free A') k0' kG' r → p < r) →
        ∀ r : ℝ, 0 < r → Critical (free A) k0 kG r → p < r) := by
  obtain ⟨k0, M, k0', M', c1, c1', w, ⟨kG, M1, kG', M1', m1, m1', wG⟩, -⟩ := matrices hx h hP hF hH hN
  refine ⟨k0, M, k0', M', kG, M1, kG', M1', c1, c1', m1, m1', fun hp => ⟨?_, fun p h0 hc => ?_⟩⟩
  · rintro v ⟨k, hk, hne⟩ hv
    refine (hp (wide A A' v) ?_ (wide_off hx hv)).trans_le (w v hv).1
    by_contra hz
    refine hne (wide_zero hx (v := v) (fun l => ?_) k hk)
    by_cases hl : l ∈ free A'
    · by_contra hne
      exact hz ⟨l, hl, hne⟩
    · exact wide_off hx hv l hl
  · exact buckling_of (wide A A') (fun v hv => wide_off hx hv) (fun v hv => (w v hv).1) wG
      (fun v _ h0 => wide_zero hx h0) (Assy.calcKC_sym c1) (Assy.calcKC_sym c1') (Multi.calcKG_sym m1)
      (Multi.calcKG_sym m1') hp h0 hc

/-- Along a loaded line both panels have the same number of terms, hence the same quadrature. -/
def SameLines (A A' : Assy ℝ) : Prop := ∀ p < A.count,
  ∀ l ∈ (A.part p).loads.distrLoads ++ (A.part p).loads.distrLoadsInc ++ (A.part p).loads.distrPds
    ++ (A.part p).loads.distrPdsInc,
    (l.x = none → (A'.panel p).m = (A.panel p).m) ∧ (l.y = none → (A'.panel p).n = (A.panel p).n)

theorem load_same {P P' : Panel ℝ} (hf : Freer P P') (L : Loads ℝ) (inc : ℝ) {s s' : ℕ} {c d : ℕ → ℝ}
    (hl : ∀ l ∈ L.distrLoads ++ L.distrLoadsInc ++ L.distrPds ++ L.distrPdsInc,
      (l.x = none → P'.m = P.m) ∧ (l.y = none → P'.n = P.n))
    (h : ∀ α < 3, Spec.field E.S P' s' d α = Spec.field E.S P s c α) :
    C67.loadWork E P' L inc s' d = C67.loadWork E P L inc s c := by
  have h0 := h 0 (by omega)
  have h1 := h 1 (by omega)
  have h2 := h 2 (by omega)
  have hp : pointWork (Spec.field E.S P' s' d) = pointWork (Spec.field E.S P s c) := by
    funext l
    simp only [pointWork, h0, h1, h2]
  have hd : ∀ l ∈ L.distrLoads ++ L.distrLoadsInc ++ L.distrPds ++ L.distrPdsInc,
      distrWork E.G P' (Spec.field E.S P' s' d) l = distrWork E.G P (Spec.field E.S P s c) l := by
    intro l hm
    obtain ⟨g1, g2⟩ := hl l hm
    simp only [distrWork, h0, h1, h2, hf.a, hf.b]
    split
    · rename_i hx _
      rw [g1 hx]
    · rename_i _ hy
      rw [g2 hy]
    · rfl
  unfold C67.loadWork constWork incWork
  simp only [List.mem_append] at hd
  rw [hp, List.map_congr_left fun l hm => hd l (.inl (.inl (.inl hm))),
    List.map_congr_left (l := L.distrLoadsInc) fun l hm => hd l (.inl (.inl (.inr hm))),
    List.map_congr_left (l := L.distrPds) fun l hm => hd l (.inl (.inr hm)),
    List.map_congr_left (l := L.distrPdsInc) fun l hm => hd l (.inr hm)]

/-- **C99, forces.**  The loads do the same work on the same motion. -/
theorem forces (h : Fit E A T) (hH : Hier E.S N) (hN : ∀ p < A.count, (A.panel p).m ≤ N ∧ (A.panel p).n ≤ N)
    (hL : ∀ p < A.count, WellFormed (A.part p).loads) (hS : SameLines A A') :
    ∃ f M f' M', A.fext E = .ok (f, M) ∧ A'.fext E = .ok (f', M') ∧ ∀ v, (∀ k ∉ free A, v k = 0) →
      ∑ k ∈ free A', f' k * wide A A' v k = ∑ k ∈ free A, f k * v k := by
  have h' := fit hx h
  have loads : ∀ p < A.count, (A'.part p).loads = (A.part p).loads := fun p hp => by
    obtain ⟨P, -, e⟩ := hx.parts p hp
    rw [e]
  obtain ⟨f, M, c1, w1⟩ := C67.fext_work E A.multi (laid_init _ _ _ _ List.nodup_range)
    (fun p => (A.part p).loads) 1 T (fun p hp => h.built p (List.mem_range.1 hp))
    (fun p hp => hL p (List.mem_range.1 hp))
  obtain ⟨f', M', c1', w1'⟩ := C67.fext_work E A'.multi (laid_init _ _ _ _ List.nodup_range)
    (fun p => (A'.part p).loads) 1 (rebuilt A A' T) (fun p hp => h'.built p (List.mem_range.1 hp))
    (fun p hp => by
      have hp' : p < A.count := hx.count ▸ List.mem_range.1 hp
      rw [loads p hp']
      exact hL p hp')
  refine ⟨f, M, f', M', c1, c1', fun v hv => ?_⟩
  have inside : ∀ B : Assy ℝ, free B ⊆ range B.multi.getSize := fun B k hk => by
    simp only [free, C78.actives, mem_biUnion, mem_range] at hk
    obtain ⟨p, hp, hk⟩ := hk
    rw [mem_range, C92.size_eq]
    exact (C98.covers B _).1 ⟨p, hp, C98.in_block hk⟩
  rw [Finset.sum_subset (inside A) fun k _ hk => by rw [hv k hk, mul_zero],
    Finset.sum_subset (inside A') fun k _ hk => by rw [wide_off hx hv k hk, mul_zero], w1, w1']
  have n1 : A.multi.panels = List.range A.count := rfl
  have n2 : A'.multi.panels = List.range A.count := by rw [← hx.count]; rfl
  rw [n1, n2, List.length_range]
  refine congrArg List.sum (List.map_congr_left fun p hp => ?_)
  have hp := List.mem_range.1 hp
  have gp : (List.range A.count).getD p 0 = p := by simp [List.getD, hp]
  rw [gp, loads p hp]
  have d1 : C40.start A'.multi.shells (List.range A.count) p = A'.start p := by
    rw [← hx.count]; rfl
  have d2 : C40.start A.multi.shells (List.range A.count) p = A.start p := rfl
  rw [d1, d2]
  refine load_same hx (P := A.panel p) (P' := A'.panel p) (panel_freer hx hp).1 _ _ (hS p hp) fun α hα => ?_
  funext x y
  rw [C92.field_u, C92.field_u, displacement hx hH hN hp hv hα]

/-- **C99, static analysis.**  The loads do no less work. -/
theorem compliance (h : Fit E A T) (hP : C92.Plain A T) (hF : Formed A T) (hH : Hier E.S N)
    (hN : ∀ p < A.count, (A.panel p).m ≤ N ∧ (A.panel p).n ≤ N) (hL : ∀ p < A.count, WellFormed (A.part p).loads)
    (hS : SameLines A A') :
    ∃ k0 M k0' M' f M1 f' M1', A.multi.calcKC E (some A.conns) none = .ok (k0, M) ∧
    A'.multi.calcKC E (some A'.conns) none = .ok (k0', M') ∧ A.fext E = .ok (f, M1) ∧ A'.fext E = .ok (f', M1') ∧
    (Pos (free A') k0' → ∀ d d', Balanced (free A) k0 f d → Balanced (free A') k0' f' d' →
      ∑ k ∈ free A, f k * d k ≤ ∑ k ∈ free A', f' k * d' k) := by
  obtain ⟨k0, M, k0', M', c1, c1', w, -⟩ := matrices hx h hP hF hH hN
  obtain ⟨f, M1, f', M1', e1, e1', wf⟩ := forces hx h hH hN hL hS
  refine ⟨k0, M, k0', M', f, M1, f', M1', c1, c1', e1, e1', fun hp d d' hb hb' => ?_⟩
  exact compliance_of (wide A A') (fun v hv => wide_off hx hv) (fun v hv => (w v hv).1) (Assy.calcKC_sym c1') hp
    (wf d hb.off) hb hb'

end

/-! ## Example -/

/-- A skin with three more terms along x, whose first edge may deflect. -/
noncomputable def loose : Panel ℝ := { Witness.panel with m := 8, xw := ⟨1, 0, 0, 1⟩ }

/-- The assembly of `C95` with such skins, and without the bond between them. -/
noncomputable def assy' : Assy ℝ :=
  ⟨fun p => ⟨"panel", 0, 0, if p = 1 then C95.flange else { C95.skin with pan := loose }, C89.loads⟩, 3,
   C95.conns.take 2⟩

theorem freer : FreerAssy C95.assy assy' where
  count := rfl
  parts p _ := by
    by_cases hp : p = 1
    · refine ⟨C95.flange.pan, ?_, ?_⟩
      · simp only [C95.assy, hp, if_true]
        exact ⟨le_rfl, le_rfl, rfl, rfl, fun _ _ _ _ => rfl, fun _ _ _ _ => rfl⟩
      · simp only [C95.assy, assy', hp, if_true]
    · refine ⟨loose, ?_, ?_⟩
      · simp only [C95.assy, hp, if_false]
        refine ⟨by simp [C95.skin, loose, Witness.panel], le_rfl, rfl, rfl, fun α hα i hi => ?_, fun _ _ _ _ => rfl⟩
        interval_cases α
        · rfl
        · rfl
        · revert hi
          match i with
          | 0 => simp [Panel.xf, loose, C95.skin, Witness.panel, flag]
          | 1 => simp [Panel.xf, loose, C95.skin, Witness.panel, flag]
          | 2 => simp [Panel.xf, loose, C95.skin, Witness.panel, flag]
          | 3 => simp [Panel.xf, loose, C95.skin, Witness.panel, flag]
          | i + 4 => simp [Panel.xf, loose, C95.skin, Witness.panel, flag]
      · simp only [C95.assy, assy', hp, if_false]
  conns := List.take_sublist 2 C95.conns
  left := by simp [assy', C95.conns]

theorem lines : SameLines C95.assy assy' := by
  intro p _ l hl
  have : l = ⟨some 3, none, some fun y => y, none, some fun y => y ^ 2⟩ := by
    simpa [C95.assy, C89.loads] using hl
  subst this
  refine ⟨fun h => by simp at h, fun _ => ?_⟩
  by_cases hp : p = 1 <;>
    simp [C95.assy, assy', Assy.panel, Shell.panel, hp, C95.flange, C95.skin, C89.part, loose, Witness.panel]

example : ∃ k0 M k0' M' kM M1 kM' M1', C95.assy.multi.calcKC C95.env (some C95.assy.conns) none = .ok (k0, M) ∧
    assy'.multi.calcKC C95.env (some assy'.conns) none = .ok (k0', M') ∧ M.calcKM C95.env = .ok (kM, M1) ∧
    M'.calcKM C95.env = .ok (kM', M1') ∧
    (∀ φ lam φ' lam', Modes (free C95.assy) k0 kM φ lam → Modes (free assy') k0' kM' φ' lam' →
      ∀ a, ∀ ha : a < (free C95.assy).card, ∃ ha' : a < (free assy').card, lam' ⟨a, ha'⟩ ≤ lam ⟨a, ha⟩) ∧
    ∃ f M2 f' M2', C95.assy.fext C95.env = .ok (f, M2) ∧ assy'.fext C95.env = .ok (f', M2') ∧
      (Pos (free assy') k0' → ∀ d d', Balanced (free C95.assy) k0 f d → Balanced (free assy') k0' f' d' →
        ∑ k ∈ free C95.assy, f k * d k ≤ ∑ k ∈ free assy', f' k * d' k) := by
  obtain ⟨T, T', h, hx, -, hP, -⟩ := C95.ready
  have hF : Formed C95.assy T := fun p hp => (hx.parts p hp).shape.imp id fun q => ⟨q.1, q.2.1⟩
  have hN : ∀ p < C95.assy.count, (C95.assy.panel p).m ≤ 7 ∧ (C95.assy.panel p).n ≤ 7 := fun p _ => by
    by_cases hp : p = 1 <;>
      simp [C95.assy, Assy.panel, Shell.panel, hp, C95.flange, C95.skin, C89.part, Witness.panel]
  have hr : ∀ p < C95.assy.count, 0 < (C95.assy.part p).shell.rho := fun p _ => by
    by_cases hp : p = 1 <;> simp [C95.assy, hp, C95.flange, C95.skin, C40.shell]
  have ht : ∀ p < C95.assy.count, 0 < (T p).plyts.sum := fun p hp => by
    obtain ⟨-, -, -, -, l', -, ht⟩ := (C54.rebuild_ok_iff C95.env _ _).1 (h.built p hp)
    rw [ht]
    by_cases hp : p = 1 <;> simp [C95.assy, hp, C95.flange, C95.skin, C40.shell, orFill]
  have hH : Hier C95.env.S 7 := exact_hier 7
  obtain ⟨k0, M, k0', M', kM, M1, kM', M1', c1, c2, m1, m2, w⟩ := frequencies freer h hP hF hH hN hr ht
  obtain ⟨q0, N, q0', N', f, M2, f', M2', b1, b2, f1, f2, w2⟩ :=
    compliance freer h hP hF hH hN (fun _ _ => C89.loads_wf) lines
  cases c1.symm.trans b1
  cases c2.symm.trans b2
  exact ⟨k0, M, k0', M', kM, M1, kM', M1', c1, c2, m1, m2, w, f, M2, f', M2', f1, f2, w2⟩

end Verif.C99
