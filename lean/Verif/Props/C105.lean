import Verif.Proofs.FreerBay
import Verif.Props.C99
import Verif.Props.C102

/-!
# C105: a bay that admits more motions is never stiffer

With more terms in skin, bases and flanges, and fewer of their edges held, a stiffened bay admits the motions it
had.  It stores the same energy in each of them, on its amplitudes at other places of the matrix.  Hence no
frequency rises, no buckling load rises and the loads do no less work.
-/

set_option linter.unusedSectionVars false

namespace Verif.C105

open Finset Spec Model Indep C80 C81

variable {E : BayEnv ℝ} {B B' R R' : Bay ℝ} {N N' n : ℕ}

/-- The amplitudes of `R` in the model of `R'`. -/
noncomputable def wide (R R' : Bay ℝ) : (ℕ → ℝ) →ₗ[ℝ] (ℕ → ℝ) :=
  widenMap (fun p => (bayPanel R p).m) (fun p => (bayPanel R p).n) (bayStart R) (fun p => (bayPanel R' p).m)
    (fun p => (bayPanel R' p).n) (bayStart R') (R'.blade2.length + 1)

theorem sep (hf : ∀ s ∈ R.blade2, ∃ f, s.flange = some f) :
    Verif.Apart (bayStart R) (fun p => 3 * ((bayPanel R p).m * (bayPanel R p).n)) (R.blade2.length + 1) := by
  have h : C102.Enough false false R := ⟨hf, ⟨fun hc => (by cases hc), fun hc => (by cases hc)⟩, fun _ _ _ _ hc => (by cases hc)⟩
  intro p hp q hq hne
  rcases Nat.lt_or_gt_of_ne hne with hl | hl
  · exact .inl (C102.start_sep h p q hl hq)
  · exact .inr (C102.start_sep h q p hl hp)

section
variable (hx : FreerBay R R') (hf : ∀ s ∈ R.blade2, ∃ f, s.flange = some f)
include hx

theorem count : R'.blade2.length = R.blade2.length := hx.blade2.length_eq.symm

/-- A flange in both bays. -/
theorem flange_pair {i : ℕ} {s s' : Blade2 ℝ} {f : Shell ℝ} (hs : R.blade2[i]? = some s)
    (hs' : R'.blade2[i]? = some s') (hsf : s.flange = some f) : ∃ f', s'.flange = some f' ∧ FreerShell f f' ∧
      bayPanel R (i + 1) = f.panel ∧ bayPanel R' (i + 1) = f'.panel := by
  obtain ⟨s0, h0, o, o', -, hr, e⟩ := forall₂_at hx.blade2 hs
  cases hs'.symm.trans h0
  rw [hsf] at hr
  cases hr with
  | @some _ f' r =>
    have e' : s'.flange = some f' := by rw [e]
    exact ⟨f', e', r, by simp [bayPanel, flangePanel, hs, hsf], by simp [bayPanel, flangePanel, hs', e']⟩

include hf

theorem flanges' : ∀ s ∈ R'.blade2, ∃ f, s.flange = some f := fun s' hs' => by
  obtain ⟨i, hi, e⟩ := List.mem_iff_getElem.1 hs'
  have h1 : R'.blade2[i]? = some s' := by rw [List.getElem?_eq_getElem hi, e]
  have hi' : i < R.blade2.length := count hx ▸ hi
  have h2 := List.getElem?_eq_getElem hi'
  obtain ⟨f, hsf⟩ := hf _ (List.mem_of_getElem? h2)
  obtain ⟨f', e', -⟩ := flange_pair hx h2 h1 hsf
  exact ⟨f', e'⟩

theorem part_freer {p : ℕ} (hp : p < R.blade2.length + 1) : Freer (bayPanel R p) (bayPanel R' p) := by
  cases p with
  | zero => exact hx.skin
  | succ i =>
    have hs := List.getElem?_eq_getElem (show i < R.blade2.length by omega)
    obtain ⟨f, hsf⟩ := hf _ (List.mem_of_getElem? hs)
    obtain ⟨s', hs', -⟩ := forall₂_at hx.blade2 hs
    obtain ⟨f', -, r, e1, e2⟩ := flange_pair hx hs hs' hsf
    rw [e1, e2]
    exact r.panel.1

theorem wide_extends {p : ℕ} (hp : p < R.blade2.length + 1) (v : ℕ → ℝ) :
    Extends (bayPanel R p).m (bayPanel R p).n (bayStart R p) (bayPanel R' p).m (bayPanel R' p).n (bayStart R' p) v
      (wide R R' v) := by
  have hc := count hx
  exact widen_extends (m := fun p => (bayPanel R p).m) (n := fun p => (bayPanel R p).n) (s := bayStart R)
    (m' := fun p => (bayPanel R' p).m) (n' := fun p => (bayPanel R' p).n) (s' := bayStart R') (sep (flanges' hx hf))
    (fun p hp => (part_freer hx hf (hc ▸ hp)).m) (fun p hp => (part_freer hx hf (hc ▸ hp)).n) (hc ▸ hp) v

/-- An unknown in the block of a part belongs to that part. -/
theorem of_block {p k : ℕ} (hp : p < R.blade2.length + 1) (h1 : bayStart R p ≤ k)
    (h2 : k < bayStart R p + 3 * ((bayPanel R p).m * (bayPanel R p).n)) (hk : k ∈ C81.actives R) :
    k ∈ C76.actives (bayPanel R p) (bayStart R p) := by
  simp only [C81.actives, C78.actives, mem_biUnion, mem_range] at hk
  obtain ⟨q, hq, ha⟩ := hk
  rcases eq_or_ne p q with rfl | hne
  · exact ha
  · have h3 := C101.in_block ha
    have := sep hf p hp q hq hne
    simp only at this
    omega

theorem wide_off {v : ℕ → ℝ} (hv : ∀ k ∉ C81.actives R, v k = 0) : ∀ k ∉ C81.actives R', wide R R' v k = 0 := by
  intro k hk
  by_cases hb : ∃ p < R'.blade2.length + 1, bayStart R' p ≤ k ∧
      k < bayStart R' p + 3 * ((bayPanel R' p).m * (bayPanel R' p).n)
  · obtain ⟨p, hp, hb⟩ := hb
    have hp' : p < R.blade2.length + 1 := count hx ▸ hp
    obtain ⟨i, hi, j, hj, α, hα, rfl⟩ := exists_number (mem_Ico.2 hb)
    have hE := wide_extends hx hf hp' v
    by_cases hij : i < (bayPanel R p).m ∧ j < (bayPanel R p).n
    · rw [hE.1 i hij.1 j hij.2 α hα]
      refine hv _ fun ha => hk ?_
      have ha' := of_block hx hf hp' (by unfold Spec.number; omega) (number_lt hij.1 hij.2 hα) ha
      simp only [C81.actives, C78.actives, mem_biUnion, mem_range]
      exact ⟨p, hp, (part_freer hx hf hp').active hij.1 hij.2 hα ha'⟩
    · exact hE.2 i hi j hj α hα hij
  · exact widen_off v fun p hp hb' => hb ⟨p, hp, hb'⟩

/-- A motion that is none in `R'` is none in `R`. -/
theorem wide_zero {v : ℕ → ℝ} (hv : ∀ k, wide R R' v k = 0) : ∀ k ∈ C81.actives R, v k = 0 := by
  intro k hk
  simp only [C81.actives, C78.actives, mem_biUnion, mem_range] at hk
  obtain ⟨p, hp, hk⟩ := hk
  obtain ⟨α, hα, i, hi, j, hj, -, -, rfl⟩ := (C76.mem_actives _ _ _).1 hk
  exact ((wide_extends hx hf hp v).1 i hi j hj α hα).symm.trans (hv _)

/-- **C105, displacements.**  The same at every point of skin and flanges. -/
theorem displacement {S : Shape ℝ} (hH : Hier S n)
    (hN : ∀ p < R.blade2.length + 1, (bayPanel R p).m ≤ n ∧ (bayPanel R p).n ≤ n) {p : ℕ}
    (hp : p < R.blade2.length + 1) {v : ℕ → ℝ} (hv : ∀ k ∉ C81.actives R, v k = 0) {α : ℕ} (hα : α < 3) :
    u S (bayPanel R' p) (bayStart R' p) (wide R R' v) α = u S (bayPanel R p) (bayStart R p) v α := by
  have key : u S (bayPanel R' p) (bayStart R' p) (wide R R' v) α = u S (bayPanel R p) (bayStart R p)
      (fun k => if k ∈ C76.actives (bayPanel R p) (bayStart R p) then v k else 0) α := by
    have hE := wide_extends hx hf hp v
    refine (part_freer hx hf hp).u_eq hH (hN p hp).1 (hN p hp).2 ⟨fun i hi j hj β hβ => ?_, hE.2⟩
      (fun k hk => if_neg hk) hα
    rw [hE.1 i hi j hj β hβ]
    split
    · rfl
    · rename_i hk
      exact hv _ fun ha => hk (of_block hx hf hp (by unfold Spec.number; omega) (number_lt hi hj hβ) ha)
  rw [key]
  refine u_block (fun k hk => ?_) hα
  show (if bayStart R p + k ∈ C76.actives (bayPanel R p) (bayStart R p) then v (bayStart R p + k) else 0)
    = v (bayStart R p + k)
  split
  · rfl
  · rename_i hn
    exact (hv _ fun ha => hn (of_block hx hf hp (by omega) (by rw [← mul_assoc]; omega) ha)).symm

end

/-! ## Matrices -/

section
variable (hx : FreerBay R R') (h : SolidBay E B R N) (h' : SolidBay E B' R' N') (hH : Hier E.S n)
  (hN : ∀ p < R.blade2.length + 1, (bayPanel R p).m ≤ n ∧ (bayPanel R p).n ≤ n)
include hx h h' hH hN

section
variable {v : ℕ → ℝ} (hv : ∀ k ∉ C81.actives R, v k = 0)
include hv

theorem skin_u : ∀ α < 3, u E.S R'.skin 0 (wide R R' v) α = u E.S R.skin 0 v α := fun _ hα =>
  displacement hx (C101.flanges h) hH hN (Nat.succ_pos _) hv hα

/-- A shell in the plane of the skin. -/
theorem plane_u {s s' : Shell ℝ} {t t' lam lam'} (hs : Sheet E.toEnv (bayPanel R 0) s t lam)
    (hs' : Sheet E.toEnv (bayPanel R' 0) s' t' lam') : s.pan.a ≠ 0 ∧ s.pan.b ≠ 0 ∧
    ∀ α < 3, u E.S s'.panel 0 (fun i => wide R R' v (0 + i)) α = u E.S s.panel 0 (fun i => v (0 + i)) α := by
  have hab := hs.side_ne (show R.skin.a ≠ 0 from h.sides.1.ne') (show R.skin.b ≠ 0 from h.sides.2.ne')
  refine ⟨hab.1, hab.2, fun α hα => ?_⟩
  obtain ⟨x1, x2, y1, y2, e⟩ := hs.plan
  obtain ⟨z1, z2, w1, w2, e'⟩ := hs'.plan
  simp only [Nat.zero_add]
  rw [e, e']
  exact skin_u hx h h' hH hN hv α hα

/-- A flange. -/
theorem flange_u {i : ℕ} {s : Blade2 ℝ} {f f' : Shell ℝ} (hs : R.blade2[i]? = some s) (hsf : s.flange = some f)
    (e : bayPanel R (i + 1) = f.panel) (e' : bayPanel R' (i + 1) = f'.panel) : f.pan.a ≠ 0 ∧ f.pan.b ≠ 0 ∧
    (∀ α < 3, u E.S f'.panel (C52.start R' i) (wide R R' v) α = u E.S f.panel (C52.start R i) v α) ∧
    ∀ α < 3, u E.S f'.panel 0 (fun k => wide R R' v (C52.start R' i + k)) α
      = u E.S f.panel 0 (fun k => v (C52.start R i + k)) α := by
  obtain ⟨fa, fb, -⟩ := h.flange s (List.mem_of_getElem? hs) f hsf
  have key : ∀ α < 3, u E.S f'.panel (C52.start R' i) (wide R R' v) α = u E.S f.panel (C52.start R i) v α :=
    fun α hα => by
      have := displacement hx (C101.flanges h) hH hN (p := i + 1)
        (by have := (List.getElem?_eq_some_iff.1 hs).1; omega) hv hα
      rwa [e, e', bayStart_succ, bayStart_succ] at this
  refine ⟨by rw [fa]; exact h.sides.1.ne', fb.ne', key, fun α hα => ?_⟩
  rw [u_block (S := E.S) (P := f'.panel) (s := 0) (s' := C52.start R' i) (d := wide R R' v) (fun k _ => by simp) hα,
    u_block (S := E.S) (P := f.panel) (s := 0) (s' := C52.start R i) (d := v) (fun k _ => by simp) hα]
  exact key α hα

end

/-- Sums over the parts. -/
theorem sums {Pp Pp' : Shell ℝ → ((ℕ → ℝ) → ℝ) → Prop} {P1 P1' : Blade1 ℝ → ((ℕ → ℝ) → ℝ) → Prop}
    {P2 P2' : ℕ → Blade2 ℝ → ((ℕ → ℝ) → ℝ) → Prop} {Qp Q1 Q2 Qp' Q1' Q2' : List ((ℕ → ℝ) → ℝ)} {v w : ℕ → ℝ}
    (ep : List.Forall₂ Pp R.panels Qp) (ep' : List.Forall₂ Pp' R'.panels Qp')
    (e1 : List.Forall₂ P1 R.blade1 Q1) (e1' : List.Forall₂ P1' R'.blade1 Q1')
    (l2 : Q2.length = R.blade2.length) (l2' : Q2'.length = R'.blade2.length)
    (e2 : ∀ i s q, R.blade2[i]? = some s → Q2[i]? = some q → P2 (C52.start R i) s q)
    (e2' : ∀ i s q, R'.blade2[i]? = some s → Q2'[i]? = some q → P2' (C52.start R' i) s q)
    (hp : ∀ p ∈ R.panels, ∀ p' ∈ R'.panels, FreerShell p p' → ∀ q q', Pp p q → Pp' p' q' → q' w = q v)
    (h1 : ∀ s ∈ R.blade1, ∀ s' ∈ R'.blade1, FreerBlade1 s s' → ∀ q q', P1 s q → P1' s' q' → q' w = q v)
    (h2 : ∀ i s s' q q', R.blade2[i]? = some s → R'.blade2[i]? = some s' → FreerBlade2 s s' →
      P2 (C52.start R i) s q → P2' (C52.start R' i) s' q' → q' w = q v) :
    (Qp'.map fun q => q w).sum + (Q1'.map fun q => q w).sum + (Q2'.map fun q => q w).sum
      = (Qp.map fun q => q v).sum + (Q1.map fun q => q v).sum + (Q2.map fun q => q v).sum := by
  have a := sum_both hx.panels ep ep' (v := v) (w := w) hp
  have b := sum_both hx.blade1 e1 e1' (v := v) (w := w) h1
  have c := sum_indexed (σ := Equiv.refl ℕ) (n := R.blade2.length) (fun _ => Iff.rfl) l2 (l2'.trans (count hx)) (v := v)
    (w := w) fun i hi q q' hq hq' => by
    have hs := List.getElem?_eq_getElem hi
    obtain ⟨s', hs', r⟩ := forall₂_at hx.blade2 hs
    exact h2 i _ s' q q' hs hs' r (e2 i _ q hs hq) (e2' i s' q' hs' hq')
  rw [a, b, c]

/-- **C105, stiffness.** -/
theorem stiffness : ∃ k0 B1 k0' B1', B.calcKC E = .ok (k0, B1) ∧ B'.calcKC E = .ok (k0', B1') ∧
    ∀ v, (∀ k ∉ C81.actives R, v k = 0) → Coo.quad k0' (wide R R' v) = Coo.quad k0 v := by
  obtain ⟨⟨k0, B1⟩, c⟩ := C57.kC_exists E B R N h.terms h.panels h.rebuilt h.size h.ready
  obtain ⟨⟨k0', B1'⟩, c'⟩ := C57.kC_exists E B' R' N' h'.terms h'.panels h'.rebuilt h'.size h'.ready
  refine ⟨k0, B1, k0', B1', c, c', fun v hv => ?_⟩
  obtain ⟨R0, N0, r0, n0, Qp, Q1, Q2, ep, e1, l2, e2, w⟩ := C52.kC_energy E B B1 k0 h.terms c
  obtain ⟨R0', N0', r0', n0', Qp', Q1', Q2', ep', e1', l2', e2', w'⟩ := C52.kC_energy E B' B1' k0' h'.terms c'
  cases r0.symm.trans h.rebuilt
  cases r0'.symm.trans h'.rebuilt
  rw [w, w']
  have hu := skin_u hx h h' hH hN hv
  have plane : ∀ {s s' : Shell ℝ} {q q' : (ℕ → ℝ) → ℝ}, (∃ t lam, Sheet E.toEnv (bayPanel R 0) s t lam) →
      (∃ t lam, Sheet E.toEnv (bayPanel R' 0) s' t lam) → FreerShell s s' →
      C52.Own (fun b => b.calcKC E.toEnv {}) 0 (some s) q → C52.Own (fun b => b.calcKC E.toEnv {}) 0 (some s') q' →
      q' (wide R R' v) = q v := by
    rintro s s' q q' ⟨t, lam, hs⟩ ⟨t', lam', hs'⟩ r o o'
    obtain ⟨a1, a2, a3⟩ := plane_u hx h h' hH hN hv hs hs'
    exact more_kC h.exact h.smooth r a1 a2 a3 hs hs' o o'
  refine sums hx h h' hH hN ep ep' e1 e1' l2 l2' e2 e2' (fun p hp p' hp' r q q' hq hq' => ?_)
    (fun s hs s' hs' r q q' hq hq' => ?_) fun i s s' q q' hs hs' r hq hq' => ?_
  · exact plane (h.skin p hp) (h'.skin p' hp') r hq hq'
  · obtain ⟨qb, qf, o, f, a⟩ := hq
    obtain ⟨qb', qf', o', f', a'⟩ := hq'
    rw [a, a', beam_more h.exact h.smooth hx.skin h.sides.1.ne' h.sides.2.ne' hu r f f']
    obtain ⟨z, hz, ez⟩ := r
    have ez' : s'.base = z := by rw [ez]
    rw [own_opt (ez' ▸ hz) o o' (v := v) (w := wide R R' v) fun b b' eb eb' rb => ?_]
    rw [eb] at o
    rw [eb'] at o'
    exact plane (h.base1 s hs b eb) (h'.base1 s' hs' b' eb') rb o o'
  · obtain ⟨qb, qf, qj, o, f, j, a⟩ := hq
    obtain ⟨qb', qf', qj', o', f', j', a'⟩ := hq'
    have hmem := List.mem_of_getElem? hs
    have hmem' := List.mem_of_getElem? hs'
    obtain ⟨x, hxf⟩ := C101.flanges h s hmem
    obtain ⟨x', hxf', rf, ex, ex'⟩ := flange_pair hx hs hs' hxf
    obtain ⟨xa, xb, xu, xv⟩ := flange_u hx h h' hH hN hv hs hxf ex ex'
    have c1 : qb' (wide R R' v) = qb v := by
      obtain ⟨z, z', hz, -, ez⟩ := id r
      have ez' : s'.base = z := by rw [ez]
      refine own_opt (ez' ▸ hz) o o' fun b b' eb eb' rb => ?_
      rw [eb] at o
      rw [eb'] at o'
      exact plane (h.base2 s hmem b eb) (h'.base2 s' hmem' b' eb') rb o o'
    have c2 : qf' (wide R R' v) = qf v := by
      obtain ⟨-, -, t, lam, hsh⟩ := h.flange s hmem x hxf
      obtain ⟨-, -, t', lam', hsh'⟩ := h'.flange s' hmem' x' hxf'
      rw [hxf] at f
      rw [hxf'] at f'
      exact more_kC h.exact h.smooth rf xa xb xv hsh hsh' f f'
    have c3 : qj' (wide R R' v) = qj v :=
      joint_more h.exact h.smooth hx.skin h.sides.1.ne' h.sides.2.ne' hu hx.panels r hxf hxf' rf xa xb
        (C101.after_skin R i) (C101.after_skin R' i) xu j j'
    rw [a, a', c1, c2, c3]

/-- **C105, geometric stiffness.** -/
theorem geometric : ∃ kG B1 kG' B1', B.calcKG E none = .ok (kG, B1) ∧ B'.calcKG E none = .ok (kG', B1') ∧
    ∀ v, (∀ k ∉ C81.actives R, v k = 0) → Coo.quad kG' (wide R R' v) = Coo.quad kG v := by
  obtain ⟨⟨k0, B1⟩, c⟩ := C57.kG_exists E B R N h.terms h.panels h.rebuilt h.size h.ready
  obtain ⟨⟨k0', B1'⟩, c'⟩ := C57.kG_exists E B' R' N' h'.terms h'.panels h'.rebuilt h'.size h'.ready
  refine ⟨k0, B1, k0', B1', c, c', fun v hv => ?_⟩
  obtain ⟨R0, N0, r0, n0, Qp, Q1, Q2, ep, e1, l2, e2, w⟩ := C52.kG_energy E B B1 k0 h.terms c
  obtain ⟨R0', N0', r0', n0', Qp', Q1', Q2', ep', e1', l2', e2', w'⟩ := C52.kG_energy E B' B1' k0' h'.terms c'
  cases r0.symm.trans h.rebuilt
  cases r0'.symm.trans h'.rebuilt
  rw [w, w']
  have hu := skin_u hx h h' hH hN hv
  refine sums hx h h' hH hN (P2 := fun off s q => C52.Own (fun b => b.calcKG E.toEnv {}) off s.flange q)
    (P2' := fun off s q => C52.Own (fun b => b.calcKG E.toEnv {}) off s.flange q)
    ep ep' e1 e1' l2 l2' e2 e2' (fun p hp p' hp' r q q' hq hq' => ?_)
    (fun s hs s' hs' r q q' hq hq' => ?_) fun i s s' q q' hs hs' r hq hq' => ?_
  · obtain ⟨t, lam, hs⟩ := h.skin p hp
    obtain ⟨t', lam', hs'⟩ := h'.skin p' hp'
    obtain ⟨a1, a2, a3⟩ := plane_u hx h h' hH hN hv hs hs'
    exact more_kG h.exact h.smooth r a1 a2 a3 hs hs' hq hq'
  · exact beamG_more h.exact h.smooth hx.skin h.sides.1.ne' h.sides.2.ne' hu r hq hq'
  · have hmem := List.mem_of_getElem? hs
    have hmem' := List.mem_of_getElem? hs'
    obtain ⟨x, hxf⟩ := C101.flanges h s hmem
    obtain ⟨x', hxf', rf, ex, ex'⟩ := flange_pair hx hs hs' hxf
    obtain ⟨xa, xb, -, xv⟩ := flange_u hx h h' hH hN hv hs hxf ex ex'
    obtain ⟨-, -, t, lam, hsh⟩ := h.flange s hmem x hxf
    obtain ⟨-, -, t', lam', hsh'⟩ := h'.flange s' hmem' x' hxf'
    rw [hxf] at hq
    rw [hxf'] at hq'
    exact more_kG h.exact h.smooth rf xa xb xv hsh hsh' hq hq'

/-- **C105, mass.**  Of bays whose mass matrices exist, see `C57`. -/
theorem mass {kM kM' : Coo ℝ} {B1 B1' : Bay ℝ} (c : B.calcKM E = .ok (kM, B1)) (c' : B'.calcKM E = .ok (kM', B1')) :
    ∀ v, (∀ k ∉ C81.actives R, v k = 0) → Coo.quad kM' (wide R R' v) = Coo.quad kM v := by
  intro v hv
  obtain ⟨R0, N0, r0, n0, Qp, Q1, Q2, ep, e1, l2, e2, w⟩ := C52.kM_energy E B B1 kM h.terms c
  obtain ⟨R0', N0', r0', n0', Qp', Q1', Q2', ep', e1', l2', e2', w'⟩ := C52.kM_energy E B' B1' kM' h'.terms c'
  cases r0.symm.trans h.rebuilt
  cases r0'.symm.trans h'.rebuilt
  rw [w, w']
  have hu := skin_u hx h h' hH hN hv
  have plane : ∀ {s s' : Shell ℝ} {q q' : (ℕ → ℝ) → ℝ}, (∃ t lam, Sheet E.toEnv (bayPanel R 0) s t lam) →
      (∃ t lam, Sheet E.toEnv (bayPanel R' 0) s' t lam) → FreerShell s s' →
      C52.Own (C52.massOf E) 0 (some s) q → C52.Own (C52.massOf E) 0 (some s') q' → q' (wide R R' v) = q v := by
    rintro s s' q q' ⟨t, lam, hs⟩ ⟨t', lam', hs'⟩ r o o'
    obtain ⟨a1, a2, a3⟩ := plane_u hx h h' hH hN hv hs hs'
    exact more_kM h.exact h.smooth r a1 a2 a3 o o'
  refine sums hx h h' hH hN ep ep' e1 e1' l2 l2' e2 e2' (fun p hp p' hp' r q q' hq hq' => ?_)
    (fun s hs s' hs' r q q' hq hq' => ?_) fun i s s' q q' hs hs' r hq hq' => ?_
  · exact plane (h.skin p hp) (h'.skin p' hp') r hq hq'
  · obtain ⟨qb, qf, o, f, a⟩ := hq
    obtain ⟨qb', qf', o', f', a'⟩ := hq'
    rw [a, a', beamM_more h.exact h.smooth hx.skin h.sides.1.ne' h.sides.2.ne' hu hx.panels r f f']
    obtain ⟨z, hz, ez⟩ := r
    have ez' : s'.base = z := by rw [ez]
    rw [own_opt (ez' ▸ hz) o o' (v := v) (w := wide R R' v) fun b b' eb eb' rb => ?_]
    rw [eb] at o
    rw [eb'] at o'
    exact plane (h.base1 s hs b eb) (h'.base1 s' hs' b' eb') rb o o'
  · obtain ⟨qb, qf, o, f, a⟩ := hq
    obtain ⟨qb', qf', o', f', a'⟩ := hq'
    have hmem := List.mem_of_getElem? hs
    have hmem' := List.mem_of_getElem? hs'
    obtain ⟨x, hxf⟩ := C101.flanges h s hmem
    obtain ⟨x', hxf', rf, ex, ex'⟩ := flange_pair hx hs hs' hxf
    obtain ⟨xa, xb, -, xv⟩ := flange_u hx h h' hH hN hv hs hxf ex ex'
    have c1 : qb' (wide R R' v) = qb v := by
      obtain ⟨z, z', hz, -, ez⟩ := id r
      have ez' : s'.base = z := by rw [ez]
      refine own_opt (ez' ▸ hz) o o' fun b b' eb eb' rb => ?_
      rw [eb] at o
      rw [eb'] at o'
      exact plane (h.base2 s hmem b eb) (h'.base2 s' hmem' b' eb') rb o o'
    have c2 : qf' (wide R R' v) = qf v := by
      rw [hxf] at f
      rw [hxf'] at f'
      exact more_kM h.exact h.smooth rf xa xb xv f f'
    rw [a, a', c1, c2]

/-! ## Analyses -/

/-- The larger bay has a mass matrix with the smaller one. -/
theorem heavy (hM : Heavy R) : Heavy R' where
  blade1 := by
    have := hx.blade1
    rw [hM.blade1] at this
    exact List.forall₂_nil_left_iff.1 this
  base s' hs' := by
    obtain ⟨s, hs, z, z', hz, -, e⟩ := C52.forall₂_mem_right hx.blade2 s' hs'
    rw [hM.base s hs] at hz
    cases hz
    rw [e]
  skin p' hp' := by
    obtain ⟨p, hp, P, nx, ny, size, -, e⟩ := C52.forall₂_mem_right hx.panels p' hp'
    rw [e]
    exact hM.skin p hp
  flange s' hs' f' e' := by
    obtain ⟨s, hs, z', z, -, hz, e⟩ := C52.forall₂_mem_right hx.blade2 s' hs'
    have ez : z = some f' := by rw [← e', e]
    obtain ⟨f, hsf⟩ := C101.flanges h s hs
    rw [hsf, ez] at hz
    cases hz with
    | some r =>
      obtain ⟨P, nx, ny, size, -, e⟩ := r
      rw [e]
      exact hM.flange s hs f hsf

/-- **C105, frequencies.**  None rises. -/
theorem frequencies (hM : Heavy R) :
    ∃ k0 B1 k0' B1' kM B2 kM' B2', B.calcKC E = .ok (k0, B1) ∧ B'.calcKC E = .ok (k0', B1') ∧
    B.calcKM E = .ok (kM, B2) ∧ B'.calcKM E = .ok (kM', B2') ∧
    ∀ φ lam φ' lam', Modes (C81.actives R) k0 kM φ lam → Modes (C81.actives R') k0' kM' φ' lam' →
      ∀ a, ∀ ha : a < (C81.actives R).card, ∃ ha' : a < (C81.actives R').card, lam' ⟨a, ha'⟩ ≤ lam ⟨a, ha⟩ := by
  have hf := C101.flanges h
  have hM' := heavy hx h h' hH hN hM
  obtain ⟨k0, B1, k0', B1', c, c', w⟩ := stiffness hx h h' hH hN
  obtain ⟨kM, B2, g, gp⟩ := C81.mass h hM hH hN
  obtain ⟨⟨kM', B2'⟩, g'⟩ := C57.kM_exists_partial E B' R' N' h'.terms h'.panels h'.rebuilt h'.size
    (by simp [hM'.blade1]) fun s hs b e => by rw [hM'.base s hs] at e; cases e
  refine ⟨k0, B1, k0', B1', kM, B2, kM', B2', c, c', g, g', fun φ lam φ' lam' e e' a ha => ?_⟩
  exact C99.frequencies_of (wide R R') (fun v hv => wide_off hx hf hv) (fun v hv => (w v hv).le)
    (mass hx h h' hH hN g g') (C81.symmetric.2.2 g) (C81.symmetric.2.2 g') (pos_of_assy gp) e e' ha

/-- **C105, buckling.**  When the larger bay withstands the loads up to the factor `p`, so does the given one. -/
theorem buckling : ∃ k0 B1 k0' B1' kG B2 kG' B2', B.calcKC E = .ok (k0, B1) ∧ B'.calcKC E = .ok (k0', B1') ∧
    B.calcKG E none = .ok (kG, B2) ∧ B'.calcKG E none = .ok (kG', B2') ∧
    (Pos (C81.actives R') k0' → Pos (C81.actives R) k0 ∧
      ∀ p : ℝ, 0 ≤ p → (∀ r : ℝ, 0 < r → Critical (C81.actives R') k0' kG' r → p < r) →
        ∀ r : ℝ, 0 < r → Critical (C81.actives R) k0 kG r → p < r) := by
  have hf := C101.flanges h
  obtain ⟨k0, B1, k0', B1', c, c', w⟩ := stiffness hx h h' hH hN
  obtain ⟨kG, B2, kG', B2', g, g', wG⟩ := geometric hx h h' hH hN
  refine ⟨k0, B1, k0', B1', kG, B2, kG', B2', c, c', g, g', fun hp => ⟨?_, fun p h0 hc => ?_⟩⟩
  · rintro v ⟨k, hk, hne⟩ hv
    rw [← w v hv]
    refine hp (wide R R' v) ?_ (wide_off hx hf hv)
    by_contra hz
    refine hne (wide_zero hx hf (v := v) (fun l => ?_) k hk)
    by_cases hl : l ∈ C81.actives R'
    · by_contra hne
      exact hz ⟨l, hl, hne⟩
    · exact wide_off hx hf hv l hl
  · exact C99.buckling_of (wide R R') (fun v hv => wide_off hx hf hv) (fun v hv => (w v hv).le) wG
      (fun v _ h0 => wide_zero hx hf h0) (C81.symmetric.1 c) (C81.symmetric.1 c') (C81.symmetric.2.1 none g)
      (C81.symmetric.2.1 none g') hp h0 hc

/-- **C105, static analysis.**  Loads that do the same work on the same motion do no less work on their own. -/
theorem compliance : ∃ k0 B1 k0' B1', B.calcKC E = .ok (k0, B1) ∧ B'.calcKC E = .ok (k0', B1') ∧
    (Pos (C81.actives R') k0' → ∀ f f' : ℕ → ℝ,
      (∀ v, (∀ k ∉ C81.actives R, v k = 0) →
        ∑ k ∈ C81.actives R', f' k * wide R R' v k = ∑ k ∈ C81.actives R, f k * v k) →
      ∀ d d', Balanced (C81.actives R) k0 f d → Balanced (C81.actives R') k0' f' d' →
        ∑ k ∈ C81.actives R, f k * d k ≤ ∑ k ∈ C81.actives R', f' k * d' k) := by
  have hf := C101.flanges h
  obtain ⟨k0, B1, k0', B1', c, c', w⟩ := stiffness hx h h' hH hN
  refine ⟨k0, B1, k0', B1', c, c', fun hp f f' hw d d' hb hb' => ?_⟩
  exact C99.compliance_of (wide R R') (fun v hv => wide_off hx hf hv) (fun v hv => (w v hv).le) (C81.symmetric.1 c') hp
    (hw d hb.off) hb hb'

end

/-- Bays that are given so are rebuilt so. -/
theorem rebuilt (hx : FreerBay B B') (hr : B'.r = B.r) (h : SolidBay E B R N) (h' : SolidBay E B' R' N') :
    FreerBay R R' := hx.rebuild hr h.rebuilt h'.rebuilt

/-! ## A concrete case -/

/-- A curved bay of two panels with the skin `P` and a flange of `mf` by `nf` terms where they meet. -/
noncomputable def made (P : Panel ℝ) (mf nf : ℕ) : Except Fail (Bay ℝ) :=
  (C102.two P (1 / 4) 0 (1 / 3) (1 / 3) 1).addBlade2 env (1 / 3) none none (some (1 / 3)) {} ply mf nf

theorem found {P : Panel ℝ} (hb : P.b = 1) : (C102.two P (1 / 4) 0 (1 / 3) (1 / 3) 1).findPanels (1 / 3) = .ok (0, 1) := by
  unfold Bay.findPanels
  have : findLoop (1 / 3) (C102.two P (1 / 4) 0 (1 / 3) (1 / 3) 1).skin.b 0
      (C102.two P (1 / 4) 0 (1 / 3) (1 / 3) 1).panels (none, none) = (some 0, some 1) := by
    simp only [C102.two, Bay.addPanel, Shell.new, List.nil_append, List.singleton_append, findLoop, findStep,
      isclose, hb]
    norm_num
  rw [this]
  rfl

theorem flange_more {s s' : Blade2 ℝ} {f f' : Shell ℝ} (hb : s.base = none) (hf : s.flange = some f)
    (_ : s'.flange = some f') (r : FreerShell f f') (e : s' = { s with base := none, flange := some f' }) :
    FreerBlade2 s s' := ⟨none, some f', by rw [hb]; exact .none, by rw [hf]; exact .some r, e⟩

theorem shell_more {f f' : Shell ℝ} (r : Freer f.pan f'.pan)
    (e : f' = { f with pan := f'.pan, nx := f'.nx, ny := f'.ny, size := f'.size }) : FreerShell f f' :=
  ⟨_, _, _, _, r, e⟩

theorem pieces : ∃ B B' R R' N N', made Witness.panel 4 6 = .ok B ∧ made C99.loose 5 6 = .ok B' ∧
    (B.panels ≠ [] ∧ B.rebuild env = .ok R ∧ R.getSize = .ok N ∧ (0 < R.skin.a ∧ 0 < R.skin.b) ∧ Ready env R ∧
      Curved R.r R.model ∧ R.blade1 = []) ∧
    (B'.panels ≠ [] ∧ B'.rebuild env = .ok R' ∧ R'.getSize = .ok N' ∧ (0 < R'.skin.a ∧ 0 < R'.skin.b) ∧
      Ready env R' ∧ Curved R'.r R'.model ∧ R'.blade1 = []) ∧ FreerBay B B' ∧ B'.r = B.r ∧ Heavy R ∧
    R.skin.m = 5 ∧ R.skin.n = 7 ∧ ∃ s f, R.blade2 = [s] ∧ s.flange = some f ∧ f.pan.m = 4 ∧ f.pan.n = 6 := by
  refine ⟨_, _, _, _, _, _,
    bind_ok.2 ⟨_, rfl, bind_ok.2 ⟨_, rfl, bind_ok.2 ⟨_, found rfl,
      bind_ok.2 ⟨_, rfl, bind_ok.2 ⟨_, rfl, bind_ok.2 ⟨_, bind_ok.2 ⟨_, C102.pair_of rfl rfl ⟨rfl, rfl, rfl, rfl⟩,
        rfl⟩, rfl⟩⟩⟩⟩⟩⟩,
    bind_ok.2 ⟨_, rfl, bind_ok.2 ⟨_, rfl, bind_ok.2 ⟨_, found rfl,
      bind_ok.2 ⟨_, rfl, bind_ok.2 ⟨_, rfl, bind_ok.2 ⟨_, bind_ok.2 ⟨_, C102.pair_of rfl rfl ⟨rfl, rfl, rfl, rfl⟩,
        rfl⟩, rfl⟩⟩⟩⟩⟩⟩,
    ⟨List.cons_ne_nil _ _, bind_ok.2 ⟨_, rfl, bind_ok.2 ⟨_, rfl, bind_ok.2 ⟨_,
      bind_ok.2 ⟨_, bind_ok.2 ⟨_, C102.pair_of rfl rfl ⟨rfl, rfl, rfl, rfl⟩, rfl⟩, rfl⟩, rfl⟩⟩⟩, rfl, ?_, ?_, ?_, rfl⟩,
    ⟨List.cons_ne_nil _ _, bind_ok.2 ⟨_, rfl, bind_ok.2 ⟨_, rfl, bind_ok.2 ⟨_,
      bind_ok.2 ⟨_, bind_ok.2 ⟨_, C102.pair_of rfl rfl ⟨rfl, rfl, rfl, rfl⟩, rfl⟩, rfl⟩, rfl⟩⟩⟩, rfl, ?_, ?_, ?_, rfl⟩,
    ?_, rfl, ?_, ?_⟩
  · show 0 < (3 : ℝ) ∧ 0 < (1 : ℝ)
    norm_num
  · refine ⟨fun s hs => (by cases hs), fun s hs b hb => ?_, fun s hs b hb => ?_⟩ <;>
      obtain rfl := List.mem_singleton.1 hs <;> cases hb
    exact ⟨_, rfl⟩
  · exact .inr ⟨5, by norm_num, rfl, rfl⟩
  · show 0 < (3 : ℝ) ∧ 0 < (1 : ℝ)
    norm_num
  · refine ⟨fun s hs => (by cases hs), fun s hs b hb => ?_, fun s hs b hb => ?_⟩ <;>
      obtain rfl := List.mem_singleton.1 hs <;> cases hb
    exact ⟨_, rfl⟩
  · exact .inr ⟨5, by norm_num, rfl, rfl⟩
  · have skin : ∀ P P' : Panel ℝ, P.m = 5 → P'.m = 8 → P'.n = P.n → P'.a = P.a → P'.b = P.b → P'.xu = P.xu →
        P'.xv = P.xv → P'.yu = P.yu → P'.yv = P.yv → P'.yw = P.yw → P.xw = Witness.panel.xw →
        P'.xw = C99.loose.xw → Freer P P' := by
      intro P P' m m' n a b xu xv yu yv yw xw xw'
      refine ⟨by omega, n.ge, a, b, fun α hα i hi => ?_, fun α hα i hi => ?_⟩
      · interval_cases α
        · simp only [Panel.xf, xu]
        · simp only [Panel.xf, xv]
        · have e : P.xf 2 = Witness.panel.xw := xw
          have e' : P'.xf 2 = C99.loose.xw := xw'
          rw [e] at hi
          rw [e, e']
          revert hi
          match i with
          | 0 => simp [C99.loose, Witness.panel, flag]
          | 1 => simp [C99.loose, Witness.panel, flag]
          | 2 => simp [C99.loose, Witness.panel, flag]
          | 3 => simp [C99.loose, Witness.panel, flag]
          | i + 4 => simp [C99.loose, Witness.panel, flag]
      · interval_cases α
        · simp only [Panel.yf, yu]
        · simp only [Panel.yf, yv]
        · simp only [Panel.yf, yw]
    refine ⟨skin _ _ rfl rfl rfl rfl rfl rfl rfl rfl rfl rfl rfl rfl,
      .cons (shell_more (skin _ _ rfl rfl rfl rfl rfl rfl rfl rfl rfl rfl rfl rfl) rfl)
        (.cons (shell_more (skin _ _ rfl rfl rfl rfl rfl rfl rfl rfl rfl rfl rfl rfl) rfl) .nil), .nil,
      .cons (flange_more rfl rfl rfl
        (shell_more ⟨?_, le_rfl, rfl, rfl, fun _ _ _ _ => rfl, fun _ _ _ _ => rfl⟩ rfl) rfl) .nil⟩
    show 4 ≤ 5
    norm_num
  · refine ⟨rfl, fun s hs => ?_, fun p hp => ?_, fun s hs f hf => ?_⟩
    · obtain rfl := List.mem_singleton.1 hs
      rfl
    · rcases List.mem_pair.1 hp with rfl | rfl
      · show 0 < (1 : ℝ) ∧ 0 < List.sum [(1 / 4 : ℝ), 1 / 4]
        norm_num
      · show 0 < (1 : ℝ) ∧ 0 < List.sum [(1 / 4 : ℝ), 1 / 4]
        norm_num
    · obtain rfl := List.mem_singleton.1 hs
      cases hf
      show 0 < (1 : ℝ) ∧ 0 < List.sum [(1 / 2 : ℝ)]
      norm_num
  · exact ⟨rfl, rfl, _, _, rfl, rfl, rfl, rfl⟩

theorem both : ∃ B B' R R' N N', made Witness.panel 4 6 = .ok B ∧ made C99.loose 5 6 = .ok B' ∧ SolidBay env B R N ∧
    SolidBay env B' R' N' ∧ FreerBay B B' ∧ B'.r = B.r ∧ Heavy R ∧
    ∀ p < R.blade2.length + 1, (bayPanel R p).m ≤ 7 ∧ (bayPanel R p).n ≤ 7 := by
  obtain ⟨B, B', R, R', N, N', hB, hB', ⟨a1, a2, a3, a4, a5, a6, a7⟩, ⟨b1, b2, b3, b4, b5, b6, b7⟩, hx, hr, hM, hm, hn, s, f, hs,
    hf, hfm, hfn⟩ := pieces
  have hN : ∀ p < R.blade2.length + 1, (bayPanel R p).m ≤ 7 ∧ (bayPanel R p).n ≤ 7 := fun p hp => by
    match p, hp with
    | 0, _ => exact ⟨show R.skin.m ≤ 7 by omega, show R.skin.n ≤ 7 by omega⟩
    | 1, _ =>
      have e : bayPanel R 1 = f.panel := by simp [bayPanel, flangePanel, hs, hf]
      rw [e]
      exact ⟨show f.pan.m ≤ 7 by omega, show f.pan.n ≤ 7 by omega⟩
    | p + 2, hp =>
      rw [hs, List.length_singleton] at hp
      omega
  have shaped : ∀ {P : Panel ℝ} {mf nf : ℕ} {B : Bay ℝ}, made P mf nf = .ok B → Shaped B := fun h =>
    shaped_addBlade2 (shaped_addPanel (shaped_addPanel (shaped_empty rfl rfl rfl) ..) ..) _ _ _ (by norm_num) _ _ _ _ h
  refine ⟨B, B', R, R', N, N', hB, hB',
    C81.solid (Tab.of_exact _ _) bardellShape_C2 env_good (shaped hB) a1 a2 a3 a4 a5 a6 fun s hs => ?_,
    C81.solid (Tab.of_exact _ _) bardellShape_C2 env_good (shaped hB') b1 b2 b3 b4 b5 b6 fun s hs => ?_, hx, hr, hM, hN⟩
  · rw [a7] at hs
    cases hs
  · rw [b7] at hs
    cases hs

/-- With three more terms along the skin, one more along the flange and an edge released, it vibrates no faster and
buckles no later. -/
example : ∃ B B' R R', made Witness.panel 4 6 = .ok B ∧ made C99.loose 5 6 = .ok B' ∧ B.rebuild env = .ok R ∧
    B'.rebuild env = .ok R' ∧ (∃ k0 B1 k0' B1' kM B2 kM' B2', B.calcKC env = .ok (k0, B1) ∧
      B'.calcKC env = .ok (k0', B1') ∧ B.calcKM env = .ok (kM, B2) ∧ B'.calcKM env = .ok (kM', B2') ∧
      ∀ φ lam φ' lam', Modes (C81.actives R) k0 kM φ lam → Modes (C81.actives R') k0' kM' φ' lam' →
        ∀ a, ∀ ha : a < (C81.actives R).card, ∃ ha' : a < (C81.actives R').card, lam' ⟨a, ha'⟩ ≤ lam ⟨a, ha⟩) ∧
    ∃ k0 B1 k0' B1' kG B2 kG' B2', B.calcKC env = .ok (k0, B1) ∧ B'.calcKC env = .ok (k0', B1') ∧
      B.calcKG env none = .ok (kG, B2) ∧ B'.calcKG env none = .ok (kG', B2') ∧
      (Pos (C81.actives R') k0' → Pos (C81.actives R) k0 ∧
        ∀ p : ℝ, 0 ≤ p → (∀ r : ℝ, 0 < r → Critical (C81.actives R') k0' kG' r → p < r) →
          ∀ r : ℝ, 0 < r → Critical (C81.actives R) k0 kG r → p < r) := by
  obtain ⟨B, B', R, R', N, N', hB, hB', h, h', hx, hr, hM, hN⟩ := both
  have hx' := rebuilt hx hr h h'
  have hH : Hier env.S 7 := exact_hier 7
  exact ⟨B, B', R, R', hB, hB', h.rebuilt, h'.rebuilt, frequencies hx' h h' hH hN hM, buckling hx' h h' hH hN⟩

end Verif.C105
