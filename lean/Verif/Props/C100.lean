import Verif.Proofs.Stiffer
import Verif.Props.C81Ready
import Verif.Props.C99

/-!
# C100: a stiffener never weakens a bay

Stiffeners added to a bay (`Spec/Stiffer.lean`) never make its stiffness smaller.  If they bring no loads, no
buckling load falls, and the loads of the bay do no more work.
-/

set_option linter.unusedSectionVars false

namespace Verif.C100

open Finset Spec Model Indep C80 C81

variable {E : BayEnv ℝ} {B R R' : Bay ℝ} {N N' : ℕ} {l1 r1 : List (Blade1 ℝ)} {l2 r2 : List (Blade2 ℝ)}

/-! ## The bay without them -/

/-- `add_bladestiff1d` and `add_bladestiff2d` put one stiffener behind the others. -/
theorem added {B' : Bay ℝ} (ys : ℝ) (rho bb bf : Option ℝ) (base flange : LamArgs ℝ) :
    (B.addBlade1 E ys rho bb bf base flange = .ok B' → ∃ s, Blade1Idle s ∧ B' = stiffened B [s] []) ∧
    ∀ mf nf, B.addBlade2 E ys rho bb bf base flange mf nf = .ok B' → ∃ s, Blade2Idle s ∧ B' = stiffened B [] [s] := by
  constructor
  · intro h
    unfold Bay.addBlade1 at h
    split at h
    · cases h
    obtain ⟨b, -, h⟩ := bind_ok.1 h
    obtain ⟨f, -, h⟩ := bind_ok.1 h
    obtain ⟨ij, -, h⟩ := bind_ok.1 h
    obtain ⟨s, hs, h⟩ := bind_ok.1 h
    cases h
    refine ⟨s, ?_, ?_⟩
    · unfold Blade1.rebuild at hs
      obtain ⟨_, -, hs⟩ := bind_ok.1 hs
      obtain ⟨_, -, hs⟩ := bind_ok.1 hs
      obtain ⟨_, -, hs⟩ := bind_ok.1 hs
      obtain ⟨_, -, hs⟩ := bind_ok.1 hs
      obtain ⟨_, -, hs⟩ := bind_ok.1 hs
      cases hs
      rfl
    · unfold stiffened
      rw [List.append_nil]
  · intro mf nf h
    unfold Bay.addBlade2 at h
    split at h
    · cases h
    obtain ⟨b, -, h⟩ := bind_ok.1 h
    obtain ⟨f, -, h⟩ := bind_ok.1 h
    obtain ⟨ij, -, h⟩ := bind_ok.1 h
    obtain ⟨base, -, h⟩ := bind_ok.1 h
    obtain ⟨fl, hf, h⟩ := bind_ok.1 h
    obtain ⟨s, hs, h⟩ := bind_ok.1 h
    cases h
    refine ⟨s, fun g hg => ?_, ?_⟩
    · rcases (blade2_kept hs).1 with ⟨-, e⟩ | ⟨x, l, e, e'⟩
      · rw [hg] at e
        cases e
      · rw [hg] at e'
        cases e'
        simp only at e
        unfold Bay.flangeOf at hf
        split at hf
        · cases hf
          cases e
        · obtain ⟨bf, -, hf⟩ := bind_ok.1 hf
          cases hf
          cases e
          exact ⟨rfl, rfl, rfl⟩
    · unfold stiffened
      rw [List.append_nil]

/-- Without the stiffeners there is a bay of the same kind, to which the rebuilt stiffeners have been added. -/
theorem fewer (h : SolidBay E (stiffened B l1 l2) R' N') :
    ∃ R N r1 r2, SolidBay E B R N ∧ R' = stiffened R r1 r2 ∧ N ≤ N' ∧
      List.Forall₂ (fun s t => ∃ C, Blade1.rebuild E C s = .ok t) l1 r1 ∧
      List.Forall₂ (fun s t => ∃ C, Blade2.rebuild E C s = .ok t) l2 r2 := by
  obtain ⟨R, r1, r2, hR, rfl, e1, e2⟩ := rebuild_stiffened h.rebuilt
  obtain ⟨s1, s2, s3⟩ := (C52.size_iff _ _).1 h.size
  have m1 : ∀ s ∈ R.blade1, s ∈ (stiffened R r1 r2).blade1 := fun s hs => List.mem_append_left _ hs
  have m2 : ∀ s ∈ R.blade2, s ∈ (stiffened R r1 r2).blade2 := fun s hs => List.mem_append_left _ hs
  refine ⟨R, 3 * R.skin.m * R.skin.n + (R.blade2.map C52.width).sum, r1, r2, ?_, rfl, ?_, e1, e2⟩
  · exact
      { exact := h.exact
        smooth := h.smooth
        terms := ⟨h.terms.panels, fun s hs => h.terms.base1 s (List.mem_append_left _ hs),
          fun s hs => h.terms.base2 s (List.mem_append_left _ hs)⟩
        panels := h.panels
        rebuilt := hR
        size := (C52.size_iff _ _).2 ⟨s1, fun s hs => s2 s (m2 s hs), rfl⟩
        sides := h.sides
        skin := h.skin
        base1 := fun s hs => h.base1 s (m1 s hs)
        base2 := fun s hs => h.base2 s (m2 s hs)
        flange := fun s hs => h.flange s (m2 s hs)
        beam := fun s hs => h.beam s (m1 s hs) }
  · rw [s3]
    show _ ≤ 3 * R.skin.m * R.skin.n + ((R.blade2 ++ r2).map C52.width).sum
    rw [List.map_append, List.sum_append]
    omega

/-! ## Stiffness -/

theorem blade1_nonneg (h : SolidBay E B R N) {s : Blade1 ℝ} (hs : s ∈ R.blade1) {q : (ℕ → ℝ) → ℝ}
    (hq : C52.Blade1C E R s q) (v : ℕ → ℝ) : 0 ≤ q v := by
  obtain ⟨qb, qf, hb, hf, hq⟩ := hq
  obtain ⟨sa, sb⟩ := h.sides
  obtain ⟨g0, -, -⟩ := own_kernel (P := bayPanel R 0) h.exact h.smooth sa sb (h.base1 s hs) hb v
  rw [hq v]
  refine add_nonneg g0 ?_
  unfold C52.Beam at hf
  cases hc : s.sec with
  | none =>
    rw [hc] at hf
    exact (hf v).ge
  | some c =>
    rw [hc] at hf
    obtain ⟨bf, hbf, hf⟩ := hf
    have hk := h.beam s hs
    rw [hf v]
    exact C48.stiffness_nonneg h.exact h.smooth R.skin sa sb.ne' _ _ _ _ _ _ _ (hk.width bf hbf)
      (hk.E1 c hc) (hk.F1 c hc) hk.Jxx (hk.S1 c hc) 0 v

theorem blade2_nonneg (h : SolidBay E B R N) {i : ℕ} {s : Blade2 ℝ} (hi : R.blade2[i]? = some s)
    {q : (ℕ → ℝ) → ℝ} (hq : C52.Blade2C E R (C52.start R i) s q) (v : ℕ → ℝ) : 0 ≤ q v := by
  obtain ⟨qb, qf, qj, hb, hf, hj, hq⟩ := hq
  obtain ⟨sa, sb⟩ := h.sides
  have hs := List.mem_of_getElem? hi
  obtain ⟨f, hfl, -⟩ := h.has_flange hi
  obtain ⟨fa, fb, hF⟩ := h.flange s hs f hfl
  obtain ⟨g0, -, -⟩ := own_kernel (P := bayPanel R 0) h.exact h.smooth sa sb (h.base2 s hs) hb v
  obtain ⟨f0, -, -⟩ := own_kernel (P := f.panel) h.exact h.smooth (show 0 < f.pan.a by rw [fa]; exact sa) fb
    (fun b hb => by
      rw [hfl] at hb
      cases hb
      exact hF) hf v
  obtain ⟨j0, -⟩ := joint_kernel h hi hj v
  rw [hq v]
  positivity

/-- **C100, stiffness.**  No motion costs less energy than before. -/
theorem stiffness (h : SolidBay E (stiffened B l1 l2) R' N') :
    ∃ k0 C k0' C', B.calcKC E = .ok (k0, C) ∧ (stiffened B l1 l2).calcKC E = .ok (k0', C') ∧
      ∀ v, Coo.quad k0 v ≤ Coo.quad k0' v := by
  obtain ⟨R, N, r1, r2, hB, rfl, -, -, -⟩ := fewer h
  obtain ⟨⟨k0, C⟩, hk⟩ := C57.kC_exists E _ _ _ hB.terms hB.panels hB.rebuilt hB.size hB.ready
  obtain ⟨⟨k0', C'⟩, hk'⟩ := C57.kC_exists E _ _ _ h.terms h.panels h.rebuilt h.size h.ready
  obtain ⟨R0, N0, a1, -, Qp, Q1, Q2, e1, e2, e3, e4, e5⟩ := C52.kC_energy E B C k0 hB.terms hk
  obtain rfl := Except.ok.inj (hB.rebuilt.symm.trans a1)
  obtain ⟨R0', N0', a1', -, Qp', Q1', Q2', e1', e2', e3', e4', e5'⟩ := C52.kC_energy E _ C' k0' h.terms hk'
  obtain rfl := Except.ok.inj (h.rebuilt.symm.trans a1')
  obtain rfl : Qp = Qp' := forall₂_one (P := fun p => C52.Own (fun b => b.calcKC E.toEnv {}) 0 (some p))
    (fun _ _ _ => own_one) e1 e1'
  refine ⟨k0, C, k0', C', hk, hk', fun v => ?_⟩
  have c1 : (Q1.map fun q => q v).sum ≤ (Q1'.map fun q => q v).sum := by
    obtain ⟨x, y, hx, hy, rfl⟩ := forall₂_append_left e2'
    obtain rfl : Q1 = x := forall₂_one (P := C52.Blade1C E R) (fun _ _ _ => blade1C_one) e2 hx
    rw [List.map_append, List.sum_append]
    refine le_add_of_nonneg_right (List.sum_nonneg fun z hz => ?_)
    obtain ⟨q, hq, rfl⟩ := List.mem_map.1 hz
    obtain ⟨s, hs, hq⟩ := C52.forall₂_mem_right hy q hq
    exact blade1_nonneg h (List.mem_append_right _ hs) hq v
  have c2 : (Q2.map fun q => q v).sum ≤ (Q2'.map fun q => q v).sum := by
    have hl : Q2'.length = R.blade2.length + r2.length := by
      rw [e3']
      exact List.length_append
    have ht : Q2 = Q2'.take R.blade2.length := by
      refine indexed_one (P := fun i s => C52.Blade2C E R (C52.start R i) s) (fun _ _ _ _ => blade2C_one) e3
        (by rw [List.length_take, hl]; omega) e4 fun i s q hs hq => ?_
      have hi := (List.getElem?_eq_some_iff.1 hs).1
      rw [List.getElem?_take_of_lt hi] at hq
      have := e4' i s q (by rw [stiffened_blade2 hi]; exact hs) hq
      rw [stiffened_start hi.le] at this
      exact this
    have : Q2' = Q2 ++ Q2'.drop R.blade2.length := by rw [ht, List.take_append_drop]
    rw [this, List.map_append, List.sum_append]
    refine le_add_of_nonneg_right (List.sum_nonneg fun z hz => ?_)
    obtain ⟨q, hq, rfl⟩ := List.mem_map.1 hz
    obtain ⟨i, hi, rfl⟩ := List.getElem_of_mem (List.mem_of_mem_drop hq)
    have hi' : i < (stiffened R r1 r2).blade2.length := e3' ▸ hi
    exact blade2_nonneg h (List.getElem?_eq_getElem hi')
      (e4' i _ _ (List.getElem?_eq_getElem hi') (List.getElem?_eq_getElem hi)) v
  rw [e5 v, e5' v]
  linarith

/-! ## Supports -/

theorem shut_blade {P : ℕ → Panel ℝ} {f : ℕ → ℕ → ℝ → ℝ → ℝ} {i : ℕ} :
    Shut P (fun _ => 0) f (bayJoint R i) ↔ Meets "BFycte" (P 0) (P (i + 1)) (((R.blade2[i]?).map Blade2.ys).getD 0) 0
      (f 0) (f (i + 1)) := by
  unfold Shut
  refine iff_of_eq ((if_pos (Nat.succ_pos i)).trans ?_)
  simp [bayJoint, jointPos]

/-- **C100, supports.**  A bay that is held stays held. -/
theorem held (h : SolidBay E (stiffened B l1 l2) R' N') (hR : B.rebuild E = .ok R) (hr : BayRestrained R) :
    BayRestrained R' := by
  obtain ⟨R0, N, r1, r2, hB, rfl, -, -, -⟩ := fewer h
  cases hR.symm.trans hB.rebuilt
  intro M hM hJ
  have h0 := hr M (fun k hk c hc => ?_) fun d hd => ?_
  · have rest : ∀ k < R.blade2.length + 1, ∀ c < 3, ∀ x y,
        (M k).field (1 / (bayPanel (stiffened R r1 r2) k).r) c x y = 0 := fun k hk => by
      rw [stiffened_panel hk]
      exact h0 k hk
    intro k hk
    cases k with
    | zero => exact rest 0 (Nat.succ_pos _)
    | succ i =>
      have hs := hJ (bayJoint (stiffened R r1 r2) i) (List.mem_map.2 ⟨i, List.mem_range.2 (by omega), rfl⟩)
      obtain ⟨a1, b1⟩ := h.part_sides 0 (Nat.succ_pos _)
      obtain ⟨a2, b2⟩ := h.part_sides (i + 1) hk
      exact (meets_rest a1 b1 a2 b2 (shut_blade.1 hs)).2 (rest 0 (Nat.succ_pos _))
  · have := hM k (by
      show k < (R.blade2 ++ r2).length + 1
      rw [List.length_append]
      omega) c hc
    rw [stiffened_panel hk] at this
    exact this
  · obtain ⟨i, hi, rfl⟩ := List.mem_map.1 hd
    have hi := List.mem_range.1 hi
    have := hJ (bayJoint R i) (List.mem_map.2 ⟨i, List.mem_range.2 (by
      show i < (R.blade2 ++ r2).length
      rw [List.length_append]
      omega), stiffened_joint hi⟩)
    rw [shut_blade] at this ⊢
    rw [stiffened_panel (Nat.succ_pos _), stiffened_panel (show i + 1 < R.blade2.length + 1 by omega)] at this
    exact this

/-! ## The unknowns -/

/-- The amplitudes below `N`. -/
def below (N : ℕ) : (ℕ → ℝ) →ₗ[ℝ] (ℕ → ℝ) where
  toFun v k := if k < N then v k else 0
  map_add' v w := by funext k; simp only [Pi.add_apply]; split <;> simp
  map_smul' c v := by funext k; simp

theorem mem_actives {i : ℕ} : i ∈ actives R ↔ ∃ k < R.blade2.length + 1, Active (bayPanel R k) (bayStart R k) i := by
  simp [actives, C78.actives, C76.mem_actives]

theorem active_range {P : Panel ℝ} {s i : ℕ} (h : Active P s i) : s ≤ i ∧ i < s + 3 * (P.m * P.n) := by
  obtain ⟨α, hα, a, ha, b, hb, -, -, rfl⟩ := h
  refine ⟨by omega, ?_⟩
  have : b * P.m + a + 1 ≤ P.m * P.n := by
    calc b * P.m + a + 1 ≤ b * P.m + P.m := by omega
      _ = (b + 1) * P.m := by ring
      _ ≤ P.n * P.m := Nat.mul_le_mul_right _ hb
      _ = P.m * P.n := mul_comm _ _
  omega

/-- The unknowns of the bay are those of the bay with more stiffeners that lie within its size. -/
theorem unknowns (h : SolidBay E (stiffened B l1 l2) R' N') (hB : SolidBay E B R N) {i : ℕ} :
    i ∈ actives R ↔ i ∈ actives R' ∧ i < N := by
  obtain ⟨R0, N0, r1, r2, hB0, rfl, -, -, -⟩ := fewer h
  cases hB.rebuilt.symm.trans hB0.rebuilt
  have hsize := C52.filled R hB.size
  have hlen : (stiffened R r1 r2).blade2.length = R.blade2.length + r2.length := List.length_append
  rw [mem_actives, mem_actives]
  constructor
  · rintro ⟨k, hk, hi⟩
    refine ⟨⟨k, by omega, ?_⟩, ?_⟩
    · rw [stiffened_panel hk, stiffened_bayStart hk]
      exact hi
    · have hr := active_range hi
      cases k with
      | zero =>
        have h0 : bayStart R 0 = 0 := rfl
        have h1 := C52.start_mono R (Nat.zero_le R.blade2.length)
        rw [C52.start_zero, hsize, mul_assoc] at h1
        have h2 : (bayPanel R 0).m * (bayPanel R 0).n = R.skin.m * R.skin.n := rfl
        rw [h0, h2] at hr
        omega
      | succ j =>
        have hj : j < R.blade2.length := by omega
        obtain ⟨f, hf, ef⟩ := hB.has_flange (List.getElem?_eq_getElem hj)
        have h1 := C52.inside R hB.size (List.getElem?_eq_getElem hj)
        have h2 : C52.width R.blade2[j] = 3 * ((bayPanel R (j + 1)).m * (bayPanel R (j + 1)).n) := by
          rw [ef]
          unfold C52.width
          rw [hf]
          exact mul_assoc ..
        rw [bayStart_succ] at hr
        omega
  · rintro ⟨⟨k, hk, hi⟩, hN⟩
    have hk' : k < R.blade2.length + 1 := by
      by_contra hc
      obtain ⟨j, rfl⟩ : ∃ j, k = j + 1 := ⟨k - 1, by omega⟩
      have h1 := C52.start_mono (stiffened R r1 r2) (show R.blade2.length ≤ j by omega)
      rw [stiffened_start le_rfl, hsize] at h1
      have := (active_range hi).1
      rw [bayStart_succ] at this
      omega
    rw [stiffened_panel hk', stiffened_bayStart hk'] at hi
    exact ⟨k, hk', hi⟩

theorem below_off (h : SolidBay E (stiffened B l1 l2) R' N') (hB : SolidBay E B R N) {v : ℕ → ℝ}
    (hv : ∀ k ∉ actives R', v k = 0) : ∀ k ∉ actives R, below N v k = 0 := by
  intro k hk
  show (if k < N then v k else 0) = 0
  split
  · rename_i hlt
    exact hv k fun hc => hk ((unknowns h hB).2 ⟨hc, hlt⟩)
  · rfl

theorem below_on {L : Coo ℝ} (hL : ∀ x ∈ L, x.row < N ∧ x.col < N) (v : ℕ → ℝ) :
    Coo.quad L (below N v) = Coo.quad L v :=
  quad_within hL fun _ hk => if_pos hk

/-! ## Buckling -/

theorem idle_kG (h : SolidBay E B R N) {i : ℕ} {s : Blade2 ℝ} (hi : R.blade2[i]? = some s) (hs : Blade2Idle s)
    {q : (ℕ → ℝ) → ℝ} (hq : C52.Own (fun b => b.calcKG E.toEnv {}) (C52.start R i) s.flange q) (v : ℕ → ℝ) :
    q v = 0 := by
  obtain ⟨f, hf, -⟩ := h.has_flange hi
  obtain ⟨fa, fb, t, lam, hF⟩ := h.flange s (List.mem_of_getElem? hi) f hf
  obtain ⟨n1, n2, n3⟩ := hs f hf
  rw [hf] at hq
  obtain ⟨L, t', hL, w⟩ := hq
  rw [w v, shell_kG_slope h.exact h.smooth hF.built (by rw [fa]; exact h.sides.1.ne') fb.ne' hL, n1, n2, n3]
  unfold slopeWork
  simp

/-- Stiffeners without loads leave the geometric stiffness as it is. -/
theorem geometric (h : SolidBay E (stiffened B l1 l2) R' N') (i1 : ∀ s ∈ l1, Blade1Idle s)
    (i2 : ∀ s ∈ l2, Blade2Idle s) :
    ∃ kG C kG' C', B.calcKG E none = .ok (kG, C) ∧ (stiffened B l1 l2).calcKG E none = .ok (kG', C') ∧
      ∀ v, Coo.quad kG' v = Coo.quad kG v := by
  obtain ⟨R, N, r1, r2, hB, rfl, -, f1, f2⟩ := fewer h
  have j1 : ∀ s ∈ r1, Blade1Idle s := fun t ht => by
    obtain ⟨s, hs, C, e⟩ := C52.forall₂_mem_right f1 t ht
    have := i1 s hs
    unfold Blade1.rebuild at e
    obtain ⟨_, -, e⟩ := bind_ok.1 e
    obtain ⟨_, -, e⟩ := bind_ok.1 e
    obtain ⟨_, -, e⟩ := bind_ok.1 e
    obtain ⟨_, -, e⟩ := bind_ok.1 e
    obtain ⟨_, -, e⟩ := bind_ok.1 e
    cases e
    exact this
  have j2 : ∀ s ∈ r2, Blade2Idle s := fun t ht f hf => by
    obtain ⟨s, hs, C, e⟩ := C52.forall₂_mem_right f2 t ht
    have := i2 s hs
    rcases (blade2_kept e).1 with ⟨-, e⟩ | ⟨g, x, e, e'⟩
    · rw [hf] at e
      cases e
    · rw [hf] at e'
      cases e'
      exact this g e
  obtain ⟨⟨kG, C⟩, hk⟩ := C57.kG_exists E _ _ _ hB.terms hB.panels hB.rebuilt hB.size hB.ready
  obtain ⟨⟨kG', C'⟩, hk'⟩ := C57.kG_exists E _ _ _ h.terms h.panels h.rebuilt h.size h.ready
  obtain ⟨R0, N0, a1, -, Qp, Q1, Q2, e1, e2, e3, e4, e5⟩ := C52.kG_energy E B C kG hB.terms hk
  obtain rfl := Except.ok.inj (hB.rebuilt.symm.trans a1)
  obtain ⟨R0', N0', a1', -, Qp', Q1', Q2', e1', e2', e3', e4', e5'⟩ := C52.kG_energy E _ C' kG' h.terms hk'
  obtain rfl := Except.ok.inj (h.rebuilt.symm.trans a1')
  obtain rfl : Qp = Qp' := forall₂_one (P := fun p => C52.Own (fun b => b.calcKG E.toEnv {}) 0 (some p))
    (fun _ _ _ => own_one) e1 e1'
  refine ⟨kG, C, kG', C', hk, hk', fun v => ?_⟩
  have c1 : (Q1'.map fun q => q v).sum = (Q1.map fun q => q v).sum := by
    obtain ⟨x, y, hx, hy, rfl⟩ := forall₂_append_left e2'
    obtain rfl : Q1 = x := forall₂_one (P := C52.BeamG E R) (fun _ _ _ => beamG_one) e2 hx
    rw [List.map_append, List.sum_append, add_eq_left]
    refine List.sum_eq_zero fun z hz => ?_
    obtain ⟨q, hq, rfl⟩ := List.mem_map.1 hz
    obtain ⟨s, hs, hq⟩ := C52.forall₂_mem_right hy q hq
    have hi := j1 s hs
    unfold C52.BeamG at hq
    split at hq
    · exact hq v
    · rw [hq v, hi]
      have g := C48.geometric_sign h.exact h.smooth R.skin h.sides.1 s.ys 0 0 v
      exact le_antisymm (g.2 le_rfl) (g.1 le_rfl)
  have c2 : (Q2'.map fun q => q v).sum = (Q2.map fun q => q v).sum := by
    have hl : Q2'.length = R.blade2.length + r2.length := by
      rw [e3']
      exact List.length_append
    have ht : Q2 = Q2'.take R.blade2.length := by
      refine indexed_one (P := fun i s => C52.Own (fun b => b.calcKG E.toEnv {}) (C52.start R i) s.flange)
        (fun _ _ _ _ => own_one) e3 (by rw [List.length_take, hl]; omega) e4 fun i s q hs hq => ?_
      have hi := (List.getElem?_eq_some_iff.1 hs).1
      rw [List.getElem?_take_of_lt hi] at hq
      have := e4' i s q (by rw [stiffened_blade2 hi]; exact hs) hq
      rw [stiffened_start hi.le] at this
      exact this
    have hd : Q2' = Q2 ++ Q2'.drop R.blade2.length := by rw [ht, List.take_append_drop]
    rw [hd, List.map_append, List.sum_append, add_eq_left]
    refine List.sum_eq_zero fun z hz => ?_
    obtain ⟨q, hq, rfl⟩ := List.mem_map.1 hz
    obtain ⟨i, hi, rfl⟩ := List.getElem_of_mem hq
    rw [List.length_drop, hl] at hi
    have hi' : R.blade2.length + i < (stiffened R r1 r2).blade2.length := by
      show _ < (R.blade2 ++ r2).length
      rw [List.length_append]
      omega
    have hg := List.getElem?_eq_getElem hi'
    have hm : (stiffened R r1 r2).blade2[R.blade2.length + i] ∈ r2 := by
      have : (R.blade2 ++ r2)[R.blade2.length + i]? = some _ := hg
      rw [List.getElem?_append_right (Nat.le_add_right _ _)] at this
      exact List.mem_of_getElem? this
    refine idle_kG h hg (j2 _ hm) (e4' _ _ _ hg ?_) v
    rw [List.getElem_drop]
    exact List.getElem?_eq_getElem _
  rw [e5 v, e5' v, c1, c2]

/-- **C100, buckling.**  Stiffeners without loads lower no buckling load: below the smallest positive multiplier
of the bay there is none of the bay with them. -/
theorem buckling (h : SolidBay E (stiffened B l1 l2) R' N') (i1 : ∀ s ∈ l1, Blade1Idle s)
    (i2 : ∀ s ∈ l2, Blade2Idle s) (hR : B.rebuild E = .ok R) (hr : BayRestrained R) {n : ℕ} (hS : Hier E.S n)
    (hn : 4 ≤ n) (hmn : ∀ k < R'.blade2.length + 1, (bayPanel R' k).m ≤ n ∧ (bayPanel R' k).n ≤ n) :
    ∃ k0 C0 k0' C0' kG C kG' C', B.calcKC E = .ok (k0, C0) ∧ (stiffened B l1 l2).calcKC E = .ok (k0', C0') ∧
      B.calcKG E none = .ok (kG, C) ∧ (stiffened B l1 l2).calcKG E none = .ok (kG', C') ∧
      Buckles (actives R) k0 kG ∧ Buckles (actives R') k0' kG' ∧
      ∀ p : ℝ, 0 ≤ p → (∀ r : ℝ, 0 < r → Critical (actives R) k0 kG r → p < r) →
        ∀ r : ℝ, 0 < r → Critical (actives R') k0' kG' r → p < r := by
  obtain ⟨k0, C0, k0', C0', c1, c1', w⟩ := stiffness h
  obtain ⟨kG, C, kG', C', c2, c2', w2⟩ := geometric h i1 i2
  have hr' := held h hR hr
  obtain ⟨R0, N, r1, r2, hB, rfl, -, -, -⟩ := fewer h
  cases hR.symm.trans hB.rebuilt
  have hlen : (stiffened R r1 r2).blade2.length = R.blade2.length + r2.length := List.length_append
  have pos' : Pos (actives (stiffened R r1 r2)) k0' := by
    obtain ⟨q, D, e, d, -⟩ := definite_iff h hS hn hmn
    cases c1'.symm.trans e
    exact pos_of_assy (d hr')
  have pos : Pos (actives R) k0 := by
    obtain ⟨q, D, e, d, -⟩ := definite_iff hB hS hn fun k hk => by
      rw [← stiffened_panel (r1 := r1) (r2 := r2) hk]
      exact hmn k (by omega)
    cases c1.symm.trans e
    exact pos_of_assy (d hr)
  have sK := symmetric.1 c1
  have sK' := symmetric.1 c1'
  have sG := symmetric.2.1 none c2
  have sG' := symmetric.2.1 none c2'
  refine ⟨k0, C0, k0', C0', kG, C, kG', C', c1, c1', c2, c2', buckles sG sK pos, buckles sG' sK' pos',
    fun p h0 hp => ?_⟩
  refine (stable_iff sG' sK' pos' h0).1 fun v hne hv => ?_
  have st := (stable_iff sG sK pos h0).2 hp
  have eK := below_on (bayKC_inside c1 hB.rebuilt hB.size) v
  have eG := below_on (bayKG_inside c2 hB.rebuilt hB.size) v
  have hoff := below_off h hB hv
  have hw := w v
  rw [w2 v, ← eG]
  by_cases hz : ∃ k ∈ actives R, below N v k ≠ 0
  · have := st (below N v) hz hoff
    rw [eK] at this
    linarith
  · have z : below N v = fun _ => 0 := funext fun k => by
      by_cases hk : k ∈ actives R
      · by_contra hne
        exact hz ⟨k, hk, hne⟩
      · exact hoff k hk
    have : Coo.quad kG (fun _ => 0) = 0 := by
      unfold Coo.quad
      rw [C87.bilin_on kG (∅ : Finset ℕ) (fun _ _ => rfl) fun _ _ => rfl]
      simp
    rw [z, this, mul_zero, add_zero]
    exact pos' v hne hv

/-! ## Static analysis -/

/-- **C100, static analysis.**  Forces on the unknowns of the bay do no more work with the stiffeners than
without them. -/
theorem compliance (h : SolidBay E (stiffened B l1 l2) R' N') (hB : SolidBay E B R N) (hr : BayRestrained R) {n : ℕ}
    (hS : Hier E.S n) (hn : 4 ≤ n) (hmn : ∀ k < R.blade2.length + 1, (bayPanel R k).m ≤ n ∧ (bayPanel R k).n ≤ n) :
    ∃ k0 C k0' C', B.calcKC E = .ok (k0, C) ∧ (stiffened B l1 l2).calcKC E = .ok (k0', C') ∧
      ∀ f : ℕ → ℝ, (∀ k ∈ actives R', N ≤ k → f k = 0) → ∀ d d', Balanced (actives R) k0 f d →
        Balanced (actives R') k0' f d' → ∑ k ∈ actives R', f k * d' k ≤ ∑ k ∈ actives R, f k * d k := by
  obtain ⟨k0, C, k0', C', c1, c1', w⟩ := stiffness h
  refine ⟨k0, C, k0', C', c1, c1', fun f hf d d' hd hd' => ?_⟩
  have pos : Pos (actives R) k0 := by
    obtain ⟨q, D, e, p, -⟩ := definite_iff hB hS hn hmn
    cases c1.symm.trans e
    exact pos_of_assy (p hr)
  refine C99.compliance_of (below N) (fun v hv => below_off h hB hv)
    (fun v _ => (below_on (bayKC_inside c1 hB.rebuilt hB.size) v).trans_le (w v)) (symmetric.1 c1) pos ?_ hd' hd
  have hsub : actives R ⊆ actives R' := fun k hk => ((unknowns h hB).1 hk).1
  rw [← Finset.sum_subset hsub fun k hk hk' => ?_]
  · refine Finset.sum_congr rfl fun k hk => ?_
    show f k * (if k < N then d' k else 0) = _
    rw [if_pos ((unknowns h hB).1 hk).2]
  · rw [hf k hk (not_lt.1 fun hlt => hk' ((unknowns h hB).2 ⟨hk, hlt⟩)), zero_mul]

/-! ## Example -/

/-- The skin of `C81` with a beam on a base and one flange. -/
noncomputable def first : Except Fail (Bay ℝ) := do
  let B ← bare.addBlade1 env (1 / 2) none (some (1 / 2)) (some (1 / 3)) ply ply
  B.addBlade2 env (1 / 2) none none (some (1 / 3)) {} ply 4 6

/-- One more flange, on a base. -/
example : ∃ B B' R R' N N' l1 l2, first = .ok B ∧
    B.addBlade2 env (1 / 2) none (some (1 / 2)) (some (1 / 3)) ply ply 5 4 = .ok B' ∧ B' = stiffened B l1 l2 ∧
    SolidBay env B R N ∧ SolidBay env (stiffened B l1 l2) R' N' ∧ BayRestrained R ∧ BayRestrained R' ∧
    (∃ k0 C k0' C', B.calcKC env = .ok (k0, C) ∧ B'.calcKC env = .ok (k0', C') ∧
      ∀ v, Coo.quad k0 v ≤ Coo.quad k0' v) ∧
    ∃ k0 C0 k0' C0' kG C kG' C', B.calcKC env = .ok (k0, C0) ∧ B'.calcKC env = .ok (k0', C0') ∧
      B.calcKG env none = .ok (kG, C) ∧ B'.calcKG env none = .ok (kG', C') ∧
      ∀ p : ℝ, 0 ≤ p → (∀ r : ℝ, 0 < r → Critical (actives R) k0 kG r → p < r) →
        ∀ r : ℝ, 0 < r → Critical (actives R') k0' kG' r → p < r := by
  obtain ⟨B', hB', R', N', h, -, hmn⟩ := full_solid
  unfold full at hB'
  obtain ⟨B1, g1, hB'⟩ := bind_ok.1 hB'
  obtain ⟨B, g2, g3⟩ := bind_ok.1 hB'
  obtain ⟨s, hs, rfl⟩ := (added _ _ _ _ _ _).2 _ _ g3
  obtain ⟨s0, -, e0⟩ := (added _ _ _ _ _ _).2 _ _ g2
  obtain ⟨R, N, r1, r2, hR, e, -, -, -⟩ := fewer h
  have hS : Shaped B := shaped_addBlade2 (shaped_addBlade1 bare_shaped _ _ _ _ _ _ g1) _ _ _ (by norm_num) _ _ _ _ g2
  have hne : R.blade2 ≠ [] := fun hc => by
    obtain ⟨m, ps, -, -, -, -, -, -, h6⟩ := bay_rebuild_ok hR.rebuilt
    rw [hc, List.forall₂_nil_right_iff, e0] at h6
    simp [stiffened] at h6
  have hre := flange_holds hR (hS.rebuild hR.rebuilt) hne
  obtain ⟨k0, C0, k0', C0', kG, C, kG', C', c1, c2, c3, c4, -, -, w⟩ := buckling h (by simp)
    (by simpa using hs) hR.rebuilt hre (exact_hier 7) (by norm_num) hmn
  exact ⟨B, _, R, R', N, N', [], [s], bind_ok.2 ⟨B1, g1, g2⟩, g3, rfl, hR, h, hre, held h hR.rebuilt hre, stiffness h,
    k0, C0, k0', C0', kG, C, kG', C', c1, c2, c3, c4, w⟩

end Verif.C100
