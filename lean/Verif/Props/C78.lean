import Verif.Proofs.AssyRigid
import Verif.Props.C65
import Verif.Props.C66Energy

/-!
# C78: the stiffness of an assembly is positive definite exactly when supports and joints prevent every
motion without strain
-/

set_option linter.unusedSectionVars false

namespace Verif.C78

open Spec Model Indep

section
variable {E : Env ℝ} {A : Assy ℝ} {T : ℕ → Shell ℝ} {lam : ℕ → LamObj ℝ}

theorem shut_congr {P : ℕ → Panel ℝ} {h : ℕ → ℝ} {f g : ℕ → ℕ → ℝ → ℝ → ℝ} {d : ConnD ℝ}
    (h1 : ∀ c < 3, f d.p1 c = g d.p1 c) (h2 : ∀ c < 3, f d.p2 c = g d.p2 c) :
    Shut P h f d ↔ Shut P h g d := by
  unfold Shut
  simp only
  split
  · exact meets_congr h1 h2
  · exact meets_congr h2 h1

theorem disp_field (S : Shape ℝ) (P : Panel ℝ) (s0 : ℕ) (v : ℕ → ℝ) {N : ℕ} (hS : Hier S N)
    (hm : P.m ≤ N) (hn : P.n ≤ N) (ha : P.a ≠ 0) (hb : P.b ≠ 0) {κ : ℝ} {M : Motion}
    (h : IsMotion κ P s0 v M) : ∀ c < 3, u S P s0 v c = M.field κ c := fun c hc =>
  funext fun x => funext fun y => by
    rw [u_disp]
    exact (disp_motion hS hm hn ha hb h x y).1 c hc

/-- A motion of one block does not depend on the other amplitudes. -/
theorem isMotion_congr {κ : ℝ} {P : Panel ℝ} {s0 : ℕ} {d d' : ℕ → ℝ} {M : Motion}
    (h : ∀ i < 3 * (P.m * P.n), d (s0 + i) = d' (s0 + i)) (hM : IsMotion κ P s0 d' M) :
    IsMotion κ P s0 d M := by
  have e : ∀ c < 3, ∀ i j, eff P s0 d c i j = eff P s0 d' c i j := by
    intro c hc i j
    unfold eff
    split
    · rename_i hij
      have hlt : 3 * (j * P.m + i) + c < 3 * (P.m * P.n) := by
        have h1 : j * P.m + P.m ≤ P.m * P.n := by
          rw [mul_comm P.m P.n, ← Nat.succ_mul]
          exact Nat.mul_le_mul_right _ hij.2
        have := hij.1
        omega
      rw [add_assoc, h _ hlt]
    · rfl
  intro c hc
  simp only [e c hc]
  exact hM c hc

/-- From the amplitudes without energy to definiteness, for panels `P` with unknowns from `start` on. -/
theorem definite_of_kernel {S : Shape ℝ} (hC : S.C2) {N : ℕ} (hS : Hier S N) (hN : 4 ≤ N) {n : ℕ}
    {P : ℕ → Panel ℝ} {start : ℕ → ℕ} {t : ℕ → ℝ} {conns : List (ConnD ℝ)} {k0 : Coo ℝ}
    (hmn : ∀ k < n, (P k).m ≤ N ∧ (P k).n ≤ N) (hs : ∀ k < n, 0 < (P k).a ∧ 0 < (P k).b)
    (hd : ∀ d ∈ conns, d.p1 < n ∧ d.p2 < n)
    (h2 : ∀ v, 0 ≤ Coo.quad k0 v ∧ (Coo.quad k0 v = 0 ↔
      (∀ k < n, ∀ x ∈ Set.Icc 0 (P k).a, ∀ y ∈ Set.Icc 0 (P k).b, ∀ s < 6,
        linStrain (1 / (P k).r) S (P k) (start k) v s x y = 0) ∧
      ∀ d ∈ conns, Shut P t (fun k => u S (P k) (start k) v) d))
    (hg : ∀ d : ℕ → ℕ → ℝ, ∃ v : ℕ → ℝ, ∀ k < n, ∀ i < 3 * ((P k).m * (P k).n),
      v (start k + i) = d k (start k + i)) :
    (AssyRestrained n P t conns → AssyDefinite n P start k0) ∧
    ((∀ k < n, 4 ≤ (P k).m ∧ 4 ≤ (P k).n) → AssyDefinite n P start k0 → AssyRestrained n P t conns) := by
  simp only [linStrain_lin hC] at h2
  refine ⟨fun hR v => ?_, fun h4 hD M hM hJ k hk c hc => ?_⟩
  · obtain ⟨g0, g1⟩ := h2 v
    have key : Coo.quad k0 v = 0 ↔ ∀ k < n, ∀ i, Active (P k) (start k) i → v i = 0 := by
      rw [g1]
      constructor
      · rintro ⟨e1, e2⟩
        have : ∀ k, ∃ M : Motion, k < n → IsMotion (1 / (P k).r) (P k) (start k) v M ∧
            ∀ c < 3, EdgeFits (P k) c (M.field (1 / (P k).r) c) := by
          intro k
          by_cases hk : k < n
          · obtain ⟨M, hM⟩ := motion_of_strain hS hN (hmn k hk).1 (hmn k hk).2 (hs k hk).1.ne'
              (hs k hk).2.ne' (1 / (P k).r) (dense_Icc (P k).m (hs k hk).1)
              (dense_Icc (P k).n (hs k hk).2) (start k) v (e1 k hk)
            exact ⟨M, fun _ => hM⟩
          · exact ⟨⟨0, 0, 0, 0, 0, 0⟩, fun e => absurd e hk⟩
        choose M hM using this
        have hf : ∀ k < n, ∀ c < 3, u S (P k) (start k) v c
            = (M k).field (1 / (P k).r) c := fun k hk =>
          disp_field _ _ _ _ hS (hmn k hk).1 (hmn k hk).2 (hs k hk).1.ne' (hs k hk).2.ne' (hM k hk).1
        have hz := hR M (fun k hk => (hM k hk).2) fun d hdm =>
          (shut_congr (hf _ (hd d hdm).1) (hf _ (hd d hdm).2)).1 (e2 d hdm)
        intro k hk
        exact (C76.rest_iff _ _ _).2
          (rest_of_motion (hs k hk).1.ne' (hs k hk).2.ne' (hM k hk).1 (hz k hk))
      · intro hz
        have hr : ∀ k < n, ∀ α < 3, Rest (P k) (start k) v α := fun k hk =>
          (C76.rest_iff _ _ _).1 (hz k hk)
        have hu : ∀ k < n, ∀ c < 3, ∀ x y, u S (P k) (start k) v c x y = 0 := by
          intro k hk c hc x y
          rw [u_disp]
          exact disp_rest hS (hmn k hk).1 (hmn k hk).2 (hr k hk c hc) (by norm_num) (by norm_num) _ _
        refine ⟨fun k hk x _ y _ s _ =>
          (strain_of_rest hS (hmn k hk).1 (hmn k hk).2 _ (fun _ => 0) (hr k hk) s x y).2, fun d hdm => ?_⟩
        obtain ⟨d1, d2⟩ := hd d hdm
        unfold Shut
        simp only
        split
        · exact meets_zero (hu _ d1) (hu _ d2)
        · exact meets_zero (hu _ d2) (hu _ d1)
    refine ⟨fun ⟨k, hk, i, hi, hne⟩ => lt_of_le_of_ne g0 fun e => hne (key.1 e.symm k hk i hi), key.2⟩
  · have : ∀ k, ∃ d : ℕ → ℝ, k < n →
        IsMotion (1 / (P k).r) (P k) (start k) d (M k) := by
      intro k
      by_cases hk : k < n
      · obtain ⟨d, hd⟩ := exists_motion (hs k hk).1.ne' (hs k hk).2.ne' (h4 k hk).1 (h4 k hk).2
          (start k) (hM k hk)
        exact ⟨d, fun _ => hd⟩
      · exact ⟨fun _ => 0, fun e => absurd e hk⟩
    choose d hdM using this
    obtain ⟨v, hv⟩ := hg d
    have hvM : ∀ k < n, IsMotion (1 / (P k).r) (P k) (start k) v (M k) :=
      fun k hk => isMotion_congr (hv k hk) (hdM k hk)
    have hf : ∀ k < n, ∀ c < 3, u S (P k) (start k) v c
        = (M k).field (1 / (P k).r) c := fun k hk =>
      disp_field _ _ _ _ hS (hmn k hk).1 (hmn k hk).2 (hs k hk).1.ne' (hs k hk).2.ne' (hvM k hk)
    have h0 : Coo.quad k0 v = 0 := (h2 v).2.2 ⟨fun k hk x _ y _ s _ =>
        (disp_motion hS (hmn k hk).1 (hmn k hk).2 (hs k hk).1.ne' (hs k hk).2.ne' (hvM k hk) x y).2 s,
      fun d hdm => (shut_congr (hf _ (hd d hdm).1) (hf _ (hd d hdm).2)).2 (hJ d hdm)⟩
    have hz : ∀ α < 3, Rest (P k) (start k) v α := (C76.rest_iff _ _ _).1 fun i hi => by
      by_contra hne
      exact ((hD v).1 ⟨k, hk, i, hi, hne⟩).ne' h0
    intro x y
    rw [← hf k hk c hc, u_disp]
    exact disp_rest hS (hmn k hk).1 (hmn k hk).2 (hz c hc) (by norm_num) (by norm_num) _ _

/-- **C78.**  The stiffness matrix of an assembly exists.  It is positive definite exactly when no motion
of the panels without strain, other than rest, is compatible with the supports and keeps all joints shut
(the "only if" for four terms or more in both directions). -/
theorem definite_iff (h : Solid E A T lam) {N : ℕ} (hS : Hier E.S N) (hN : 4 ≤ N)
    (hmn : ∀ k < A.count, (A.panel k).m ≤ N ∧ (A.panel k).n ≤ N) :
    ∃ k0 M, A.multi.calcKC E (some A.conns) none = .ok (k0, M) ∧
      (AssyRestrained A.count A.panel (thick T) A.conns → AssyDefinite A.count A.panel A.start k0) ∧
      ((∀ k < A.count, 4 ≤ (A.panel k).m ∧ 4 ≤ (A.panel k).n) →
        AssyDefinite A.count A.panel A.start k0 →
        AssyRestrained A.count A.panel (thick T) A.conns) := by
  obtain ⟨k0, M, h1, h2⟩ := h.kernel
  exact ⟨k0, M, h1, definite_of_kernel h.fit.smooth hS hN hmn h.fit.sides
    (fun d hd => ⟨List.mem_range.1 (h.fit.joined d hd).1, List.mem_range.1 (h.fit.joined d hd).2.1⟩)
    h2 h.fit.glue⟩

end

/-- The amplitudes of an assembly that are switched on. -/
noncomputable def actives (n : ℕ) (P : ℕ → Panel ℝ) (start : ℕ → ℕ) : Finset ℕ :=
  (Finset.range n).biUnion fun k => C76.actives (P k) (start k)

/-- **C78, static analysis.**  With a definite matrix every set of forces has exactly one solution on the
amplitudes that are switched on. -/
theorem solvable {n : ℕ} {P : ℕ → Panel ℝ} {start : ℕ → ℕ} {L : Coo ℝ} (hL : AssyDefinite n P start L)
    (f : ℕ → ℝ) :
    ∃! d : ℕ → ℝ, (∀ i, (¬ ∃ k < n, Active (P k) (start k) i) → d i = 0) ∧
      ∀ i, (∃ k < n, Active (P k) (start k) i) →
        ∑ l ∈ actives n P start, Coo.entry L i l * d l = f i := by
  have hm : ∀ i, i ∈ actives n P start ↔ ∃ k < n, Active (P k) (start k) i := fun i => by
    simp [actives, C76.mem_actives]
  have := solve_unique L (actives n P start) (fun d _ h i hi => ?_) f
  · simpa only [hm] using this
  · by_contra hne
    obtain ⟨k, hk, hi⟩ := (hm i).1 hi
    exact ((hL d).1 ⟨k, hk, i, hi, hne⟩).ne' h

/-! ## Supports handed on by the joints -/

/-- A joint to a panel at rest holds any panel, so that one restrained panel in each connected part of an
assembly suffices: whatever the kinds of the joints and the curvatures of the panels. -/
theorem linked {n : ℕ} {P : ℕ → Panel ℝ} (h : ℕ → ℝ) {conns : List (ConnD ℝ)}
    (hs : ∀ k < n, 0 < (P k).a ∧ 0 < (P k).b) (hc : ∀ d ∈ conns, d.p1 < n ∧ d.p2 < n)
    (hr : ∀ k < n, ∃ k' < n, Restrained (1 / (P k').r) (P k') ∧
      Relation.ReflTransGen (Linked conns) k' k) : AssyRestrained n P h conns := by
  intro M hM hJ k hk
  obtain ⟨k', hk', hR, hl⟩ := hr k hk
  suffices ∀ j, Relation.ReflTransGen (Linked conns) k' j →
      ∀ c < 3, ∀ x y, (M j).field (1 / (P j).r) c x y = 0 from this k hl
  intro j hj
  induction hj with
  | refl => exact hR (M k') (hM k' hk')
  | tail _ hl ih =>
    obtain ⟨d, hd, hl⟩ := hl
    have hsh := hJ d hd
    obtain ⟨n1, n2⟩ := hc d hd
    obtain ⟨a1, b1⟩ := hs _ n1
    obtain ⟨a2, b2⟩ := hs _ n2
    unfold Shut at hsh
    simp only at hsh
    rcases hl with ⟨rfl, rfl⟩ | ⟨rfl, rfl⟩
    · split at hsh
      · exact (meets_rest a1 b1 a2 b2 hsh).2 ih
      · exact (meets_rest a2 b2 a1 b1 hsh).1 ih
    · split at hsh
      · exact (meets_rest a1 b1 a2 b2 hsh).1 ih
      · exact (meets_rest a2 b2 a1 b1 hsh).2 ih

/-- An assembly whose panels may all slide along `x` is not restrained by skin joints, joints over the
area and joints of blades along `x`. -/
theorem floating {n : ℕ} (hn : 0 < n) {P : ℕ → Panel ℝ} (h : ℕ → ℝ) {conns : List (ConnD ℝ)}
    (hP : ∀ k < n, ∀ i < 4, flag ((P k).xf 0) i ≠ 0 ∧ flag ((P k).yf 0) i ≠ 0)
    (hc : ∀ d ∈ conns, d.func ≠ "BFxcte") : ¬ AssyRestrained n P h conns := by
  intro hR
  have := hR (fun _ => ⟨1, 0, 0, 0, 0, 0⟩) (fun k hk c hc' => ?_) (fun d hd => ?_) 0 hn 0 (by norm_num) 0 0
  · simp [Motion.field] at this
  · match c, hc' with
    | 0, _ => exact (fits_edges (P k) 0 _).2 ⟨fun i hi hf => absurd hf (hP k hk i hi).1,
        fun j hj hf => absurd hf (hP k hk j hj).2⟩
    | 1, _ => simp [EdgeFits, Motion.field, dx, dy]
    | 2, _ => simp [EdgeFits, Motion.field, dx, dy]
  · have hf := hc d hd
    unfold Shut Meets
    simp only [if_neg hf]
    split_ifs <;> simp [Motion.field, dx, dy]

end Verif.C78
