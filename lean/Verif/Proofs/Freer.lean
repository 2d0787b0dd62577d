import Verif.Props.C88
import Verif.Props.C92
import Verif.Proofs.Renumber
import Verif.Spec.Freer

/-!
# Lemmas on structures that admit more motions
-/

namespace Verif

open Finset Spec Model Indep C80

/-! ## Amplitudes -/

section
variable (m n s m' n' s' : ℕ → ℕ)

/-- The amplitudes of all panels in the larger model. -/
noncomputable def widen : ℕ → (ℕ → ℝ) → ℕ → ℝ
  | 0, _, _ => 0
  | c + 1, v, k =>
    if s' c ≤ k ∧ k < s' c + 3 * (m' c * n' c) then extend (m c) (n c) (s c) (m' c) (s' c) v k else widen c v k

/-- Widening is linear. -/
noncomputable def widenMap (c : ℕ) : (ℕ → ℝ) →ₗ[ℝ] (ℕ → ℝ) where
  toFun := widen m n s m' n' s' c
  map_add' v w := by
    induction c with
    | zero =>
      funext k
      simp [widen]
    | succ c ih =>
      funext k
      have := congrFun ih k
      simp only [Pi.add_apply] at this
      simp only [widen, extend, Pi.add_apply, this]
      split
      · split <;> simp
      · rfl
  map_smul' r v := by
    induction c with
    | zero =>
      funext k
      simp [widen]
    | succ c ih =>
      funext k
      have := congrFun ih k
      simp only [Pi.smul_apply, RingHom.id_apply] at this
      simp only [widen, extend, Pi.smul_apply, RingHom.id_apply, this]
      split
      · split <;> simp
      · rfl

variable {m n s m' n' s'}

theorem widen_block {c : ℕ} (hs : Apart s' (fun p => 3 * (m' p * n' p)) c) {p k : ℕ} (hp : p < c) (v : ℕ → ℝ)
    (hk : s' p ≤ k ∧ k < s' p + 3 * (m' p * n' p)) :
    widen m n s m' n' s' c v k = extend (m p) (n p) (s p) (m' p) (s' p) v k := by
  induction c with
  | zero => omega
  | succ c ih =>
    rcases Nat.lt_succ_iff_lt_or_eq.1 hp with h | rfl
    · have hne : ¬ (s' c ≤ k ∧ k < s' c + 3 * (m' c * n' c)) := fun h2 => by
        have := hs p hp c (by omega) (by omega)
        simp only at this
        omega
      rw [widen, if_neg hne]
      exact ih (fun p hp q hq => hs p (by omega) q (by omega)) h
    · rw [widen, if_pos hk]

theorem widen_off {c k : ℕ} (v : ℕ → ℝ) (h : ∀ p < c, ¬ (s' p ≤ k ∧ k < s' p + 3 * (m' p * n' p))) :
    widen m n s m' n' s' c v k = 0 := by
  induction c with
  | zero => rfl
  | succ c ih =>
    rw [widen, if_neg (h c (by omega))]
    exact ih fun p hp => h p (by omega)

theorem widen_extends {c : ℕ} (hs : Apart s' (fun p => 3 * (m' p * n' p)) c) (hm : ∀ p < c, m p ≤ m' p)
    (hn : ∀ p < c, n p ≤ n' p) {p : ℕ} (hp : p < c) (v : ℕ → ℝ) :
    Extends (m p) (n p) (s p) (m' p) (n' p) (s' p) v (widen m n s m' n' s' c v) := by
  have key : ∀ i < m' p, ∀ j < n' p, ∀ α < 3, widen m n s m' n' s' c v (Spec.number (m' p) (s' p) i j α)
      = if i < m p ∧ j < n p then v (Spec.number (m p) (s p) i j α) else 0 := fun i hi j hj α hα => by
    have h1 := number_lt (s := s' p) hi hj hα
    have h2 : s' p ≤ Spec.number (m' p) (s' p) i j α := by unfold Spec.number; omega
    rw [widen_block hs hp v ⟨h2, h1⟩, extend_number v hi hα]
  refine ⟨fun i hi j hj α hα => ?_, fun i hi j hj α hα hij => ?_⟩
  · rw [key i (hi.trans_le (hm p hp)) j (hj.trans_le (hn p hp)) α hα, if_pos ⟨hi, hj⟩]
  · rw [key i hi j hj α hα, if_neg hij]

end

/-! ## Displacements -/

section
variable {P P' : Panel ℝ} {S : Shape ℝ} {N : ℕ}

/-- The same displacements in both models. -/
theorem Spec.Freer.u_eq (h : Freer P P') (hS : Hier S N) (hm : P.m ≤ N) (hn : P.n ≤ N) {s s' : ℕ} {c c' : ℕ → ℝ}
    (hE : Extends P.m P.n s P'.m P'.n s' c c') (hc : ∀ k ∉ C76.actives P s, c k = 0) {α : ℕ} (hα : α < 3) :
    u S P' s' c' α = u S P s c α := by
  obtain ⟨q, hq⟩ := hS
  have hf : ∀ i < N, ∀ x fl, S.f i x fl = flag fl i * (q 0 i).eval x := (hq 0 (by norm_num)).2
  funext x y
  unfold u
  rw [h.a, h.b]
  have big : ∀ i < P'.m, ∀ j < P'.n, ¬ (i < P.m ∧ j < P.n) → c' (s' + 3 * (j * P'.m + i) + α) = 0 :=
    fun i hi j hj hij => hE.2 i hi j hj α hα hij
  have small : ∀ i < P.m, ∀ j < P.n, c' (s' + 3 * (j * P'.m + i) + α) = c (s + 3 * (j * P.m + i) + α) :=
    fun i hi j hj => hE.1 i hi j hj α hα
  symm
  calc _ = ∑ i ∈ range P.m, ∑ j ∈ range P'.n, c' (s' + 3 * (j * P'.m + i) + α) *
        (S.f i (2 / P.a * x - 1) (P'.xf α) * S.f j (2 / P.b * y - 1) (P'.yf α)) := by
        refine sum_congr rfl fun i hi => ?_
        have hi := mem_range.1 hi
        refine Eq.trans (sum_congr rfl fun j hj => ?_) (sum_subset (range_mono h.n) fun j hj hj' => ?_)
        · have hj := mem_range.1 hj
          rw [small i hi j hj]
          by_cases hk : s + 3 * (j * P.m + i) + α ∈ C76.actives P s
          · obtain ⟨α', hα', i', hi', j', hj', h1, h2, e⟩ := (C76.mem_actives P s _).1 hk
            obtain ⟨rfl, rfl, rfl⟩ := number_inj (s := s) hi hi' hα hα' e
            rw [hf i (hi.trans_le hm), hf j (hj.trans_le hn), hf i (hi.trans_le hm), hf j (hj.trans_le hn),
              h.x α hα i h1, h.y α hα j h2]
          · rw [hc _ hk, zero_mul, zero_mul]
        · rw [big i (hi.trans_le h.m) j (mem_range.1 hj) fun e => hj' (mem_range.2 e.2), zero_mul]
    _ = _ := by
        refine sum_subset (range_mono h.m) fun i hi hi' => sum_eq_zero fun j hj => ?_
        rw [big i (mem_range.1 hi) j (mem_range.1 hj) fun e => hi' (mem_range.2 e.1), zero_mul]

/-- What is allowed stays allowed. -/
theorem Spec.Freer.active (h : Freer P P') {s s' i j α : ℕ} (hi : i < P.m) (hj : j < P.n) (hα : α < 3)
    (ha : Spec.number P.m s i j α ∈ C76.actives P s) : Spec.number P'.m s' i j α ∈ C76.actives P' s' := by
  obtain ⟨α', hα', i', hi', j', hj', h1, h2, e⟩ := (C76.mem_actives P s _).1 ha
  obtain ⟨rfl, rfl, rfl⟩ := number_inj (s := s) hi hi' hα hα' e
  refine (C76.mem_actives P' s' _).2 ⟨α, hα, i, hi.trans_le h.m, j, hj.trans_le h.n, ?_, ?_, rfl⟩
  · rw [h.x α hα i h1]
    exact h1
  · rw [h.y α hα j h2]
    exact h2

/-- Energies depend on the displacements only. -/
theorem strainWork_same (ha : P'.a = P.a) (hb : P'.b = P.b) (hr : P'.r = P.r) {c c' : ℕ → ℝ}
    (h : ∀ α < 3, u S P' 0 c' α = u S P 0 c α) (F : ℕ → ℕ → ℝ) : strainWork S P' F c' = strainWork S P F c := by
  unfold strainWork linStrain
  rw [h 0 (by omega), h 1 (by omega), h 2 (by omega), ha, hb, hr]

theorem slopeWork_same (ha : P'.a = P.a) (hb : P'.b = P.b) {c c' : ℕ → ℝ}
    (h : ∀ α < 3, u S P' 0 c' α = u S P 0 c α) (Nxx Nyy Nxy : ℝ) :
    slopeWork S P' Nxx Nyy Nxy c' = slopeWork S P Nxx Nyy Nxy c := by
  unfold slopeWork
  rw [h 2 (by omega), ha, hb]

theorem kineticWork_same (ha : P'.a = P.a) (hb : P'.b = P.b) {c c' : ℕ → ℝ}
    (h : ∀ α < 3, u S P' 0 c' α = u S P 0 c α) (rho t d : ℝ) :
    kineticWork S P' rho t d c' = kineticWork S P rho t d c := by
  unfold kineticWork
  rw [h 0 (by omega), h 1 (by omega), h 2 (by omega), ha, hb]

theorem springs_other {P1 P2 P1' P2' : Panel ℝ} {a b a' b' : ℕ} {v v' : ℕ → ℝ} (h1 : P1'.a = P1.a ∧ P1'.b = P1.b)
    (h2 : P2'.a = P2.a ∧ P2'.b = P2.b) (e1 : ∀ α < 3, u S P1' a' v' α = u S P1 a v α)
    (e2 : ∀ α < 3, u S P2' b' v' α = u S P2 b v α) (f : String) (kt kr z1 z2 : ℝ) :
    C40.springs S P1' P2' a' b' v' f kt kr z1 z2 = C40.springs S P1 P2 a b v f kt kr z1 z2 := by
  simp only [C40.springs, e1 0 (by omega), e1 1 (by omega), e1 2 (by omega), e2 0 (by omega), e2 1 (by omega),
    e2 2 (by omega), h1.1, h1.2, h2.1, h2.2]

end

/-! ## Rebuilding and joints -/

theorem rebuild_pan {E : Env ℝ} {s t : Shell ℝ} (h : s.rebuild E = .ok t) (P : Panel ℝ) :
    ({ s with pan := P } : Shell ℝ).rebuild E = .ok { t with
      pan := P, nx := max s.nx P.m, ny := max s.ny P.n, size := some (3 * P.m * P.n) } := by
  obtain ⟨h1, h2, h3, h4, l, hl, rfl⟩ := (C54.rebuild_ok_iff E s t).1 h
  exact (C54.rebuild_ok_iff E _ _).2 ⟨h1, h2, h3, h4, l, hl, rfl⟩

/-- Fewer terms of a sum, none of them negative. -/
theorem forall₂_sublist {α : Type*} {R R' : α → ((ℕ → ℝ) → ℝ) → Prop} {l l' : List α} (hl : l'.Sublist l)
    {es es' : List ((ℕ → ℝ) → ℝ)} (h : List.Forall₂ R l es) (h' : List.Forall₂ R' l' es') {v w : ℕ → ℝ}
    (hr : ∀ d ∈ l', ∀ e e', R d e → R' d e' → e' w = e v) (h0 : ∀ d ∈ l, ∀ e, R d e → 0 ≤ e v) :
    (es'.map fun e => e w).sum ≤ (es.map fun e => e v).sum := by
  induction hl generalizing es es' with
  | slnil =>
    cases h
    cases h'
    exact le_rfl
  | @cons l' l a hl ih =>
    cases h with
    | cons g1 g2 =>
      simp only [List.map_cons, List.sum_cons]
      have := ih g2 h' hr fun d hd => h0 d (List.mem_cons_of_mem _ hd)
      have := h0 _ List.mem_cons_self _ g1
      linarith
  | @cons_cons l' l a hl ih =>
    cases h with
    | cons g1 g2 =>
      cases h' with
      | cons k1 k2 =>
        simp only [List.map_cons, List.sum_cons]
        have := ih g2 k2 (fun d hd => hr d (List.mem_cons_of_mem _ hd)) fun d hd => h0 d (List.mem_cons_of_mem _ hd)
        have := hr _ List.mem_cons_self _ _ g1 k1
        linarith

/-! ## Dimension -/

/-- An injective map between the unknowns. -/
theorem card_le_of_map {t t' : Finset ℕ} (J : (ℕ → ℝ) →ₗ[ℝ] (ℕ → ℝ))
    (hJ : ∀ v : ℕ → ℝ, (∀ k ∉ t, v k = 0) → ∀ k ∉ t', J v k = 0)
    (h0 : ∀ v : ℕ → ℝ, (∀ k ∉ t, v k = 0) → (∀ k, J v k = 0) → ∀ k ∈ t, v k = 0) : t.card ≤ t'.card := by
  classical
  let ext : (t → ℝ) →ₗ[ℝ] (ℕ → ℝ) :=
    { toFun := fun z k => if hk : k ∈ t then z ⟨k, hk⟩ else 0
      map_add' := fun z w => by
        funext k
        by_cases hk : k ∈ t <;> simp [hk]
      map_smul' := fun r z => by
        funext k
        by_cases hk : k ∈ t <;> simp [hk] }
  let L : (t → ℝ) →ₗ[ℝ] (t' → ℝ) :=
    { toFun := fun z k => J (ext z) k
      map_add' := fun z w => by
        funext k
        simp
      map_smul' := fun r z => by
        funext k
        simp }
  have off : ∀ z, ∀ k ∉ t, ext z k = 0 := fun z k hk => dif_neg hk
  have inj : Function.Injective L := by
    rw [injective_iff_map_eq_zero]
    intro z hz
    have hall : ∀ k, J (ext z) k = 0 := fun k => by
      by_cases hk : k ∈ t'
      · exact congrFun hz ⟨k, hk⟩
      · exact hJ _ (off z) k hk
    funext k
    have := h0 _ (off z) hall k.1 k.2
    change (if hk : k.1 ∈ t then z ⟨k.1, hk⟩ else 0) = 0 at this
    rw [dif_pos k.2] at this
    exact this
  have := LinearMap.finrank_le_finrank_of_injective inj
  simpa using this

end Verif
