import Verif.Props.C91

/-!
# Matrices that are equal up to the order and the signs of the unknowns
-/

set_option linter.unusedSectionVars false

namespace Verif.Signs

open Finset Spec Model Indep C80

/-- Entry by entry the same matrix, with permuted numbers and changed signs. -/
def Signed (e : ℕ ≃ ℕ) (σ : ℕ → ℝ) (A A' : Coo ℝ) : Prop :=
  ∀ k l, Coo.entry A' k l = σ k * σ l * Coo.entry A (e k) (e l)

section
variable {e : ℕ ≃ ℕ} {σ : ℕ → ℝ} {A A' B B' : Coo ℝ} {t t' : Finset ℕ}

theorem bilin_smul (L : Coo ℝ) (a b : ℝ) (x y : ℕ → ℝ) :
    Coo.bilin L (fun k => a * x k) (fun k => b * y k) = a * b * Coo.bilin L x y := by
  unfold Coo.bilin
  rw [← List.sum_map_mul_left]
  exact congrArg List.sum (List.map_congr_left fun t _ => by ring)

theorem bilin_comm (hA : Sym A) (k l : ℕ) :
    Coo.bilin A (unit l) (unit k) = Coo.bilin A (unit k) (unit l) := by
  rw [← Coo.entry_bilin, ← Coo.entry_bilin, hA]

/-- Equal energies: the same matrix. -/
theorem signed_of_quad (hσ : ∀ k, σ k * σ k = 1) (hA : Sym A) (hA' : Sym A')
    (h : ∀ c : ℕ → ℝ, Coo.quad A' (fun k => σ k * c (e k)) = Coo.quad A c) : Signed e σ A A' := fun k l => by
  apply mul_left_cancel₀ (two_ne_zero (α := ℝ))
  have hu : ∀ k, (fun i => σ i * (σ k * unit (e k) (e i))) = (unit k : ℕ → ℝ) := fun k => by
    funext i
    simp only [unit, EmbeddingLike.apply_eq_iff_eq]
    by_cases hi : i = k
    · subst hi
      rw [if_pos rfl, mul_one, hσ]
    · rw [if_neg hi, mul_zero, mul_zero]
  have q : ∀ k, Coo.quad A' (unit k) = Coo.quad A (fun i => σ k * unit (e k) i) := fun k => by
    rw [← h, hu]
  have q2 : Coo.quad A' (fun i => unit k i + 1 * unit l i)
      = Coo.quad A (fun i => σ k * unit (e k) i + 1 * (σ l * unit (e l) i)) := by
    rw [← h]
    congr 1
    funext i
    have h1 := congrFun (hu k) i
    have h2 := congrFun (hu l) i
    rw [← h1, ← h2]
    ring
  rw [C91.two_entry hA', q, q, q2]
  unfold Coo.quad
  rw [Coo.bilin_add_left, Coo.bilin_add_right, Coo.bilin_add_right]
  simp only [bilin_smul]
  rw [bilin_comm hA (e k) (e l), Coo.entry_bilin]
  ring

theorem Signed.symm (hσ : ∀ k, σ k * σ k = 1) (hA : Signed e σ A A') :
    Signed e.symm (fun k => σ (e.symm k)) A' A := fun k l => by
  rw [hA, e.apply_symm_apply, e.apply_symm_apply]
  have h1 := hσ (e.symm k)
  have h2 := hσ (e.symm l)
  calc Coo.entry A k l = (σ (e.symm k) * σ (e.symm k)) * (σ (e.symm l) * σ (e.symm l)) * Coo.entry A k l := by
        rw [h1, h2]; ring
    _ = _ := by ring

theorem ne (hσ : ∀ k, σ k * σ k = 1) (k : ℕ) : σ k ≠ 0 := fun h => by
  have := hσ k
  rw [h, zero_mul] at this
  exact zero_ne_one this

theorem mul_over {R : Type*} [CommRing R] (f : ℝ →+* R) (hσ : ∀ k, σ k * σ k = 1)
    (ht : ∀ k, k ∈ t' ↔ e k ∈ t) (hA : Signed e σ A A') (z : ℕ → R) (k : ℕ) :
    ∑ l ∈ t', f (Coo.entry A' k l) * (f (σ l) * z (e l)) = f (σ k) * ∑ l ∈ t, f (Coo.entry A (e k) l) * z l := by
  rw [← C91.sum_over ht, Finset.mul_sum]
  refine Finset.sum_congr rfl fun l _ => ?_
  have h1 : f (σ l) * f (σ l) = 1 := by rw [← map_mul, hσ, map_one]
  rw [hA k l, map_mul, map_mul]
  linear_combination (f (σ k) * f (Coo.entry A (e k) (e l)) * z (e l)) * h1

theorem eigen_to (hσ : ∀ k, σ k * σ k = 1) (ht : ∀ k, k ∈ t' ↔ e k ∈ t) (hA : Signed e σ A A')
    (hB : Signed e σ B B') {μ : ℂ} (h : Eigen t A B μ) : Eigen t' A' B' μ := by
  obtain ⟨z, ⟨k, hk, hz⟩, h⟩ := h
  refine ⟨fun l => (σ l : ℂ) * z (e l), ⟨e.symm k, (C91.back_mem ht k).1 hk, ?_⟩, fun l hl => ?_⟩
  · beta_reduce
    rw [e.apply_symm_apply]
    exact mul_ne_zero (Complex.ofReal_ne_zero.2 (ne hσ _)) hz
  · have e1 := mul_over Complex.ofRealHom hσ ht hA z l
    have e2 := mul_over Complex.ofRealHom hσ ht hB z l
    simp only [Complex.ofRealHom_eq_coe] at e1 e2
    rw [e1, e2, h _ ((ht l).1 hl)]
    ring

theorem eigen_iff (hσ : ∀ k, σ k * σ k = 1) (ht : ∀ k, k ∈ t' ↔ e k ∈ t) (hA : Signed e σ A A')
    (hB : Signed e σ B B') (μ : ℂ) : Eigen t' A' B' μ ↔ Eigen t A B μ :=
  ⟨eigen_to (fun _ => hσ _) (C91.back_mem ht) (hA.symm hσ) (hB.symm hσ), eigen_to hσ ht hA hB⟩

theorem critical_to (hσ : ∀ k, σ k * σ k = 1) (ht : ∀ k, k ∈ t' ↔ e k ∈ t) (hA : Signed e σ A A')
    (hB : Signed e σ B B') {p : ℂ} (h : Critical t A B p) : Critical t' A' B' p := by
  obtain ⟨z, ⟨k, hk, hz⟩, h⟩ := h
  refine ⟨fun l => (σ l : ℂ) * z (e l), ⟨e.symm k, (C91.back_mem ht k).1 hk, ?_⟩, fun l hl => ?_⟩
  · beta_reduce
    rw [e.apply_symm_apply]
    exact mul_ne_zero (Complex.ofReal_ne_zero.2 (ne hσ _)) hz
  · have e1 := mul_over Complex.ofRealHom hσ ht hA z l
    have e2 := mul_over Complex.ofRealHom hσ ht hB z l
    simp only [Complex.ofRealHom_eq_coe] at e1 e2
    rw [e1, e2]
    have := h _ ((ht l).1 hl)
    linear_combination (σ l : ℂ) * this

theorem critical_iff (hσ : ∀ k, σ k * σ k = 1) (ht : ∀ k, k ∈ t' ↔ e k ∈ t) (hA : Signed e σ A A')
    (hB : Signed e σ B B') (p : ℂ) : Critical t' A' B' p ↔ Critical t A B p :=
  ⟨critical_to (fun _ => hσ _) (C91.back_mem ht) (hA.symm hσ) (hB.symm hσ), critical_to hσ ht hA hB⟩

theorem balanced_to (hσ : ∀ k, σ k * σ k = 1) (ht : ∀ k, k ∈ t' ↔ e k ∈ t) (hA : Signed e σ A A')
    {f f' c : ℕ → ℝ} (hf : ∀ k ∈ t', f' k = σ k * f (e k)) (h : Balanced t A f c) :
    Balanced t' A' f' fun k => σ k * c (e k) := by
  refine ⟨fun k hk => ?_, fun k hk => ?_⟩
  · rw [h.off _ fun e => hk ((ht k).2 e), mul_zero]
  · have e := mul_over (RingHom.id ℝ) hσ ht hA c k
    simp only [RingHom.id_apply] at e
    rw [hf k hk, ← h.eq _ ((ht k).1 hk)]
    exact e

theorem quad_signed (hσ : ∀ k, σ k * σ k = 1) (ht : ∀ k, k ∈ t' ↔ e k ∈ t) (hA : Signed e σ A A') {v : ℕ → ℝ}
    (hv : ∀ k ∉ t, v k = 0) : Coo.quad A' (fun k => σ k * v (e k)) = Coo.quad A v := by
  have hv' : ∀ k ∉ t', σ k * v (e k) = 0 := fun k hk => by
    rw [hv _ fun h => hk ((ht k).2 h), mul_zero]
  rw [form_quad A hv, form_quad A' hv']
  unfold form
  rw [← C91.sum_over ht]
  refine Finset.sum_congr rfl fun k _ => ?_
  have e1 := mul_over (RingHom.id ℝ) hσ ht hA v k
  simp only [RingHom.id_apply] at e1
  rw [e1]
  have := hσ k
  linear_combination (v (e k) * ∑ l ∈ t, Coo.entry A (e k) l * v l) * this

/-- Permuting and changing signs is linear. -/
def signMap (e : ℕ ≃ ℕ) (σ : ℕ → ℝ) : (ℕ → ℝ) →ₗ[ℝ] (ℕ → ℝ) where
  toFun v k := σ k * v (e k)
  map_add' v w := by
    funext k
    simp only [Pi.add_apply]
    ring
  map_smul' r v := by
    funext k
    simp only [Pi.smul_apply, RingHom.id_apply, smul_eq_mul]
    ring

theorem values_le (hσ : ∀ k, σ k * σ k = 1) (ht : ∀ k, k ∈ t' ↔ e k ∈ t) (hA : Signed e σ A A')
    (hB : Signed e σ B B') (hs : Sym B) (hs' : Sym B') (hp : Pos t B) {φ lam φ' lam'} (h : Modes t A B φ lam)
    (h' : Modes t' A' B' φ' lam') {a : ℕ} (ha : a < t.card) (ha' : a < t'.card) :
    lam' ⟨a, ha'⟩ ≤ lam ⟨a, ha⟩ :=
  C88.compare h h' hs hs' (signMap e σ) ha ha'
    (fun v hv k hk => show σ k * v (e k) = 0 by rw [hv _ fun h => hk ((ht k).2 h), mul_zero])
    (fun v hv => (quad_signed hσ ht hA hv).le)
    (fun v hv => (congrArg _ (quad_signed hσ ht hB hv).symm).le)
    fun v hne hv => (hp v hne hv).trans_eq (quad_signed hσ ht hB hv).symm

/-- The whole list of eigenvalues is the same, with multiplicities. -/
theorem values (hσ : ∀ k, σ k * σ k = 1) (ht : ∀ k, k ∈ t' ↔ e k ∈ t) (hA : Signed e σ A A')
    (hB : Signed e σ B B') (hs : Sym B) (hs' : Sym B') (hp : Pos t B) {φ lam φ' lam'} (h : Modes t A B φ lam)
    (h' : Modes t' A' B' φ' lam') :
    t'.card = t.card ∧ ∀ a, ∀ (ha : a < t.card) (ha' : a < t'.card), lam' ⟨a, ha'⟩ = lam ⟨a, ha⟩ := by
  have hb := C91.back_mem ht
  have hp' : Pos t' B' := fun v ⟨k, hk, hne⟩ hv => by
    rw [← quad_signed (fun _ => hσ _) hb (hB.symm hσ) hv]
    refine hp _ ⟨e k, (ht k).1 hk, ?_⟩ fun k hk => ?_
    · rw [e.symm_apply_apply]
      exact mul_ne_zero (ne hσ _) hne
    · rw [hv _ fun h => hk ((hb k).2 h), mul_zero]
  refine ⟨?_, fun a ha ha' => le_antisymm (values_le hσ ht hA hB hs hs' hp h h' ha ha')
    (values_le (fun _ => hσ _) hb (hA.symm hσ) (hB.symm hσ) hs' hs hp' h' h ha' ha)⟩
  exact Finset.card_nbij' e e.symm (fun l hl => (ht l).1 hl) (fun l hl => (hb l).1 hl)
    (fun l _ => e.symm_apply_apply l) fun l _ => e.apply_symm_apply l

end

end Verif.Signs
