import Mathlib.Analysis.InnerProductSpace.Spectrum
import Mathlib.LinearAlgebra.Dual.Lemmas
import Mathlib.LinearAlgebra.BilinearMap
import Verif.Basic.Entries
import Verif.Spec.Modes
import Verif.Proofs.Definite

/-!
# Two quadratic forms, one of them definite, are diagonal in a common basis
-/

namespace Verif

open Finset

section
variable {V : Type*} [AddCommGroup V] [Module ℝ V] [FiniteDimensional ℝ V]

/-- Two symmetric bilinear forms, `M` positive definite. -/
theorem diagonal (M K : V →ₗ[ℝ] V →ₗ[ℝ] ℝ) (hM : ∀ x y, M x y = M y x) (hK : ∀ x y, K x y = K y x)
    (hp : ∀ x, x ≠ 0 → 0 < M x x) {n : ℕ} (hn : Module.finrank ℝ V = n) :
    ∃ (φ : Fin n → V) (lam : Fin n → ℝ), Antitone lam ∧ (∀ a y, K (φ a) y = lam a * M (φ a) y) ∧
      (∀ a b, M (φ a) (φ b) = if a = b then 1 else 0) ∧ ∀ v, v = ∑ a, M (φ a) v • φ a := by
  have hinj : Function.Injective M := by
    rw [injective_iff_map_eq_zero]
    intro x hx
    by_contra hne
    have := hp x hne
    rw [hx] at this
    simp at this
  let e := LinearMap.linearEquivOfInjective M hinj (Subspace.dual_finrank_eq (K := ℝ) (V := V)).symm
  have he : ∀ f y, M (e.symm f) y = f y := fun f y => by
    have : M (e.symm f) = f := by
      have := e.apply_symm_apply f
      rwa [LinearMap.linearEquivOfInjective_apply] at this
    rw [this]
  let T : V →ₗ[ℝ] V := e.symm.toLinearMap ∘ₗ K
  have hT : ∀ x y, M (T x) y = K x y := fun x y => he _ _
  let cd : InnerProductSpace.Core ℝ V :=
    { inner := fun x y => M x y
      conj_inner_symm := fun x y => by simpa using hM y x
      re_inner_nonneg := fun x => by
        by_cases h : x = 0
        · simp [h]
        · simpa using (hp x h).le
      add_left := fun x y z => by simp
      smul_left := fun x y r => by simp
      definite := fun x hx => by
        by_contra h
        exact (hp x h).ne' hx }
  letI : NormedAddCommGroup V := @InnerProductSpace.Core.toNormedAddCommGroup ℝ V _ _ _ cd
  letI : InnerProductSpace ℝ V := InnerProductSpace.ofCore cd.toCore
  have hi : ∀ x y : V, inner ℝ x y = M x y := fun _ _ => rfl
  have hS : T.IsSymmetric := fun x y => by
    rw [hi, hi, hT, hM x, hT, hK]
  refine ⟨fun a => hS.eigenvectorBasis hn a, fun a => hS.eigenvalues hn a, hS.eigenvalues_antitone hn,
    fun a y => ?_, fun a b => ?_, fun v => ?_⟩
  · rw [← hT, hS.apply_eigenvectorBasis hn a]
    simp
  · rw [← hi]
    exact (orthonormal_iff_ite.1 (hS.eigenvectorBasis hn).orthonormal) a b
  · conv_lhs => rw [← (hS.eigenvectorBasis hn).sum_repr v]
    refine Finset.sum_congr rfl fun a _ => ?_
    rw [OrthonormalBasis.repr_apply_apply, hi]

end


/-! ## Matrices -/

open Spec Indep

/-- `x` times the matrix times `y`, over the unknowns. -/
noncomputable def form (t : Finset ℕ) (L : Coo ℝ) (x y : ℕ → ℝ) : ℝ := ∑ k ∈ t, x k * ∑ l ∈ t, Coo.entry L k l * y l

theorem form_comm {t : Finset ℕ} {L : Coo ℝ} (h : ∀ k l, Coo.entry L k l = Coo.entry L l k)
    (x y : ℕ → ℝ) : form t L x y = form t L y x := by
  unfold form
  simp only [Finset.mul_sum]
  rw [Finset.sum_comm]
  refine Finset.sum_congr rfl fun k _ => Finset.sum_congr rfl fun l _ => ?_
  rw [h l k]
  ring

theorem form_quad {t : Finset ℕ} (L : Coo ℝ) {v : ℕ → ℝ} (hv : ∀ k ∉ t, v k = 0) :
    Coo.quad L v = form t L v v := bilin_act L t hv

/-- Amplitudes given for the unknowns. -/
noncomputable def spread (t : Finset ℕ) (g : t → ℝ) (k : ℕ) : ℝ := if hk : k ∈ t then g ⟨k, hk⟩ else 0

theorem spread_off {t : Finset ℕ} (g : t → ℝ) {k : ℕ} (hk : k ∉ t) : spread t g k = 0 := by
  simp [spread, hk]

theorem spread_on {t : Finset ℕ} (g : t → ℝ) (k : t) : spread t g k = g k := by
  simp [spread, k.2]

/-- The form as a bilinear map. -/
noncomputable def formMap (t : Finset ℕ) (L : Coo ℝ) : (t → ℝ) →ₗ[ℝ] (t → ℝ) →ₗ[ℝ] ℝ :=
  LinearMap.mk₂ ℝ (fun x y => ∑ k : t, x k * ∑ l : t, Coo.entry L k l * y l)
    (fun x x' y => by simp [add_mul, Finset.sum_add_distrib])
    (fun r x y => by simp [Finset.mul_sum, mul_assoc])
    (fun x y y' => by simp [mul_add, Finset.sum_add_distrib])
    (fun r x y => by
      simp only [Pi.smul_apply, smul_eq_mul, Finset.mul_sum]
      exact Finset.sum_congr rfl fun k _ => Finset.sum_congr rfl fun l _ => by ring)

theorem formMap_eq (t : Finset ℕ) (L : Coo ℝ) (x y : t → ℝ) :
    formMap t L x y = form t L (spread t x) (spread t y) := by
  unfold form
  rw [← Finset.sum_coe_sort t]
  refine Finset.sum_congr rfl fun k _ => ?_
  rw [← Finset.sum_coe_sort t, spread_on]
  congr 1
  exact Finset.sum_congr rfl fun l _ => by rw [spread_on]

/-- **Existence of the modes.** -/
theorem exists_modes {t : Finset ℕ} {K M : Coo ℝ} (hK : ∀ k l, Coo.entry K k l = Coo.entry K l k)
    (hM : ∀ k l, Coo.entry M k l = Coo.entry M l k)
    (hp : ∀ v : ℕ → ℝ, (∃ k ∈ t, v k ≠ 0) → (∀ k ∉ t, v k = 0) → 0 < Coo.quad M v) :
    ∃ φ lam, Modes t K M φ lam := by
  have hn : Module.finrank ℝ (t → ℝ) = t.card := by simp
  obtain ⟨φ, lam, h1, h2, h3, h4⟩ := diagonal (formMap t M) (formMap t K)
    (fun x y => by rw [formMap_eq, formMap_eq, form_comm hM])
    (fun x y => by rw [formMap_eq, formMap_eq, form_comm hK])
    (fun x hx => by
      rw [formMap_eq, ← form_quad M fun k hk => spread_off x hk]
      refine hp _ ?_ fun k hk => spread_off x hk
      obtain ⟨k, hk⟩ := Function.ne_iff.1 hx
      exact ⟨k, k.2, by rw [spread_on]; exact hk⟩) hn
  refine ⟨fun a => spread t (φ a.rev), fun a => lam a.rev, fun a b hab => h1 (Fin.rev_le_rev.2 hab),
    fun a k hk => spread_off _ hk, fun a k hk => ?_, fun a b => ?_, fun v hv => ?_⟩
  · have := h2 a.rev (Pi.single ⟨k, hk⟩ 1)
    rw [formMap_eq, formMap_eq, form_comm hK, form_comm hM] at this
    have e : ∀ L : Coo ℝ, form t L (spread t (Pi.single ⟨k, hk⟩ 1)) (spread t (φ a.rev))
        = ∑ l ∈ t, Coo.entry L k l * spread t (φ a.rev) l := fun L => by
      unfold form
      rw [Finset.sum_eq_single_of_mem k hk fun l hl hne => ?_]
      · simp [spread, hk]
      · simp [spread, hl, hne]
    rwa [e, e] at this
  · have := h3 a.rev b.rev
    rw [formMap_eq] at this
    simpa [form] using this
  · refine ⟨fun a => formMap t M (φ a.rev) fun k => v k, ?_⟩
    have h := h4 fun k => v k
    funext k
    rw [← Equiv.sum_comp Fin.revPerm]
    by_cases hk : k ∈ t
    · have := congrFun h ⟨k, hk⟩
      simp only [Finset.sum_apply, Pi.smul_apply, smul_eq_mul] at this
      rw [this]
      refine Finset.sum_congr rfl fun a _ => ?_
      simp [spread, hk]
    · rw [hv k hk]
      simp [spread, hk]

end Verif
