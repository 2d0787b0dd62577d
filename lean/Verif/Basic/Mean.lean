import Verif.Basic.Assembly
import Mathlib.Algebra.Algebra.Subalgebra.Basic
import Mathlib.Algebra.Algebra.Subalgebra.Lattice
import Mathlib.Algebra.BigOperators.Pi
import Mathlib.Algebra.Algebra.Pi

/-!
# Linear functionals on functions of one variable

A `Mean` is what the code uses to turn a function of a natural coordinate into a number:
an integral over `[-1, 1]`, a finite quadrature rule, or evaluation at a point.
-/

namespace Verif

open Finset

/-- A functional that is linear on a subalgebra `C` of functions. -/
structure Mean (K : Type*) [Field K] where
  L : (K → K) → K
  C : Subalgebra K (K → K)
  add : ∀ f ∈ C, ∀ g ∈ C, L (fun x => f x + g x) = L f + L g
  smul : ∀ c : K, ∀ f ∈ C, L (fun x => c * f x) = c * L f

namespace Mean

variable {K : Type*} [Field K]

/-- Evaluation at a point. -/
def point (ξ : K) : Mean K where
  L f := f ξ
  C := ⊤
  add := fun _ _ _ _ => rfl
  smul := fun _ _ _ => rfl

/-- A finite quadrature rule, a list of `(point, weight)`. -/
def rule (R : List (K × K)) : Mean K where
  L f := (R.map fun p => p.2 * f p.1).sum
  C := ⊤
  add := fun f _ g _ => by
    simp only [mul_add]
    induction R with
    | nil => simp
    | cons p R ih => simp only [List.map_cons, List.sum_cons]; linear_combination ih
  smul := fun c f _ => by
    induction R with
    | nil => simp
    | cons p R ih => simp only [List.map_cons, List.sum_cons]; linear_combination ih

theorem L_zero (M : Mean K) : M.L (fun _ => 0) = 0 := by
  have h := M.smul 0 (fun _ => (0 : K)) (show (fun _ => (0 : K)) ∈ M.C from M.C.zero_mem)
  simpa using h

theorem L_sum {ι : Type*} (M : Mean K) (s : Finset ι) (k : ι → K) (h : ι → K → K)
    (hh : ∀ i ∈ s, h i ∈ M.C) :
    M.L (fun x => ∑ i ∈ s, k i * h i x) = ∑ i ∈ s, k i * M.L (h i) := by
  classical
  induction s using Finset.induction_on with
  | empty => simpa using M.L_zero
  | insert a s ha ih =>
    have hs : ∀ i ∈ s, h i ∈ M.C := fun i hi => hh i (Finset.mem_insert_of_mem hi)
    have hmem : (fun x => ∑ i ∈ s, k i * h i x) ∈ M.C := by
      have : (fun x => ∑ i ∈ s, k i * h i x) = ∑ i ∈ s, k i • h i := by
        funext x; simp [Finset.sum_apply]
      rw [this]
      exact M.C.sum_mem fun i hi => M.C.smul_mem (hs i hi) _
    have hmem' : (fun x => k a * h a x) ∈ M.C :=
      M.C.smul_mem (hh a (Finset.mem_insert_self _ _)) (k a)
    simp only [Finset.sum_insert ha]
    rw [M.add _ hmem' _ hmem, ih hs, M.smul _ _ (hh a (Finset.mem_insert_self _ _))]

/-- Two variables, separable terms. -/
theorem L2_sum {ι : Type*} (Mx My : Mean K) (s : Finset ι) (k : ι → K) (f g : ι → K → K)
    (hf : ∀ i ∈ s, f i ∈ Mx.C) (hg : ∀ i ∈ s, g i ∈ My.C) :
    Mx.L (fun ξ => My.L (fun η => ∑ i ∈ s, k i * (f i ξ * g i η)))
      = ∑ i ∈ s, k i * (Mx.L (f i) * My.L (g i)) := by
  have e1 : ∀ ξ, My.L (fun η => ∑ i ∈ s, k i * (f i ξ * g i η))
      = ∑ i ∈ s, (k i * My.L (g i)) * f i ξ := by
    intro ξ
    have := My.L_sum s (fun i => k i * f i ξ) g hg
    simp only [mul_assoc] at this
    rw [this]
    exact Finset.sum_congr rfl fun i _ => by ring
  simp only [e1]
  rw [Mx.L_sum s _ f hf]
  exact Finset.sum_congr rfl fun i _ => by ring

/-- Expansion of a quadratic (bilinear) density of separable fields. -/
theorem L2_bilin {ι κ : Type*} (Mx My : Mean K) (U V : Finset ℕ) (T1 : Finset ι) (T2 : Finset κ)
    (F : ℕ → ℕ → K) (x : ℕ → ι → K) (y : ℕ → κ → K) (f g : ℕ → ι → K → K)
    (f' g' : ℕ → κ → K → K) (hf : ∀ s τ, f s τ ∈ Mx.C) (hg : ∀ s τ, g s τ ∈ My.C)
    (hf' : ∀ s τ, f' s τ ∈ Mx.C) (hg' : ∀ s τ, g' s τ ∈ My.C) :
    Mx.L (fun ξ => My.L (fun η => ∑ s ∈ U, ∑ t ∈ V, F s t *
        (∑ τ ∈ T1, x s τ * (f s τ ξ * g s τ η)) * (∑ σ ∈ T2, y t σ * (f' t σ ξ * g' t σ η))))
      = ∑ s ∈ U, ∑ t ∈ V, ∑ τ ∈ T1, ∑ σ ∈ T2, F s t * (x s τ * y t σ) *
          (Mx.L (fun ξ => f s τ ξ * f' t σ ξ) * My.L (fun η => g s τ η * g' t σ η)) := by
  have key := L2_sum Mx My (U ×ˢ (V ×ˢ (T1 ×ˢ T2)))
    (fun q => F q.1 q.2.1 * (x q.1 q.2.2.1 * y q.2.1 q.2.2.2))
    (fun q ξ => f q.1 q.2.2.1 ξ * f' q.2.1 q.2.2.2 ξ)
    (fun q η => g q.1 q.2.2.1 η * g' q.2.1 q.2.2.2 η)
    (fun q _ => Mx.C.mul_mem (hf _ _) (hf' _ _)) (fun q _ => My.C.mul_mem (hg _ _) (hg' _ _))
  simp only [Finset.sum_product] at key
  rw [← key]
  congr 1
  funext ξ
  congr 1
  funext η
  refine Finset.sum_congr rfl fun s _ => Finset.sum_congr rfl fun t _ => ?_
  rw [mul_assoc, Finset.sum_mul_sum, Finset.mul_sum]
  refine Finset.sum_congr rfl fun τ _ => ?_
  rw [Finset.mul_sum]
  exact Finset.sum_congr rfl fun σ _ => by ring

/-- One variable. -/
theorem L1_bilin {ι κ : Type*} (M : Mean K) (T1 : Finset ι) (T2 : Finset κ)
    (x : ι → K) (y : κ → K) (g : ι → K → K) (g' : κ → K → K)
    (hg : ∀ τ, g τ ∈ M.C) (hg' : ∀ τ, g' τ ∈ M.C) :
    M.L (fun η => (∑ τ ∈ T1, x τ * g τ η) * (∑ σ ∈ T2, y σ * g' σ η))
      = ∑ τ ∈ T1, ∑ σ ∈ T2, x τ * y σ * M.L (fun η => g τ η * g' σ η) := by
  have key := L_sum M (T1 ×ˢ T2) (fun q => x q.1 * y q.2) (fun q η => g q.1 η * g' q.2 η)
    (fun q _ => M.C.mul_mem (hg _) (hg' _))
  simp only [Finset.sum_product] at key
  rw [← key]
  congr 1
  funext η
  rw [Finset.sum_mul_sum]
  exact Finset.sum_congr rfl fun τ _ => Finset.sum_congr rfl fun σ _ => by ring

end Mean
end Verif
