import Verif.Proofs.AeroForm
import Verif.Proofs.RealField

/-!
# Bilinear form of the closed-form aerodynamic matrices
-/

namespace Verif

open Finset Spec Model

/-- The stored half of an operator integrated exactly, applied to vectors that only meet in this
half.  Row `s` of the operator is `g s` times the derivative of order `(p s, q s)`. -/
theorem bilin_mean22 {K : Type*} [Field K] {S : Shape K} {M : Mean K} (hS : S.In M) (P : Panel K)
    (r c : ℕ) (N : ℕ) (J : K) (g : ℕ → K) (p q : ℕ → ℕ) (v : ℕ → ℕ → ℕ → ℕ → ℕ → ℕ → K)
    (hv : ∀ i k j l, v i k j l 2 2 = J * ∑ s ∈ range N, g s *
      ((2 / P.a) ^ p s * (2 / P.b) ^ q s) *
      (M.L (fun ξ => S.D (p s) i ξ P.xw * S.D 0 k ξ P.xw)
        * M.L fun η => S.D (q s) j η P.yw * S.D 0 l η P.yw)) (x y : ℕ → K)
    (hxy : ∀ a b, x a ≠ 0 → y b ≠ 0 → a ≤ b) :
    Coo.bilin (symBuild r c P.m P.n [(2, 2)] v) x y
      = J * M.L fun ξ => M.L fun η =>
          (∑ s ∈ range N, g s * disp S P r x 2 (p s) (q s) ξ η) * disp S P c y 2 0 0 ξ η := by
  rw [bilin_sym22]
  have h : ∀ i k j l, (if r + dof P.m i j > c + dof P.m k l then 0
      else v i k j l 2 2 * x (r + dof P.m i j + 2) * y (c + dof P.m k l + 2))
      = v i k j l 2 2 * x (r + dof P.m i j + 2) * y (c + dof P.m k l + 2) := by
    intro i k j l
    split
    · have : x (r + dof P.m i j + 2) = 0 ∨ y (c + dof P.m k l + 2) = 0 := by
        by_contra hc
        obtain ⟨h1, h2⟩ := not_or.1 hc
        have := hxy _ _ h1 h2
        omega
      rcases this with h | h <;> rw [h] <;> ring
    · rfl
  simp only [h]
  simp only [hv]
  have key := Mean.L2_bilin M M (range N) (range 1) (range P.m ×ˢ range P.n) (range P.m ×ˢ range P.n)
    (fun s _ => g s) (fun s τ => x (r + dof P.m τ.1 τ.2 + 2) * ((2 / P.a) ^ p s * (2 / P.b) ^ q s))
    (fun _ σ => y (c + dof P.m σ.1 σ.2 + 2))
    (fun s τ ξ => S.D (p s) τ.1 ξ P.xw) (fun s τ η => S.D (q s) τ.2 η P.yw)
    (fun _ σ ξ => S.D 0 σ.1 ξ P.xw) (fun _ σ η => S.D 0 σ.2 η P.yw)
    (fun _ _ => hS _ _ _) (fun _ _ => hS _ _ _) (fun _ _ => hS _ _ _) (fun _ _ => hS _ _ _)
  have e : (fun ξ => M.L fun η =>
      (∑ s ∈ range N, g s * disp S P r x 2 (p s) (q s) ξ η) * disp S P c y 2 0 0 ξ η)
      = fun ξ => M.L fun η => ∑ s ∈ range N, ∑ t ∈ range 1, g s *
        (∑ τ ∈ range P.m ×ˢ range P.n, x (r + dof P.m τ.1 τ.2 + 2)
            * ((2 / P.a) ^ p s * (2 / P.b) ^ q s)
            * (S.D (p s) τ.1 ξ P.xw * S.D (q s) τ.2 η P.yw)) *
        ∑ σ ∈ range P.m ×ˢ range P.n, y (c + dof P.m σ.1 σ.2 + 2)
            * (S.D 0 σ.1 ξ P.xw * S.D 0 σ.2 η P.yw) := by
    funext ξ
    congr 1
    funext η
    rw [Finset.sum_mul]
    refine sum_congr rfl fun s _ => ?_
    rw [Finset.sum_range_one]
    congr 1
    · congr 1
      rw [Aero.disp_w, Finset.sum_product]
      exact sum_congr rfl fun i _ => sum_congr rfl fun j _ => by ring
    · rw [Aero.disp_w, Finset.sum_product]
      exact sum_congr rfl fun i _ => sum_congr rfl fun j _ => by ring
  rw [e, key]
  simp only [Finset.sum_range_one, Finset.sum_product, Finset.mul_sum, Finset.sum_mul]
  conv_rhs => rw [Finset.sum_comm]
  refine sum_congr rfl fun i _ => ?_
  rw [Finset.sum_comm]
  conv_rhs => rw [Finset.sum_comm]
  refine sum_congr rfl fun j _ => ?_
  conv_rhs => rw [Finset.sum_comm]
  refine sum_congr rfl fun k _ => ?_
  conv_rhs => rw [Finset.sum_comm]
  refine sum_congr rfl fun l _ => sum_congr rfl fun s _ => ?_
  ring

end Verif
