import Verif.Proofs.Tangent
import Verif.Proofs.Structure
import Verif.Proofs.EntryForm

/-!
# The finalised loop nest is the full operator
-/

set_option linter.unusedSectionVars false

namespace Verif

open Finset

variable {K : Type*} [Field K]

/-- The value does not change when the two basis functions are exchanged. -/
def SwapSym (m n : ℕ) (val : ℕ → ℕ → ℕ → ℕ → ℕ → ℕ → K) : Prop :=
  ∀ i k j l a b, i < m → k < m → j < n → l < n → val i k j l a b = val k i l j b a

theorem bilin_crossBuild (r c m1 n1 m2 n2 : ℕ) (pat : List (ℕ × ℕ))
    (val : ℕ → ℕ → ℕ → ℕ → ℕ → ℕ → K) (x y : ℕ → K) :
    Coo.bilin (crossBuild r c m1 n1 m2 n2 pat val) x y
      = ∑ A ∈ range m1 ×ˢ range n1, ∑ B ∈ range m2 ×ˢ range n2,
          blk pat (val A.1 B.1 A.2 B.2) (fun a => x (r + dof m1 A.1 A.2 + a))
            (fun b => y (c + dof m2 B.1 B.2 + b)) := by
  unfold Coo.bilin crossBuild
  simp only [sum_map_flatMap, list_sum_range, List.map_map]
  rw [Finset.sum_product]
  refine Finset.sum_congr rfl fun i _ => ?_
  rw [Finset.sum_comm]
  refine Finset.sum_congr rfl fun j _ => ?_
  rw [Finset.sum_product]
  rfl

theorem bilin_crossBuildJL (r c m1 n1 m2 n2 : ℕ) (pat : List (ℕ × ℕ))
    (val : ℕ → ℕ → ℕ → ℕ → ℕ → ℕ → K) (x y : ℕ → K) :
    Coo.bilin (crossBuildJL r c m1 n1 m2 n2 pat val) x y
      = Coo.bilin (crossBuild r c m1 n1 m2 n2 pat val) x y := by
  rw [bilin_crossBuild]
  unfold Coo.bilin crossBuildJL
  simp only [sum_map_flatMap, list_sum_range, List.map_map]
  rw [Finset.sum_product_right]
  refine Finset.sum_congr rfl fun j _ => ?_
  rw [Finset.sum_comm]
  refine Finset.sum_congr rfl fun i _ => ?_
  rw [Finset.sum_product_right]
  rfl

variable [CharZero K]

/-- Two symmetric forms with the same quadratic form are equal. -/
theorem bilin_eq_of_quad {L M : Coo K} (hM : ∀ x y, Coo.bilin M x y = Coo.bilin M y x)
    (h : ∀ v, Coo.quad (Coo.finalizeSym L) v = Coo.quad M v) (x y : ℕ → K) :
    Coo.bilin (Coo.finalizeSym L) x y = Coo.bilin M x y := by
  have h2 : (2 : K) ≠ 0 := by norm_num
  have e1 := Coo.two_bilin_finalizeSym L x y
  have e2 : 2 * Coo.bilin M x y = Coo.quad M (fun k => x k + 1 * y k) - Coo.quad M x
      - Coo.quad M y := by
    unfold Coo.quad
    rw [Coo.bilin_add_left, Coo.bilin_add_right, Coo.bilin_add_right, hM y x]
    ring
  rw [h, h, h, ← e2] at e1
  exact mul_left_cancel₀ h2 e1

theorem blk_swap {pat : List (ℕ × ℕ)} (hp : PatOK K pat) (e e' : ℕ → ℕ → K)
    (h : ∀ a b, e a b = e' b a) (x y : ℕ → K) : blk pat e x y = blk pat e' y x := by
  unfold blk
  rw [hp.swap fun a b => e' a b * y a * x b]
  exact congrArg List.sum (List.map_congr_left fun ab _ => by rw [h]; ring)

/-- The finalised upper-triangle build is the full build (no block skipped). -/
theorem finalize_symBuild_full (s m n : ℕ) {pat : List (ℕ × ℕ)} (hp : PatOK K pat)
    {val : ℕ → ℕ → ℕ → ℕ → ℕ → ℕ → K} (hs : SwapSym m n val) (x y : ℕ → K) :
    Coo.bilin (Coo.finalizeSym (symBuild s s m n pat val)) x y
      = Coo.bilin (crossBuild s s m n m n pat val) x y := by
  refine bilin_eq_of_quad (fun x y => ?_) (fun v => ?_) x y
  · rw [bilin_crossBuild, bilin_crossBuild, Finset.sum_comm]
    refine Finset.sum_congr rfl fun A hA => Finset.sum_congr rfl fun B hB => ?_
    simp only [mem_product, mem_range] at hA hB
    exact blk_swap hp _ _ (fun a b => hs _ _ _ _ _ _ hB.1 hA.1 hB.2 hA.2) _ _
  · rw [quad_symBuild s m n pat hp val hs, Coo.quad, bilin_crossBuild]

theorem finalize_symBuildJL_full (s m n : ℕ) {pat : List (ℕ × ℕ)} (hp : PatOK K pat)
    {val : ℕ → ℕ → ℕ → ℕ → ℕ → ℕ → K} (hs : SwapSym m n val) (x y : ℕ → K) :
    Coo.bilin (Coo.finalizeSym (symBuildJL s s m n pat val)) x y
      = Coo.bilin (crossBuild s s m n m n pat val) x y := by
  rw [← finalize_symBuild_full s m n hp hs]
  exact bilin_eq_of_quad (fun x y => Coo.bilin_finalizeSym_comm _ x y)
    (fun v => quad_symBuildJL s m n pat val v) x y

theorem bilin_finalizeSym_pad (f : ℕ) (L : Coo K) (x y : ℕ → K) :
    Coo.bilin (Coo.finalizeSym (Coo.pad f L)) x y = Coo.bilin (Coo.finalizeSym L) x y :=
  bilin_eq_of_quad (fun x y => Coo.bilin_finalizeSym_comm _ x y)
    (fun v => Coo.quad_finalizeSym_pad f L v) x y

theorem swapSym_sum {α : Type*} (pts : List α) {m n : ℕ}
    {val : α → ℕ → ℕ → ℕ → ℕ → ℕ → ℕ → K} (hs : ∀ p, SwapSym m n (val p)) :
    SwapSym m n fun i k j l a b => (pts.map fun p => val p i k j l a b).sum :=
  fun i k j l a b hi hk hj hl => congrArg List.sum
    (List.map_congr_left fun p _ => hs p i k j l a b hi hk hj hl)

theorem finalize_accum_full {α : Type*} (pts : List α) (s m n : ℕ) {pat : List (ℕ × ℕ)}
    (hp : PatOK K pat) {val : α → ℕ → ℕ → ℕ → ℕ → ℕ → ℕ → K} (hs : ∀ p, SwapSym m n (val p))
    (x y : ℕ → K) :
    Coo.bilin (Coo.finalizeSym (accum pts fun p => symBuild s s m n pat (val p))) x y
      = Coo.bilin (crossBuild s s m n m n pat fun i k j l a b =>
          (pts.map fun p => val p i k j l a b).sum) x y := by
  rw [← finalize_symBuild_full s m n hp (swapSym_sum pts hs)]
  exact bilin_eq_of_quad (fun x y => Coo.bilin_finalizeSym_comm _ x y)
    (fun v => quad_accum pts s m n pat val v) x y

theorem finalize_accumJL_full {α : Type*} (pts : List α) (s m n : ℕ) {pat : List (ℕ × ℕ)}
    (hp : PatOK K pat) {val : α → ℕ → ℕ → ℕ → ℕ → ℕ → ℕ → K} (hs : ∀ p, SwapSym m n (val p))
    (x y : ℕ → K) :
    Coo.bilin (Coo.finalizeSym (accum pts fun p => symBuildJL s s m n pat (val p))) x y
      = Coo.bilin (crossBuild s s m n m n pat fun i k j l a b =>
          (pts.map fun p => val p i k j l a b).sum) x y := by
  rw [← finalize_symBuild_full s m n hp (swapSym_sum pts hs)]
  exact bilin_eq_of_quad (fun x y => Coo.bilin_finalizeSym_comm _ x y)
    (fun v => quad_accumJL pts s m n pat val v) x y

end Verif
