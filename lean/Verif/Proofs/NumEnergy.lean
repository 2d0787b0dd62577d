import Verif.Spec.Gauss
import Verif.Model.Num
import Verif.Proofs.AnaEntries
import Verif.Proofs.PatZero

/-!
# Energies of the numerically integrated builders (generic part)
-/

set_option linter.unusedSimpArgs false
set_option linter.unnecessarySeqFocus false

namespace Verif

open Finset

variable {K : Type*} [Field K]

theorem list_sum_comm {α ι M : Type*} [AddCommMonoid M] (l : List α) (s : Finset ι)
    (f : α → ι → M) : ∑ i ∈ s, (l.map fun a => f a i).sum = (l.map fun a => ∑ i ∈ s, f a i).sum := by
  induction l with
  | nil => simp
  | cons a l ih => simp only [List.map_cons, List.sum_cons, Finset.sum_add_distrib, ih]

/-- Field at one integration point, from the values `e s i j α` of the basis. -/
def field (m n s0 : ℕ) (c : ℕ → K) (e : ℕ → ℕ → ℕ → ℕ → K) (s : ℕ) : K :=
  ∑ τ ∈ dofs m n, c (s0 + dof m τ.1.1 τ.1.2 + τ.2) * e s τ.1.1 τ.1.2 τ.2

theorem field_eq (m n s0 : ℕ) (c : ℕ → K) (e : ℕ → ℕ → ℕ → ℕ → K) (s : ℕ) :
    field m n s0 c e s = ∑ A ∈ range m ×ˢ range n,
      ∑ α ∈ range 3, c (s0 + dof m A.1 A.2 + α) * e s A.1 A.2 α := by
  unfold field dofs
  rw [Finset.sum_product (range m ×ˢ range n) (range 3)]

/-- Expansion of a quadratic density in the coefficients. -/
theorem dens_field (m n s0 : ℕ) (c : ℕ → K) (N : ℕ) (F : ℕ → ℕ → K)
    (e : ℕ → ℕ → ℕ → ℕ → K) :
    ∑ τ ∈ dofs m n, ∑ σ ∈ dofs m n, (∑ s ∈ range N, ∑ t ∈ range N, F s t *
        e s τ.1.1 τ.1.2 τ.2 * e t σ.1.1 σ.1.2 σ.2) * c (s0 + dof m τ.1.1 τ.1.2 + τ.2) *
        c (s0 + dof m σ.1.1 σ.1.2 + σ.2)
      = Spec.dens N F (field m n s0 c e) := by
  unfold Spec.dens field
  simp only [Finset.sum_mul]
  rw [Finset.sum_congr rfl fun τ _ => Finset.sum_comm]
  rw [Finset.sum_comm]
  refine Finset.sum_congr rfl fun s _ => ?_
  rw [Finset.sum_congr rfl fun τ _ => Finset.sum_comm]
  rw [Finset.sum_comm]
  refine Finset.sum_congr rfl fun t _ => ?_
  rw [mul_assoc, Finset.sum_mul_sum, Finset.mul_sum]
  refine Finset.sum_congr rfl fun τ _ => ?_
  rw [Finset.mul_sum]
  exact Finset.sum_congr rfl fun σ _ => by ring

/-- A builder that accumulates, over the integration points, a weight times products of basis
values: its quadratic form is the weighted sum of the quadratic density. -/
theorem quad_num [CharZero K] {ι : Type*} (pts : List ι) (s0 m n : ℕ) (c : ℕ → K) (N : ℕ)
    (W : ι → K) (F : ι → ℕ → ℕ → K) (hF : ∀ p s t, F p s t = F p t s)
    (e : ι → ℕ → ℕ → ℕ → ℕ → K) (pat : List (ℕ × ℕ))
    (hp : PatOK K pat) (hf : PatFull K pat) (val : ι → ℕ → ℕ → ℕ → ℕ → ℕ → ℕ → K)
    (hz : ∀ p i k j l a b, (a, b) ∉ pat → val p i k j l a b = 0)
    (hv : ∀ p i k j l a b, a < 3 → b < 3 → val p i k j l a b =
      W p * ∑ s ∈ range N, ∑ t ∈ range N, F p s t * e p s i j a * e p t k l b) :
    Coo.quad (Coo.finalizeSym (accum pts fun p => symBuild s0 s0 m n pat (val p))) c
      = (pts.map fun p => W p * Spec.dens N (F p) (field m n s0 c (e p))).sum := by
  have hmem : ∀ ab ∈ pat, ab.1 < 3 ∧ ab.2 < 3 := hp.lt3
  rw [quad_accum, quad_symBuild s0 m n pat hp]
  · have e1 : ∀ A B : ℕ × ℕ, blk pat (fun a b => (pts.map fun p => val p A.1 B.1 A.2 B.2 a b).sum)
        (fun a => c (s0 + dof m A.1 A.2 + a)) (fun b => c (s0 + dof m B.1 B.2 + b))
        = ∑ a ∈ range 3, ∑ b ∈ range 3, (pts.map fun p => val p A.1 B.1 A.2 B.2 a b).sum *
            c (s0 + dof m A.1 A.2 + a) * c (s0 + dof m B.1 B.2 + b) :=
      fun A B => hf _ _ _ (fun a _ b _ hab => by
        apply List.sum_eq_zero
        intro x hx
        obtain ⟨p, _, rfl⟩ := List.mem_map.1 hx
        exact hz _ _ _ _ _ _ _ hab)
    simp only [e1]
    rw [sum_blk_dofs m n (fun A B a b => (pts.map fun p => val p A.1 B.1 A.2 B.2 a b).sum)
      (fun A a => c (s0 + dof m A.1 A.2 + a))]
    simp only [← List.sum_map_mul_right]
    simp only [list_sum_comm]
    congr 1
    refine List.map_congr_left fun p _ => ?_
    rw [← dens_field, Finset.mul_sum]
    refine Finset.sum_congr rfl fun τ hτ => ?_
    rw [Finset.mul_sum]
    refine Finset.sum_congr rfl fun σ hσ => ?_
    simp only [dofs, mem_product, mem_range] at hτ hσ
    rw [hv _ _ _ _ _ _ _ hτ.2 hσ.2]
    ring
  · intro i k j l a b _ _ _ _
    congr 1
    refine List.map_congr_left fun p _ => ?_
    by_cases h : a < 3 ∧ b < 3
    · obtain ⟨ha, hb⟩ := h
      rw [hv _ _ _ _ _ _ _ ha hb, hv _ _ _ _ _ _ _ hb ha, Finset.sum_comm]
      congr 1
      refine Finset.sum_congr rfl fun t _ => Finset.sum_congr rfl fun s _ => ?_
      rw [hF p s t]
      ring
    · rw [hz _ _ _ _ _ _ _ fun h' => h (hmem _ h'),
        hz _ _ _ _ _ _ _ fun h' => h ⟨(hmem _ h').2, (hmem _ h').1⟩]

/-- Same, loop order `j, l, i, k`. -/
theorem quad_numJL [CharZero K] {ι : Type*} (pts : List ι) (s0 m n : ℕ) (c : ℕ → K) (N : ℕ)
    (W : ι → K) (F : ι → ℕ → ℕ → K) (hF : ∀ p s t, F p s t = F p t s)
    (e : ι → ℕ → ℕ → ℕ → ℕ → K) (pat : List (ℕ × ℕ))
    (hp : PatOK K pat) (hf : PatFull K pat) (val : ι → ℕ → ℕ → ℕ → ℕ → ℕ → ℕ → K)
    (hz : ∀ p i k j l a b, (a, b) ∉ pat → val p i k j l a b = 0)
    (hv : ∀ p i k j l a b, a < 3 → b < 3 → val p i k j l a b =
      W p * ∑ s ∈ range N, ∑ t ∈ range N, F p s t * e p s i j a * e p t k l b) :
    Coo.quad (Coo.finalizeSym (accum pts fun p => symBuildJL s0 s0 m n pat (val p))) c
      = (pts.map fun p => W p * Spec.dens N (F p) (field m n s0 c (e p))).sum := by
  rw [quad_accumJL, ← quad_accum]
  exact quad_num pts s0 m n c N W F hF e pat hp hf val hz hv

section
variable [DecidableEq K]

/-- The natural coordinate of an integration point is that of the mapped Gauss node. -/
theorem xiAt_eq [CharZero K] (G : GaussTab K) (P : Panel K) (ha : P.a ≠ 0) (nx p : ℕ) :
    Model.xiAt G P nx p = 2 / P.a * Spec.node G nx (Spec.xdom P).1 (Spec.xdom P).2 p - 1 := by
  unfold Model.xiAt Model.sub Spec.xdom Spec.node
  by_cases h : P.x1 ≠ -1 ∧ P.x2 ≠ -1
  · simp only [if_pos h]; field_simp; ring
  · simp only [if_neg h]; field_simp; ring

theorem etaAt_eq [CharZero K] (G : GaussTab K) (P : Panel K) (hb : P.b ≠ 0) (ny q : ℕ) :
    Model.etaAt G P ny q = 2 / P.b * Spec.node G ny (Spec.ydom P).1 (Spec.ydom P).2 q - 1 := by
  unfold Model.etaAt Model.sub Spec.ydom Spec.node
  by_cases h : P.y1 ≠ -1 ∧ P.y2 ≠ -1
  · simp only [if_pos h]; field_simp; ring
  · simp only [if_neg h]; field_simp; ring

theorem intx_eq (P : Panel K) : (Model.sub P).intx = (Spec.xdom P).2 - (Spec.xdom P).1 := by
  unfold Model.sub Spec.xdom
  by_cases h : P.x1 ≠ -1 ∧ P.x2 ≠ -1
  · simp only [if_pos h]
  · simp only [if_neg h]

theorem inty_eq (P : Panel K) : (Model.sub P).inty = (Spec.ydom P).2 - (Spec.ydom P).1 := by
  unfold Model.sub Spec.ydom
  by_cases h : P.y1 ≠ -1 ∧ P.y2 ≠ -1
  · simp only [if_pos h]
  · simp only [if_neg h]

/-- Weighted sum over the grid of integration points as a Gauss rule on the domain. -/
theorem grid_gauss [CharZero K] (G : GaussTab K) (P : Panel K) (ha : P.a ≠ 0) (hb : P.b ≠ 0)
    (nx ny : ℕ) (g : ℕ → ℕ → K → K → K) :
    ((grid nx ny).map fun p =>
      (Model.weightAt G nx ny p.1 p.2 * (Model.sub P).intx * (Model.sub P).inty / 4) *
        g p.1 p.2 (Model.xiAt G P nx p.1) (Model.etaAt G P ny p.2)).sum
      = Spec.gaussP G nx ny P fun p q x y => g p q (2 / P.a * x - 1) (2 / P.b * y - 1) := by
  rw [sum_grid]
  unfold Spec.gaussP Spec.gauss Model.weightAt
  refine Finset.sum_congr rfl fun p _ => Finset.sum_congr rfl fun q _ => ?_
  rw [xiAt_eq G P ha, etaAt_eq G P hb, intx_eq, inty_eq]
  ring

end

/-- Basis values of the (von Karman) strain variation: curvature `κ`, slopes `wx`, `wy`. -/
def vkE (κ wx wy : K) (S : Shape K) (P : Panel K) (ξ η : K) (s i j α : ℕ) : K :=
  let B := fun p q => S.D p i ξ (P.xf α) * S.D q j η (P.yf α)
  match s, α with
  | 0, 0 => 2 / P.a * B 1 0
  | 0, 2 => wx * (2 / P.a * B 1 0)
  | 1, 1 => 2 / P.b * B 0 1
  | 1, 2 => κ * B 0 0 + wy * (2 / P.b * B 0 1)
  | 2, 0 => 2 / P.b * B 0 1
  | 2, 1 => 2 / P.a * B 1 0
  | 2, 2 => wx * (2 / P.b * B 0 1) + wy * (2 / P.a * B 1 0)
  | 3, 2 => -((2 / P.a) ^ 2 * B 2 0)
  | 4, 2 => -((2 / P.b) ^ 2 * B 0 2)
  | 5, 2 => -2 * (2 / P.a * (2 / P.b) * B 1 1)
  | _, _ => 0

theorem field_vkE (κ wx wy : K) (S : Shape K) (P : Panel K) (s0 : ℕ) (d : ℕ → K) (ξ η : K)
    (s : ℕ) (hs : s < 6) :
    field P.m P.n s0 d (vkE κ wx wy S P ξ η) s =
      match s with
      | 0 => Spec.disp S P s0 d 0 1 0 ξ η + wx * Spec.disp S P s0 d 2 1 0 ξ η
      | 1 => Spec.disp S P s0 d 1 0 1 ξ η + κ * Spec.disp S P s0 d 2 0 0 ξ η +
          wy * Spec.disp S P s0 d 2 0 1 ξ η
      | 2 => Spec.disp S P s0 d 0 0 1 ξ η + Spec.disp S P s0 d 1 1 0 ξ η +
          (wx * Spec.disp S P s0 d 2 0 1 ξ η + wy * Spec.disp S P s0 d 2 1 0 ξ η)
      | 3 => - Spec.disp S P s0 d 2 2 0 ξ η
      | 4 => - Spec.disp S P s0 d 2 0 2 ξ η
      | _ => - 2 * Spec.disp S P s0 d 2 1 1 ξ η := by
  rw [field_eq]
  interval_cases s <;>
    simp only [disp_eq, vkE, Finset.sum_range_succ, Finset.sum_range_zero,
      ← Finset.sum_add_distrib, ← Finset.sum_neg_distrib, Finset.mul_sum] <;>
    exact Finset.sum_congr rfl fun A _ => by ring

end Verif
