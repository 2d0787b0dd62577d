import Verif.Spec.Field

/-!
# From matrix entries to energies (generic part)
-/

namespace Verif

open Finset

variable {K : Type*} [Field K]

/-- One term `k · f^(p) · g^(q)` of a strain-displacement relation. -/
structure Term (K : Type*) where
  k : K
  p : ℕ
  q : ℕ

/-- Integral of `f_i^(p) f_k^(q)` in the orientation in which the code looks it up. -/
def Tab.get (I : Tab K) (p q i k : ℕ) (fa fb : Flags K) : K :=
  match p, q with
  | 0, 0 => I.ff i k fa fb
  | 0, 1 => I.ffp i k fa fb
  | 1, 0 => I.ffp k i fb fa
  | 0, _ => I.ffpp i k fa fb
  | _, 0 => I.ffpp k i fb fa
  | 1, 1 => I.fpfp i k fa fb
  | 1, _ => I.fpfpp i k fa fb
  | _, 1 => I.fpfpp k i fb fa
  | _, _ => I.fppfpp i k fa fb

theorem Tab.Exact.get {I : Tab K} {S : Shape K} {M : Mean K} (h : I.Exact S M)
    (p q i k : ℕ) (fa fb : Flags K) :
    I.get p q i k fa fb = M.L fun x => S.D p i x fa * S.D q k x fb := by
  match p, q with
  | 0, 0 => exact h.ff ..
  | 0, 1 => exact h.ffp ..
  | 1, 0 => simp only [Tab.get, Shape.D, h.ffp, mul_comm]
  | 0, q+2 => exact h.ffpp ..
  | p+2, 0 => simp only [Tab.get, Shape.D, h.ffpp, mul_comm]
  | 1, 1 => exact h.fpfp ..
  | 1, q+2 => exact h.fpfpp ..
  | p+2, 1 => simp only [Tab.get, Shape.D, h.fpfpp, mul_comm]
  | p+2, q+2 => exact h.fppfpp ..

theorem Tab.Exact.get_comm {I : Tab K} {S : Shape K} {M : Mean K} (h : I.Exact S M)
    (p q i k : ℕ) (fa fb : Flags K) : I.get p q i k fa fb = I.get q p k i fb fa := by
  rw [h.get, h.get]; congr 1; funext x; ring

/-- All pairs `(basis function, component)` of a panel. -/
def dofs (m n : ℕ) : Finset ((ℕ × ℕ) × ℕ) := (range m ×ˢ range n) ×ˢ range 3

/-- A field given by a strain-displacement operator. -/
def applyB (S : Shape K) (P : Panel K) (s0 : ℕ) (c : ℕ → K) (B : ℕ → ℕ → Term K)
    (s : ℕ) (ξ η : K) : K :=
  ∑ τ ∈ dofs P.m P.n, c (s0 + dof P.m τ.1.1 τ.1.2 + τ.2) * (B s τ.2).k *
    (S.D (B s τ.2).p τ.1.1 ξ (P.xf τ.2) * S.D (B s τ.2).q τ.1.2 η (P.yf τ.2))

/-- `pat` lists every entry of the 3×3 block that is not zero. -/
def PatFull (K : Type*) [Field K] (pat : List (ℕ × ℕ)) : Prop :=
  ∀ (e : ℕ → ℕ → K) (x y : ℕ → K),
    (∀ a < 3, ∀ b < 3, (a, b) ∉ pat → e a b = 0) →
    blk pat e x y = ∑ a ∈ range 3, ∑ b ∈ range 3, e a b * x a * y b

theorem pat9_full : PatFull K pat9 := by
  intro e x y _
  simp [blk, pat9, Finset.sum_range_succ]; ring

theorem pat7_full : PatFull K pat7 := by
  intro e x y h
  have h1 := h 0 (by omega) 1 (by omega) (by decide)
  have h2 := h 1 (by omega) 0 (by omega) (by decide)
  simp [blk, pat7, Finset.sum_range_succ, h1, h2]; ring

theorem pat3_full : PatFull K pat3 := by
  intro e x y h
  have h1 := h 0 (by omega) 1 (by omega) (by decide)
  have h2 := h 1 (by omega) 0 (by omega) (by decide)
  have h3 := h 0 (by omega) 2 (by omega) (by decide)
  have h4 := h 2 (by omega) 0 (by omega) (by decide)
  have h5 := h 1 (by omega) 2 (by omega) (by decide)
  have h6 := h 2 (by omega) 1 (by omega) (by decide)
  simp [blk, pat3, Finset.sum_range_succ, h1, h2, h3, h4, h5, h6]; ring

theorem pat1_full : PatFull K pat1 := by
  intro e x y h
  have h1 := h 0 (by omega) 1 (by omega) (by decide)
  have h2 := h 1 (by omega) 0 (by omega) (by decide)
  have h3 := h 0 (by omega) 2 (by omega) (by decide)
  have h4 := h 2 (by omega) 0 (by omega) (by decide)
  have h5 := h 1 (by omega) 2 (by omega) (by decide)
  have h6 := h 2 (by omega) 1 (by omega) (by decide)
  have h7 := h 0 (by omega) 0 (by omega) (by decide)
  have h8 := h 1 (by omega) 1 (by omega) (by decide)
  simp [blk, pat1, Finset.sum_range_succ, h1, h2, h3, h4, h5, h6, h7, h8]

theorem pat4_full : PatFull K pat4 := by
  intro e x y h
  have h1 := h 0 (by omega) 1 (by omega) (by decide)
  have h2 := h 1 (by omega) 0 (by omega) (by decide)
  have h5 := h 1 (by omega) 2 (by omega) (by decide)
  have h6 := h 2 (by omega) 1 (by omega) (by decide)
  have h8 := h 1 (by omega) 1 (by omega) (by decide)
  simp [blk, pat4, Finset.sum_range_succ, h1, h2, h5, h6, h8]; ring

theorem sum_blk_dofs (m n : ℕ) (e : ℕ × ℕ → ℕ × ℕ → ℕ → ℕ → K) (x : (ℕ × ℕ) → ℕ → K) :
    ∑ A ∈ range m ×ˢ range n, ∑ B ∈ range m ×ˢ range n,
      ∑ a ∈ range 3, ∑ b ∈ range 3, e A B a b * x A a * x B b
      = ∑ τ ∈ dofs m n, ∑ σ ∈ dofs m n, e τ.1 σ.1 τ.2 σ.2 * x τ.1 τ.2 * x σ.1 σ.2 := by
  unfold dofs
  rw [Finset.sum_product (range m ×ˢ range n) (range 3)]
  refine Finset.sum_congr rfl fun A _ => ?_
  rw [Finset.sum_comm]
  refine Finset.sum_congr rfl fun a _ => ?_
  rw [Finset.sum_product (range m ×ˢ range n) (range 3)]

/-- Builder whose entries are integrals of products of strain-displacement terms: its
quadratic form is the integral of the quadratic density. -/
theorem quad_ana [CharZero K] {I : Tab K} {S : Shape K} {M : Mean K} (hI : I.Exact S M)
    (hS : S.In M) (P : Panel K) (s0 : ℕ) (c : ℕ → K) (N : ℕ) (F : ℕ → ℕ → K)
    (hF : ∀ s t, F s t = F t s) (B : ℕ → ℕ → Term K) (J : K) (pat : List (ℕ × ℕ))
    (hp : PatOK K pat) (hf : PatFull K pat)
    (val : ℕ → ℕ → ℕ → ℕ → ℕ → ℕ → K)
    (hz : ∀ i k j l a b, (a, b) ∉ pat → val i k j l a b = 0)
    (hv : ∀ i k j l a b, a < 3 → b < 3 → val i k j l a b =
      J * ∑ s ∈ range N, ∑ t ∈ range N, F s t * ((B s a).k * (B t b).k) *
        (I.get (B s a).p (B t b).p i k (P.xf a) (P.xf b) *
          I.get (B s a).q (B t b).q j l (P.yf a) (P.yf b))) :
    Coo.quad (Coo.finalizeSym (symBuild s0 s0 P.m P.n pat val)) c
      = J * M.L (fun ξ => M.L (fun η =>
          Spec.dens N F (fun s => applyB S P s0 c B s ξ η))) := by
  have hmem : ∀ ab ∈ pat, ab.1 < 3 ∧ ab.2 < 3 := hp.lt3
  rw [quad_symBuild s0 P.m P.n pat hp val]
  · have e1 : ∀ A B : ℕ × ℕ, blk pat (val A.1 B.1 A.2 B.2)
        (fun a => c (s0 + dof P.m A.1 A.2 + a)) (fun b => c (s0 + dof P.m B.1 B.2 + b))
        = ∑ a ∈ range 3, ∑ b ∈ range 3, val A.1 B.1 A.2 B.2 a b *
            c (s0 + dof P.m A.1 A.2 + a) * c (s0 + dof P.m B.1 B.2 + b) :=
      fun A B => hf _ _ _ (fun a _ b _ hab => hz _ _ _ _ _ _ hab)
    simp only [e1]
    rw [sum_blk_dofs P.m P.n (fun A B a b => val A.1 B.1 A.2 B.2 a b)
      (fun A a => c (s0 + dof P.m A.1 A.2 + a))]
    unfold Spec.dens applyB
    rw [Mean.L2_bilin M M (range N) (range N) (dofs P.m P.n) (dofs P.m P.n) F
      (fun s τ => c (s0 + dof P.m τ.1.1 τ.1.2 + τ.2) * (B s τ.2).k)
      (fun s τ => c (s0 + dof P.m τ.1.1 τ.1.2 + τ.2) * (B s τ.2).k)
      (fun s τ ξ => S.D (B s τ.2).p τ.1.1 ξ (P.xf τ.2))
      (fun s τ η => S.D (B s τ.2).q τ.1.2 η (P.yf τ.2))
      (fun s τ ξ => S.D (B s τ.2).p τ.1.1 ξ (P.xf τ.2))
      (fun s τ η => S.D (B s τ.2).q τ.1.2 η (P.yf τ.2))
      (fun s τ => hS _ _ _) (fun s τ => hS _ _ _) (fun s τ => hS _ _ _) (fun s τ => hS _ _ _)]
    have e2 : ∀ τ ∈ dofs P.m P.n, ∀ σ ∈ dofs P.m P.n,
        val τ.1.1 σ.1.1 τ.1.2 σ.1.2 τ.2 σ.2 * c (s0 + dof P.m τ.1.1 τ.1.2 + τ.2) *
          c (s0 + dof P.m σ.1.1 σ.1.2 + σ.2)
        = ∑ s ∈ range N, ∑ t ∈ range N, J * (F s t *
          (c (s0 + dof P.m τ.1.1 τ.1.2 + τ.2) * (B s τ.2).k *
            (c (s0 + dof P.m σ.1.1 σ.1.2 + σ.2) * (B t σ.2).k)) *
          (M.L (fun ξ => S.D (B s τ.2).p τ.1.1 ξ (P.xf τ.2) *
              S.D (B t σ.2).p σ.1.1 ξ (P.xf σ.2)) *
            M.L (fun η => S.D (B s τ.2).q τ.1.2 η (P.yf τ.2) *
              S.D (B t σ.2).q σ.1.2 η (P.yf σ.2)))) := by
      intro τ hτ σ hσ
      simp only [dofs, mem_product, mem_range] at hτ hσ
      rw [hv _ _ _ _ _ _ hτ.2 hσ.2, mul_assoc, mul_assoc, Finset.sum_mul, Finset.mul_sum]
      refine Finset.sum_congr rfl fun s _ => ?_
      rw [Finset.sum_mul, Finset.mul_sum]
      refine Finset.sum_congr rfl fun t _ => ?_
      rw [hI.get, hI.get]
      ring
    rw [Finset.sum_congr rfl fun τ hτ => Finset.sum_congr rfl fun σ hσ => e2 τ hτ σ hσ]
    rw [Finset.mul_sum]
    have sw : ∀ G : ℕ → ℕ → ((ℕ × ℕ) × ℕ) → ((ℕ × ℕ) × ℕ) → K,
        ∑ τ ∈ dofs P.m P.n, ∑ σ ∈ dofs P.m P.n, ∑ s ∈ range N, ∑ t ∈ range N, G s t τ σ
        = ∑ s ∈ range N, ∑ t ∈ range N, ∑ τ ∈ dofs P.m P.n, ∑ σ ∈ dofs P.m P.n, G s t τ σ := by
      intro G
      calc _ = ∑ τ ∈ dofs P.m P.n, ∑ s ∈ range N, ∑ σ ∈ dofs P.m P.n, ∑ t ∈ range N, G s t τ σ :=
            Finset.sum_congr rfl fun τ _ => Finset.sum_comm
        _ = ∑ s ∈ range N, ∑ τ ∈ dofs P.m P.n, ∑ σ ∈ dofs P.m P.n, ∑ t ∈ range N, G s t τ σ :=
            Finset.sum_comm
        _ = ∑ s ∈ range N, ∑ τ ∈ dofs P.m P.n, ∑ t ∈ range N, ∑ σ ∈ dofs P.m P.n, G s t τ σ :=
            Finset.sum_congr rfl fun s _ => Finset.sum_congr rfl fun τ _ => Finset.sum_comm
        _ = _ := Finset.sum_congr rfl fun s _ => Finset.sum_comm
    rw [sw]
    refine Finset.sum_congr rfl fun s _ => ?_
    rw [Finset.mul_sum]
    refine Finset.sum_congr rfl fun t _ => ?_
    rw [Finset.mul_sum]
    refine Finset.sum_congr rfl fun τ _ => ?_
    rw [Finset.mul_sum]
  · intro i k j l a b _ _ _ _
    by_cases h : a < 3 ∧ b < 3
    · obtain ⟨ha, hb⟩ := h
      rw [hv _ _ _ _ _ _ ha hb, hv _ _ _ _ _ _ hb ha, Finset.sum_comm]
      congr 1
      refine Finset.sum_congr rfl fun t _ => Finset.sum_congr rfl fun s _ => ?_
      rw [hF s t, hI.get_comm (B s a).p, hI.get_comm (B s a).q]
      ring
    · rw [hz _ _ _ _ _ _ fun h' => h (hmem _ h'),
        hz _ _ _ _ _ _ fun h' => h ⟨(hmem _ h').2, (hmem _ h').1⟩]

end Verif
