import Verif.Proofs.FullOp
import Verif.Proofs.AnaEntries

/-!
# Products of displacement fields under line and area functionals
-/

set_option linter.unusedSectionVars false

namespace Verif

open Finset Spec

variable {K : Type*} [Field K]

namespace Mean

/-- Linear combinations, given as a list. -/
theorem L_list (M : Mean K) (l : List (K × (K → K))) (h : ∀ t ∈ l, t.2 ∈ M.C) :
    (fun x => (l.map fun t => t.1 * t.2 x).sum) ∈ M.C ∧
    M.L (fun x => (l.map fun t => t.1 * t.2 x).sum) = (l.map fun t => t.1 * M.L t.2).sum := by
  induction l with
  | nil => exact ⟨M.C.zero_mem, by simpa using M.L_zero⟩
  | cons t l ih =>
    obtain ⟨i1, i2⟩ := ih fun s hs => h s (List.mem_cons_of_mem _ hs)
    have ht : t.2 ∈ M.C := h t List.mem_cons_self
    have ht' : (fun x => t.1 * t.2 x) ∈ M.C := M.C.smul_mem ht t.1
    simp only [List.map_cons, List.sum_cons]
    exact ⟨M.C.add_mem ht' i1, by rw [M.add _ ht' _ i1, M.smul _ _ ht, i2]⟩

/-- Functions of two variables on which the iterated functional is linear. -/
def Sep (M : Mean K) (H : K → K → K) : Prop :=
  (∀ ξ, H ξ ∈ M.C) ∧ (fun ξ => M.L (H ξ)) ∈ M.C

theorem L2_list (M : Mean K) (l : List (K × (K → K → K))) (h : ∀ t ∈ l, M.Sep t.2) :
    M.L (fun ξ => M.L fun η => (l.map fun t => t.1 * t.2 ξ η).sum)
      = (l.map fun t => t.1 * M.L fun ξ => M.L (t.2 ξ)).sum := by
  have e : ∀ ξ, M.L (fun η => (l.map fun t => t.1 * t.2 ξ η).sum)
      = ((l.map fun t => (t.1, fun ξ => M.L (t.2 ξ))).map fun t => t.1 * t.2 ξ).sum := by
    intro ξ
    have := (M.L_list (l.map fun t => (t.1, t.2 ξ)) (by
      intro s hs
      obtain ⟨t, ht, rfl⟩ := List.mem_map.1 hs
      exact (h t ht).1 ξ)).2
    simpa [List.map_map, Function.comp_def] using this
  simp only [e]
  rw [(M.L_list _ (by
      intro s hs
      obtain ⟨t, ht, rfl⟩ := List.mem_map.1 hs
      exact (h t ht).2)).2]
  simp [List.map_map, Function.comp_def]

end Mean

variable {I : Tab K} {S : Shape K} {M : Mean K}

/-- `∑_A ∑_B c_A c'_B φ(A, B)` over the basis functions of two panels. -/
def pairSum (P1 P2 : Panel K) (φ : ℕ × ℕ → ℕ × ℕ → K) : K :=
  ∑ A ∈ range P1.m ×ˢ range P1.n, ∑ B ∈ range P2.m ×ˢ range P2.n, φ A B

theorem pairSum_add (P1 P2 : Panel K) (φ ψ : ℕ × ℕ → ℕ × ℕ → K) :
    pairSum P1 P2 φ + pairSum P1 P2 ψ = pairSum P1 P2 fun A B => φ A B + ψ A B := by
  simp only [pairSum, Finset.sum_add_distrib]

theorem mul_pairSum (P1 P2 : Panel K) (k : K) (φ : ℕ × ℕ → ℕ × ℕ → K) :
    k * pairSum P1 P2 φ = pairSum P1 P2 fun A B => k * φ A B := by
  simp only [pairSum, Finset.mul_sum]

theorem disp_memY (hS : S.In M) (P : Panel K) (s : ℕ) (c : ℕ → K) (α p q : ℕ) (ξ : K) :
    (fun η => disp S P s c α p q ξ η) ∈ M.C := by
  have : (fun η => disp S P s c α p q ξ η) = ∑ A ∈ range P.m ×ˢ range P.n,
      (c (s + dof P.m A.1 A.2 + α) * ((2 / P.a) ^ p * (2 / P.b) ^ q) * S.D p A.1 ξ (P.xf α)) •
        (fun η => S.D q A.2 η (P.yf α)) := by
    funext η
    rw [disp_eq, Finset.sum_apply]
    exact Finset.sum_congr rfl fun A _ => by simp; ring
  rw [this]
  exact M.C.sum_mem fun A _ => M.C.smul_mem (hS q A.2 _) _

theorem disp_memX (hS : S.In M) (P : Panel K) (s : ℕ) (c : ℕ → K) (α p q : ℕ) (η : K) :
    (fun ξ => disp S P s c α p q ξ η) ∈ M.C := by
  have : (fun ξ => disp S P s c α p q ξ η) = ∑ A ∈ range P.m ×ˢ range P.n,
      (c (s + dof P.m A.1 A.2 + α) * ((2 / P.a) ^ p * (2 / P.b) ^ q) * S.D q A.2 η (P.yf α)) •
        (fun ξ => S.D p A.1 ξ (P.xf α)) := by
    funext ξ
    rw [disp_eq, Finset.sum_apply]
    exact Finset.sum_congr rfl fun A _ => by simp; ring
  rw [this]
  exact M.C.sum_mem fun A _ => M.C.smul_mem (hS p A.1 _) _

/-- Along a line `x = const` of each panel. -/
theorem L_dispX (hI : I.Exact S M) (hS : S.In M) (P1 P2 : Panel K) (s1 s2 : ℕ) (c c' : ℕ → K)
    (α p q β p' q' : ℕ) (ξ1 ξ2 : K) :
    M.L (fun η => disp S P1 s1 c α p q ξ1 η * disp S P2 s2 c' β p' q' ξ2 η)
      = pairSum P1 P2 fun A B =>
        (2 / P1.a) ^ p * (2 / P1.b) ^ q * ((2 / P2.a) ^ p' * (2 / P2.b) ^ q') *
        (S.D p A.1 ξ1 (P1.xf α) * S.D p' B.1 ξ2 (P2.xf β)) *
        I.get q q' A.2 B.2 (P1.yf α) (P2.yf β) *
        c (s1 + dof P1.m A.1 A.2 + α) * c' (s2 + dof P2.m B.1 B.2 + β) := by
  have h := M.L1_bilin (range P1.m ×ˢ range P1.n) (range P2.m ×ˢ range P2.n)
    (fun A => c (s1 + dof P1.m A.1 A.2 + α) * ((2 / P1.a) ^ p * (2 / P1.b) ^ q)
      * S.D p A.1 ξ1 (P1.xf α))
    (fun B => c' (s2 + dof P2.m B.1 B.2 + β) * ((2 / P2.a) ^ p' * (2 / P2.b) ^ q')
      * S.D p' B.1 ξ2 (P2.xf β))
    (fun A η => S.D q A.2 η (P1.yf α)) (fun B η => S.D q' B.2 η (P2.yf β))
    (fun A => hS _ _ _) (fun B => hS _ _ _)
  simp only [disp_eq, mul_assoc] at h ⊢
  rw [h, pairSum]
  refine Finset.sum_congr rfl fun A _ => Finset.sum_congr rfl fun B _ => ?_
  rw [hI.get]
  ring

/-- Along a line `y = const` of each panel. -/
theorem L_dispY (hI : I.Exact S M) (hS : S.In M) (P1 P2 : Panel K) (s1 s2 : ℕ) (c c' : ℕ → K)
    (α p q β p' q' : ℕ) (η1 η2 : K) :
    M.L (fun ξ => disp S P1 s1 c α p q ξ η1 * disp S P2 s2 c' β p' q' ξ η2)
      = pairSum P1 P2 fun A B =>
        (2 / P1.a) ^ p * (2 / P1.b) ^ q * ((2 / P2.a) ^ p' * (2 / P2.b) ^ q') *
        I.get p p' A.1 B.1 (P1.xf α) (P2.xf β) *
        (S.D q A.2 η1 (P1.yf α) * S.D q' B.2 η2 (P2.yf β)) *
        c (s1 + dof P1.m A.1 A.2 + α) * c' (s2 + dof P2.m B.1 B.2 + β) := by
  have h := M.L1_bilin (range P1.m ×ˢ range P1.n) (range P2.m ×ˢ range P2.n)
    (fun A => c (s1 + dof P1.m A.1 A.2 + α) * ((2 / P1.a) ^ p * (2 / P1.b) ^ q)
      * S.D q A.2 η1 (P1.yf α))
    (fun B => c' (s2 + dof P2.m B.1 B.2 + β) * ((2 / P2.a) ^ p' * (2 / P2.b) ^ q')
      * S.D q' B.2 η2 (P2.yf β))
    (fun A ξ => S.D p A.1 ξ (P1.xf α)) (fun B ξ => S.D p' B.1 ξ (P2.xf β))
    (fun A => hS _ _ _) (fun B => hS _ _ _)
  have e : (fun ξ => disp S P1 s1 c α p q ξ η1 * disp S P2 s2 c' β p' q' ξ η2)
      = fun ξ => (∑ A ∈ range P1.m ×ˢ range P1.n,
          c (s1 + dof P1.m A.1 A.2 + α) * ((2 / P1.a) ^ p * (2 / P1.b) ^ q)
            * S.D q A.2 η1 (P1.yf α) * S.D p A.1 ξ (P1.xf α)) *
        ∑ B ∈ range P2.m ×ˢ range P2.n,
          c' (s2 + dof P2.m B.1 B.2 + β) * ((2 / P2.a) ^ p' * (2 / P2.b) ^ q')
            * S.D q' B.2 η2 (P2.yf β) * S.D p' B.1 ξ (P2.xf β) := by
    funext ξ
    rw [disp_eq, disp_eq]
    congr 1 <;> exact Finset.sum_congr rfl fun A _ => by ring
  rw [e, h, pairSum]
  refine Finset.sum_congr rfl fun A _ => Finset.sum_congr rfl fun B _ => ?_
  rw [hI.get]
  ring

/-- Over the area. -/
theorem sep_disp (hI : I.Exact S M) (hS : S.In M) (P1 P2 : Panel K) (s1 s2 : ℕ) (c c' : ℕ → K)
    (α p q β p' q' : ℕ) :
    M.Sep (fun ξ η => disp S P1 s1 c α p q ξ η * disp S P2 s2 c' β p' q' ξ η) := by
  refine ⟨fun ξ => M.C.mul_mem (disp_memY hS ..) (disp_memY hS ..), ?_⟩
  simp only [L_dispX hI hS, pairSum]
  have : (fun ξ => ∑ A ∈ range P1.m ×ˢ range P1.n, ∑ B ∈ range P2.m ×ˢ range P2.n,
        (2 / P1.a) ^ p * (2 / P1.b) ^ q * ((2 / P2.a) ^ p' * (2 / P2.b) ^ q') *
        (S.D p A.1 ξ (P1.xf α) * S.D p' B.1 ξ (P2.xf β)) *
        I.get q q' A.2 B.2 (P1.yf α) (P2.yf β) *
        c (s1 + dof P1.m A.1 A.2 + α) * c' (s2 + dof P2.m B.1 B.2 + β))
      = ∑ A ∈ range P1.m ×ˢ range P1.n, ∑ B ∈ range P2.m ×ˢ range P2.n,
        ((2 / P1.a) ^ p * (2 / P1.b) ^ q * ((2 / P2.a) ^ p' * (2 / P2.b) ^ q') *
        I.get q q' A.2 B.2 (P1.yf α) (P2.yf β) *
        c (s1 + dof P1.m A.1 A.2 + α) * c' (s2 + dof P2.m B.1 B.2 + β)) •
        (fun ξ => S.D p A.1 ξ (P1.xf α) * S.D p' B.1 ξ (P2.xf β)) := by
    funext ξ
    simp only [Finset.sum_apply]
    exact Finset.sum_congr rfl fun A _ => Finset.sum_congr rfl fun B _ => by simp; ring
  rw [this]
  exact M.C.sum_mem fun A _ => M.C.sum_mem fun B _ =>
    M.C.smul_mem (M.C.mul_mem (hS p A.1 _) (hS p' B.1 _)) _

theorem L2_disp (hI : I.Exact S M) (hS : S.In M) (P1 P2 : Panel K) (s1 s2 : ℕ) (c c' : ℕ → K)
    (α p q β p' q' : ℕ) :
    M.L (fun ξ => M.L (fun η => disp S P1 s1 c α p q ξ η * disp S P2 s2 c' β p' q' ξ η))
      = pairSum P1 P2 fun A B =>
        (2 / P1.a) ^ p * (2 / P1.b) ^ q * ((2 / P2.a) ^ p' * (2 / P2.b) ^ q') *
        I.get p p' A.1 B.1 (P1.xf α) (P2.xf β) * I.get q q' A.2 B.2 (P1.yf α) (P2.yf β) *
        c (s1 + dof P1.m A.1 A.2 + α) * c' (s2 + dof P2.m B.1 B.2 + β) := by
  simp only [L_dispX hI hS, pairSum]
  have h := M.L_sum ((range P1.m ×ˢ range P1.n) ×ˢ (range P2.m ×ˢ range P2.n))
    (fun q2 => (2 / P1.a) ^ p * (2 / P1.b) ^ q * ((2 / P2.a) ^ p' * (2 / P2.b) ^ q') *
        I.get q q' q2.1.2 q2.2.2 (P1.yf α) (P2.yf β) *
        c (s1 + dof P1.m q2.1.1 q2.1.2 + α) * c' (s2 + dof P2.m q2.2.1 q2.2.2 + β))
    (fun q2 ξ => S.D p q2.1.1 ξ (P1.xf α) * S.D p' q2.2.1 ξ (P2.xf β))
    (fun q2 _ => M.C.mul_mem (hS _ _ _) (hS _ _ _))
  simp only [Finset.sum_product (range P1.m ×ˢ range P1.n)] at h
  refine Eq.trans ?_ (h.trans ?_)
  · congr 1; funext ξ
    exact Finset.sum_congr rfl fun A _ => Finset.sum_congr rfl fun B _ => by ring
  · refine Finset.sum_congr rfl fun A _ => Finset.sum_congr rfl fun B _ => ?_
    rw [hI.get p p']
    ring

/-! ## Blocks above the diagonal -/

theorem quad_finalizeSym_upper (L : Coo K) (h : ∀ t ∈ L, t.row < t.col) (v : ℕ → K) :
    Coo.quad (Coo.finalizeSym L) v = 2 * Coo.bilin L v v := by
  rw [Coo.quad_finalizeSym, Coo.bilin, ← List.sum_map_mul_left]
  exact congrArg List.sum (List.map_congr_left fun t ht => by rw [Coo.symW, if_pos (h t ht)])

theorem quad_finalize_cross {r c m1 n1 m2 n2 : ℕ} {pat : List (ℕ × ℕ)} (hp : Pat3 pat)
    {val : ℕ → ℕ → ℕ → ℕ → ℕ → ℕ → K} (h : r + 3 * (m1 * n1) ≤ c) (v : ℕ → K) :
    Coo.quad (Coo.finalizeSym (crossBuild r c m1 n1 m2 n2 pat val)) v
      = 2 * Coo.bilin (crossBuild r c m1 n1 m2 n2 pat val) v v :=
  quad_finalizeSym_upper _ (fun t ht => by
    have := crossBuild_inside hp val t ht
    have h1 := this.2.1; have h2 := this.2.2.1; omega) v

theorem quad_finalize_crossJL {r c m1 n1 m2 n2 : ℕ} {pat : List (ℕ × ℕ)} (hp : Pat3 pat)
    {val : ℕ → ℕ → ℕ → ℕ → ℕ → ℕ → K} (h : r + 3 * (m1 * n1) ≤ c) (v : ℕ → K) :
    Coo.quad (Coo.finalizeSym (crossBuildJL r c m1 n1 m2 n2 pat val)) v
      = 2 * Coo.bilin (crossBuild r c m1 n1 m2 n2 pat val) v v := by
  rw [← bilin_crossBuildJL]
  exact quad_finalizeSym_upper _ (fun t ht => by
    have := crossBuildJL_inside hp val t ht
    have h1 := this.2.1; have h2 := this.2.2.1; omega) v

theorem bilin_cross_pair (P1 P2 : Panel K) (r c : ℕ) (pat : List (ℕ × ℕ))
    (val : ℕ → ℕ → ℕ → ℕ → ℕ → ℕ → K) (x y : ℕ → K) :
    Coo.bilin (crossBuild r c P1.m P1.n P2.m P2.n pat val) x y
      = pairSum P1 P2 fun A B => blk pat (val A.1 B.1 A.2 B.2)
          (fun a => x (r + dof P1.m A.1 A.2 + a)) (fun b => y (c + dof P2.m B.1 B.2 + b)) :=
  bilin_crossBuild ..

end Verif
