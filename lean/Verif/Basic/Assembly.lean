import Verif.Basic.Coo
import Mathlib.Tactic.FieldSimp
import Mathlib.Tactic.Linarith

/-!
# Loop nests of the matrix builders

Every symmetric builder of the package has the form
```
for i in range(m):
  for k in range(m):
    for j in range(n):
      for l in range(n):
        row = row0 + DOF*(j*m + i)
        col = col0 + DOF*(l*m + k)
        if row > col: continue
        <a fixed list of writes (row+α, col+β, value)>
```
(e.g. `panels/models/plate_clpt_donnell_bardell.pyx` lines 112-262).
-/

namespace Verif

open Finset

/-- `DOF*(j*m + i)` with `DOF = 3` (`plate_clpt_donnell_bardell.pyx` lines 10, 168). -/
def dof (m i j : ℕ) : ℕ := 3 * (j * m + i)

variable {K : Type*} [Field K]

/-- The writes of one pass through the innermost loop body: skipped when `row > col`,
otherwise the fixed list `pat` of `(α, β)` writes. -/
def symBlock (row0 col0 m : ℕ) (pat : List (ℕ × ℕ))
    (val : ℕ → ℕ → ℕ → ℕ → ℕ → ℕ → K) (i k j l : ℕ) : Coo K :=
  if row0 + dof m i j > col0 + dof m k l then []
  else pat.map fun ab =>
    ⟨row0 + dof m i j + ab.1, col0 + dof m k l + ab.2, val i k j l ab.1 ab.2⟩

/-- Symmetric loop nest with order `i, k, j, l`; `pat` is the fixed list of `(α, β)` writes. -/
def symBuild (row0 col0 m n : ℕ) (pat : List (ℕ × ℕ))
    (val : ℕ → ℕ → ℕ → ℕ → ℕ → ℕ → K) : Coo K :=
  (List.range m).flatMap fun i => (List.range m).flatMap fun k =>
  (List.range n).flatMap fun j => (List.range n).flatMap fun l =>
    symBlock row0 col0 m pat val i k j l

/-- Same with loop order `j, l, i, k` (`plate_clpt_donnell_bardell_num.pyx` `fkG_num`). -/
def symBuildJL (row0 col0 m n : ℕ) (pat : List (ℕ × ℕ))
    (val : ℕ → ℕ → ℕ → ℕ → ℕ → ℕ → K) : Coo K :=
  (List.range n).flatMap fun j => (List.range n).flatMap fun l =>
  (List.range m).flatMap fun i => (List.range m).flatMap fun k =>
    symBlock row0 col0 m pat val i k j l

/-- Loop nest of the off-diagonal coupling blocks (two panels, no skipping), e.g.
`panels/multidomain/connections/kCSSxcte.pyx` lines 206-262. -/
def crossBuild (row0 col0 m1 n1 m2 n2 : ℕ) (pat : List (ℕ × ℕ))
    (val : ℕ → ℕ → ℕ → ℕ → ℕ → ℕ → K) : Coo K :=
  (List.range m1).flatMap fun i => (List.range m2).flatMap fun k =>
  (List.range n1).flatMap fun j => (List.range n2).flatMap fun l =>
    pat.map fun ab =>
      ⟨row0 + dof m1 i j + ab.1, col0 + dof m2 k l + ab.2, val i k j l ab.1 ab.2⟩

theorem list_sum_range {M : Type*} [AddCommMonoid M] (n : ℕ) (f : ℕ → M) :
    ((List.range n).map f).sum = ∑ i ∈ range n, f i := rfl

theorem sum_map_flatMap {α β M : Type*} [AddCommMonoid M] (l : List α) (g : α → List β)
    (f : β → M) : ((l.flatMap g).map f).sum = (l.map fun a => ((g a).map f).sum).sum := by
  induction l with
  | nil => rfl
  | cons a l ih => simp [List.flatMap_cons, ih]

/-- Distinct basis functions have distinct rows. -/
theorem dof_inj {m i j k l : ℕ} (hi : i < m) (hk : k < m) (h : dof m i j = dof m k l) :
    i = k ∧ j = l := by
  unfold dof at h
  have h' : j * m + i = l * m + k := by omega
  have hm : 0 < m := by omega
  have e1 : (j * m + i) % m = i := by
    rw [Nat.add_comm, Nat.add_mul_mod_self_right, Nat.mod_eq_of_lt hi]
  have e2 : (l * m + k) % m = k := by
    rw [Nat.add_comm, Nat.add_mul_mod_self_right, Nat.mod_eq_of_lt hk]
  have hik : i = k := by rw [← e1, h', e2]
  subst hik
  have : j * m = l * m := by omega
  exact ⟨rfl, Nat.eq_of_mul_eq_mul_right hm this⟩

theorem dof_dvd (m i j : ℕ) : 3 ∣ dof m i j := ⟨_, rfl⟩

theorem dof_lt {m n i j : ℕ} (hi : i < m) (hj : j < n) : dof m i j + 3 ≤ 3 * (m * n) := by
  unfold dof
  have h1 : j * m + m ≤ n * m := by
    have : (j + 1) * m ≤ n * m := Nat.mul_le_mul_right m hj
    rw [Nat.add_mul, Nat.one_mul] at this
    exact this
  rw [Nat.mul_comm m n]
  omega

/-- Half of a double sum, weighted by a key, is the full sum of a symmetric function. -/
theorem sum_half_eq {ι : Type*} [DecidableEq ι] [CharZero K] (S : Finset ι) (r : ι → ℕ)
    (hr : ∀ A ∈ S, ∀ B ∈ S, r A = r B → A = B) (g : ι → ι → K)
    (hg : ∀ A ∈ S, ∀ B ∈ S, g A B = g B A) :
    ∑ A ∈ S, ∑ B ∈ S, (if r A < r B then 2 * g A B else if r A = r B then g A B else 0)
      = ∑ A ∈ S, ∑ B ∈ S, g A B := by
  set h : ι → ι → K := fun A B =>
    if r A < r B then 2 * g A B else if r A = r B then g A B else 0 with hh
  have key : ∑ A ∈ S, ∑ B ∈ S, h A B + ∑ A ∈ S, ∑ B ∈ S, h A B
      = ∑ A ∈ S, ∑ B ∈ S, g A B + ∑ A ∈ S, ∑ B ∈ S, g A B := by
    have e : ∑ A ∈ S, ∑ B ∈ S, h A B = ∑ A ∈ S, ∑ B ∈ S, h B A := Finset.sum_comm
    conv_lhs => rw [e]
    conv_lhs =>
      arg 2
      rw [← e, ]
    rw [← Finset.sum_add_distrib, ← Finset.sum_add_distrib]
    refine Finset.sum_congr rfl fun A hA => ?_
    rw [← Finset.sum_add_distrib, ← Finset.sum_add_distrib]
    refine Finset.sum_congr rfl fun B hB => ?_
    simp only [hh]
    rcases lt_trichotomy (r A) (r B) with hAB | hAB | hAB
    · have h1 : ¬ r B < r A := by omega
      have h2 : ¬ r B = r A := by omega
      simp only [hAB, h1, h2, if_true, if_false]; ring
    · have := hr A hA B hB hAB
      subst this
      simp
    · have h1 : ¬ r A < r B := by omega
      have h2 : ¬ r A = r B := by omega
      simp only [hAB, h1, h2, if_true, if_false]
      rw [hg A hA B hB]; ring
  have h2 : (2 : K) ≠ 0 := by exact_mod_cast (Nat.cast_ne_zero (R := K)).2 (by omega : (2 : ℕ) ≠ 0)
  apply mul_left_cancel₀ h2
  linear_combination key

/-- The `3 × 3` block sum that a builder adds for the pair `(A, B)` of basis functions. -/
def blk (pat : List (ℕ × ℕ)) (e : ℕ → ℕ → K) (x y : ℕ → K) : K :=
  (pat.map fun ab => e ab.1 ab.2 * x ab.1 * y ab.2).sum

/-- Pattern condition on the diagonal block. -/
theorem blk_diag_symW (pat : List (ℕ × ℕ)) (e : ℕ → ℕ → K) (row : ℕ) (v : ℕ → K)
    (hcl : ∀ f : ℕ → ℕ → K, (∀ a b, f a b = f b a) →
      (pat.map fun ab => if ab.1 < ab.2 then 2 * f ab.1 ab.2
          else if ab.1 = ab.2 then f ab.1 ab.2 else 0).sum
        = (pat.map fun ab => f ab.1 ab.2).sum)
    (he : ∀ a b, e a b = e b a) :
    (pat.map fun ab => Coo.symW v (⟨row + ab.1, row + ab.2, e ab.1 ab.2⟩ : Trip K)).sum
      = blk pat e (fun a => v (row + a)) (fun b => v (row + b)) := by
  have := hcl (fun a b => e a b * v (row + a) * v (row + b)) (by
    intro a b; rw [he a b]; ring)
  unfold blk
  rw [← this]
  congr 1
  refine List.map_congr_left fun ab _ => ?_
  simp only [Coo.symW, Nat.add_lt_add_iff_left, Nat.add_left_cancel_iff]

/-- A write pattern on a `3×3` block: indices below 3 and closed under transposition. -/
structure PatOK (K : Type*) [Field K] (pat : List (ℕ × ℕ)) : Prop where
  lt3 : ∀ ab ∈ pat, ab.1 < 3 ∧ ab.2 < 3
  diag : ∀ f : ℕ → ℕ → K, (∀ a b, f a b = f b a) →
      (pat.map fun ab => if ab.1 < ab.2 then 2 * f ab.1 ab.2
          else if ab.1 = ab.2 then f ab.1 ab.2 else 0).sum
        = (pat.map fun ab => f ab.1 ab.2).sum
  swap : ∀ f : ℕ → ℕ → K, (pat.map fun ab => f ab.1 ab.2).sum
      = (pat.map fun ab => f ab.2 ab.1).sum

/-- All nine entries (kC). -/
def pat9 : List (ℕ × ℕ) := [(0,0),(0,1),(0,2),(1,0),(1,1),(1,2),(2,0),(2,1),(2,2)]
/-- The seven entries of the mass matrices. -/
def pat7 : List (ℕ × ℕ) := [(0,0),(0,2),(1,1),(1,2),(2,0),(2,1),(2,2)]
/-- The three diagonal entries. -/
def pat3 : List (ℕ × ℕ) := [(0,0),(1,1),(2,2)]
/-- The `w`-`w` entry. -/
def pat1 : List (ℕ × ℕ) := [(2,2)]
/-- `u`/`w` entries (1D stiffener stiffness). -/
def pat4 : List (ℕ × ℕ) := [(0,0),(0,2),(2,0),(2,2)]

theorem pat9_ok : PatOK K pat9 where
  lt3 := by decide
  diag := fun f hf => by
    simp [pat9, hf 1 0, hf 2 0, hf 2 1]; ring
  swap := fun f => by simp [pat9]; ring

theorem pat7_ok : PatOK K pat7 where
  lt3 := by decide
  diag := fun f hf => by
    simp [pat7, hf 2 0, hf 2 1]; ring
  swap := fun f => by simp [pat7]; ring

theorem pat3_ok : PatOK K pat3 where
  lt3 := by decide
  diag := fun f hf => by simp [pat3]
  swap := fun f => by simp [pat3]

theorem pat1_ok : PatOK K pat1 where
  lt3 := by decide
  diag := fun f hf => by simp [pat1]
  swap := fun f => by simp [pat1]

theorem pat4_ok : PatOK K pat4 where
  lt3 := by decide
  diag := fun f hf => by simp [pat4, hf 2 0]; ring
  swap := fun f => by simp [pat4]; ring

theorem sum4_prod (m n : ℕ) (F : ℕ → ℕ → ℕ → ℕ → K) :
    ∑ i ∈ range m, ∑ k ∈ range m, ∑ j ∈ range n, ∑ l ∈ range n, F i k j l
      = ∑ A ∈ range m ×ˢ range n, ∑ B ∈ range m ×ˢ range n, F A.1 B.1 A.2 B.2 := by
  rw [Finset.sum_product]
  refine Finset.sum_congr rfl fun i _ => ?_
  simp only [Finset.sum_product]
  rw [Finset.sum_comm]

/-- Quadratic form of a finalised symmetric loop nest: the full operator, nothing lost. -/
theorem quad_symBuild [CharZero K] (s m n : ℕ) (pat : List (ℕ × ℕ)) (hp : PatOK K pat)
    (val : ℕ → ℕ → ℕ → ℕ → ℕ → ℕ → K)
    (hs : ∀ i k j l a b, i < m → k < m → j < n → l < n →
      val i k j l a b = val k i l j b a) (v : ℕ → K) :
    Coo.quad (Coo.finalizeSym (symBuild s s m n pat val)) v
      = ∑ A ∈ range m ×ˢ range n, ∑ B ∈ range m ×ˢ range n,
          blk pat (val A.1 B.1 A.2 B.2) (fun a => v (s + dof m A.1 A.2 + a))
            (fun b => v (s + dof m B.1 B.2 + b)) := by
  rw [Coo.quad_finalizeSym]
  simp only [symBuild, sum_map_flatMap, list_sum_range]
  rw [sum4_prod m n (fun i k j l =>
    (List.map (Coo.symW v) (symBlock s s m pat val i k j l)).sum)]
  refine Eq.trans ?_ (sum_half_eq (range m ×ˢ range n) (fun A => dof m A.1 A.2) ?_
    (fun A B => blk pat (val A.1 B.1 A.2 B.2) (fun a => v (s + dof m A.1 A.2 + a))
            (fun b => v (s + dof m B.1 B.2 + b))) ?_)
  · refine Finset.sum_congr rfl fun A hA => Finset.sum_congr rfl fun B hB => ?_
    simp only [mem_product, mem_range] at hA hB
    unfold symBlock
    rcases lt_trichotomy (dof m A.1 A.2) (dof m B.1 B.2) with h | h | h
    · have h1 : ¬ (s + dof m A.1 A.2 > s + dof m B.1 B.2) := by omega
      rw [if_neg h1, if_pos h]
      unfold blk
      rw [List.map_map, ← List.sum_map_mul_left]
      congr 1
      refine List.map_congr_left fun ab hab => ?_
      obtain ⟨ha, hb⟩ := hp.lt3 ab hab
      obtain ⟨x, hx⟩ := dof_dvd m A.1 A.2
      obtain ⟨y, hy⟩ := dof_dvd m B.1 B.2
      have hlt : s + dof m A.1 A.2 + ab.1 < s + dof m B.1 B.2 + ab.2 := by omega
      simp only [Function.comp, Coo.symW, hlt, if_true]
    · have h1 : ¬ (s + dof m A.1 A.2 > s + dof m B.1 B.2) := by omega
      have h2 : ¬ dof m A.1 A.2 < dof m B.1 B.2 := by omega
      rw [if_neg h1, if_neg h2, if_pos h]
      obtain ⟨e1, e2⟩ := dof_inj hA.1 hB.1 h
      have : A = B := Prod.ext e1 e2
      subst this
      rw [List.map_map]
      exact blk_diag_symW pat (val A.1 A.1 A.2 A.2) (s + dof m A.1 A.2) v hp.diag
        (fun a b => hs _ _ _ _ _ _ hA.1 hA.1 hA.2 hA.2)
    · have h1 : (s + dof m A.1 A.2 > s + dof m B.1 B.2) := by omega
      have h2 : ¬ dof m A.1 A.2 < dof m B.1 B.2 := by omega
      have h3 : ¬ dof m A.1 A.2 = dof m B.1 B.2 := by omega
      rw [if_pos h1, if_neg h2, if_neg h3]
      simp
  · intro A hA B hB h
    simp only [mem_product, mem_range] at hA hB
    obtain ⟨e1, e2⟩ := dof_inj hA.1 hB.1 h
    exact Prod.ext e1 e2
  · intro A hA B hB
    simp only [mem_product, mem_range] at hA hB
    unfold blk
    show (pat.map fun ab => (fun a b => val A.1 B.1 A.2 B.2 a b * v (s + dof m A.1 A.2 + a) *
      v (s + dof m B.1 B.2 + b)) ab.1 ab.2).sum = _
    rw [hp.swap (fun a b => val A.1 B.1 A.2 B.2 a b * v (s + dof m A.1 A.2 + a) *
      v (s + dof m B.1 B.2 + b))]
    congr 1
    refine List.map_congr_left fun ab _ => ?_
    rw [hs A.1 B.1 A.2 B.2 ab.2 ab.1 hA.1 hB.1 hA.2 hB.2]
    ring

theorem sum4_prod' (m n : ℕ) (F : ℕ → ℕ → ℕ → ℕ → K) :
    ∑ j ∈ range n, ∑ l ∈ range n, ∑ i ∈ range m, ∑ k ∈ range m, F i k j l
      = ∑ i ∈ range m, ∑ k ∈ range m, ∑ j ∈ range n, ∑ l ∈ range n, F i k j l := by
  have e1 : ∀ j l, ∑ i ∈ range m, ∑ k ∈ range m, F i k j l
      = ∑ p ∈ range m ×ˢ range m, F p.1 p.2 j l := fun j l =>
    (Finset.sum_product (range m) (range m) (fun p => F p.1 p.2 j l)).symm
  simp only [e1]
  rw [← Finset.sum_product (s := range n) (t := range n)
    (f := fun q => ∑ p ∈ range m ×ˢ range m, F p.1 p.2 q.1 q.2), Finset.sum_comm,
    Finset.sum_product]
  refine Finset.sum_congr rfl fun i _ => Finset.sum_congr rfl fun k _ => ?_
  rw [Finset.sum_product]

/-- The loop order is irrelevant for the finalised quadratic form. -/
theorem quad_symBuildJL (s m n : ℕ) (pat : List (ℕ × ℕ))
    (val : ℕ → ℕ → ℕ → ℕ → ℕ → ℕ → K) (v : ℕ → K) :
    Coo.quad (Coo.finalizeSym (symBuildJL s s m n pat val)) v
      = Coo.quad (Coo.finalizeSym (symBuild s s m n pat val)) v := by
  rw [Coo.quad_finalizeSym, Coo.quad_finalizeSym]
  simp only [symBuild, symBuildJL, sum_map_flatMap, list_sum_range]
  exact sum4_prod' m n (fun i k j l =>
    (List.map (Coo.symW v) (symBlock s s m pat val i k j l)).sum)

end Verif
