import Verif.Proofs.Aero
import Verif.Proofs.EntryForm

/-!
# Entries and bilinear form of the aerodynamic matrices
-/

namespace Verif

open Finset

section

variable {K : Type*} [Field K]

theorem Coo.entry_finalizeSkew (L : Coo K) (r c : ℕ) :
    Coo.entry (Coo.finalizeSkew L) r c
      = if r ≤ c then Coo.entry L r c else - Coo.entry L c r := by
  by_cases hrc : r ≤ c
  · rw [if_pos hrc]
    induction L with
    | nil => simp [Coo.finalizeSkew]
    | cons t L ih =>
      simp only [Coo.finalizeSkew, Coo.entry_append] at ih ⊢
      rw [Coo.entry_cons, ← ih]
      rcases lt_trichotomy t.row t.col with h | h | h
      · have h1 : t.row ≤ t.col := h.le
        have e : ¬ (t.col = r ∧ t.row = c) := by omega
        simp only [List.filter_cons, h1, h, decide_true, if_true, Coo.entry_cons, List.map_cons,
          if_neg e]
        ring
      · have h1 : t.row ≤ t.col := h.le
        have h2 : ¬ t.row < t.col := by omega
        simp only [List.filter_cons, h1, h2, decide_true, decide_false, if_true, Coo.entry_cons,
          if_false, Bool.false_eq_true]
        ring
      · have h1 : ¬ t.row ≤ t.col := by omega
        have h2 : ¬ t.row < t.col := by omega
        have e : ¬ (t.row = r ∧ t.col = c) := by omega
        simp only [List.filter_cons, h1, h2, decide_false, if_false, Bool.false_eq_true, if_neg e]
        ring
  · rw [if_neg hrc]
    induction L with
    | nil => simp [Coo.finalizeSkew]
    | cons t L ih =>
      simp only [Coo.finalizeSkew, Coo.entry_append] at ih ⊢
      rw [Coo.entry_cons, neg_add, ← ih]
      rcases lt_trichotomy t.row t.col with h | h | h
      · have h1 : t.row ≤ t.col := h.le
        have e : ¬ (t.row = r ∧ t.col = c) := by omega
        simp only [List.filter_cons, h1, h, decide_true, if_true, Coo.entry_cons, List.map_cons,
          if_neg e]
        by_cases h2 : t.row = c ∧ t.col = r
        · rw [if_pos h2, if_pos h2.symm]; ring
        · rw [if_neg h2, if_neg (fun h => h2 h.symm)]; ring
      · have h1 : t.row ≤ t.col := h.le
        have h2 : ¬ t.row < t.col := by omega
        have e : ¬ (t.row = r ∧ t.col = c) := by omega
        have e' : ¬ (t.row = c ∧ t.col = r) := by omega
        simp only [List.filter_cons, h1, h2, decide_true, decide_false, if_true, Coo.entry_cons,
          if_false, Bool.false_eq_true, if_neg e, if_neg e']
        ring
      · have h1 : ¬ t.row ≤ t.col := by omega
        have h2 : ¬ t.row < t.col := by omega
        have e : ¬ (t.row = c ∧ t.col = r) := by omega
        simp only [List.filter_cons, h1, h2, decide_false, if_false, Bool.false_eq_true, if_neg e]
        ring

theorem Coo.bilin_pad (f : ℕ) (L : Coo K) (x y : ℕ → K) :
    Coo.bilin (Coo.pad f L) x y = Coo.bilin L x y := by
  simp [Coo.pad, Coo.bilin]

theorem bilin_sym22 (r c m n : ℕ) (v : ℕ → ℕ → ℕ → ℕ → ℕ → ℕ → K) (x y : ℕ → K) :
    Coo.bilin (symBuild r c m n [(2, 2)] v) x y
      = ∑ i ∈ range m, ∑ k ∈ range m, ∑ j ∈ range n, ∑ l ∈ range n,
          if r + dof m i j > c + dof m k l then 0
          else v i k j l 2 2 * x (r + dof m i j + 2) * y (c + dof m k l + 2) := by
  simp only [symBuild, Coo.bilin, sum_map_flatMap, list_sum_range]
  refine sum_congr rfl fun i _ => sum_congr rfl fun k _ => sum_congr rfl fun j _ =>
    sum_congr rfl fun l _ => ?_
  unfold symBlock
  split <;> simp

/-- The stored half of a separable operator, applied to vectors that only meet in this half. -/
theorem bilin_accum22 {ι : Type*} (pts : List ι) (r c m n : ℕ)
    (v : ι → ℕ → ℕ → ℕ → ℕ → ℕ → ℕ → K) (W : ι → K) (F H : ι → ℕ → ℕ → K)
    (hv : ∀ p i k j l, v p i k j l 2 2 = W p * (F p i j * H p k l)) (x y : ℕ → K)
    (hxy : ∀ p q, x p ≠ 0 → y q ≠ 0 → p ≤ q) :
    Coo.bilin (accum pts fun p => symBuild r c m n [(2, 2)] (v p)) x y
      = (pts.map fun p => W p *
          ((∑ i ∈ range m, ∑ j ∈ range n, x (r + dof m i j + 2) * F p i j) *
            ∑ k ∈ range m, ∑ l ∈ range n, y (c + dof m k l + 2) * H p k l)).sum := by
  by_cases hne : pts = []
  · subst hne; rfl
  rw [accum_symBuild pts hne, bilin_sym22]
  have h : ∀ i k j l, (if r + dof m i j > c + dof m k l then 0
      else (pts.map fun p => v p i k j l 2 2).sum * x (r + dof m i j + 2) * y (c + dof m k l + 2))
      = (pts.map fun p => W p * ((x (r + dof m i j + 2) * F p i j)
          * (y (c + dof m k l + 2) * H p k l))).sum := by
    intro i k j l
    have e : (pts.map fun p => W p * ((x (r + dof m i j + 2) * F p i j)
          * (y (c + dof m k l + 2) * H p k l))).sum
        = (pts.map fun p => v p i k j l 2 2).sum * (x (r + dof m i j + 2)
            * y (c + dof m k l + 2)) := by
      rw [← List.sum_map_mul_right]
      congr 1
      refine List.map_congr_left fun p _ => ?_
      rw [hv]; ring
    rw [e]
    split
    · have : x (r + dof m i j + 2) = 0 ∨ y (c + dof m k l + 2) = 0 := by
        by_contra hc
        obtain ⟨h1, h2⟩ := not_or.1 hc
        have := hxy _ _ h1 h2
        omega
      rcases this with h | h <;> rw [h] <;> ring
    · ring
  have e : ∀ p, W p * ((∑ i ∈ range m, ∑ j ∈ range n, x (r + dof m i j + 2) * F p i j) *
        ∑ k ∈ range m, ∑ l ∈ range n, y (c + dof m k l + 2) * H p k l)
      = ∑ i ∈ range m, ∑ k ∈ range m, ∑ j ∈ range n, ∑ l ∈ range n,
          W p * ((x (r + dof m i j + 2) * F p i j) * (y (c + dof m k l + 2) * H p k l)) := by
    intro p
    rw [Finset.sum_mul_sum, Finset.mul_sum]
    refine sum_congr rfl fun i _ => ?_
    rw [Finset.mul_sum]
    refine sum_congr rfl fun k _ => ?_
    rw [Finset.sum_mul_sum, Finset.mul_sum]
    refine sum_congr rfl fun j _ => ?_
    rw [Finset.mul_sum]
  simp only [h, e, list_sum_comm]

/-- The stored triplets of a `(2, 2)` loop nest lie on or above the diagonal. -/
theorem entry_accum22_lower {ι : Type*} (pts : List ι) (r0 c0 m n : ℕ)
    (v : ι → ℕ → ℕ → ℕ → ℕ → ℕ → ℕ → K) {r c : ℕ} (h : c < r) :
    Coo.entry (accum pts fun p => symBuild r0 c0 m n [(2, 2)] (v p)) r c = 0 := by
  rw [entry_accum, entry_symBuild_sum]
  refine sum_eq_zero fun i _ => sum_eq_zero fun k _ => sum_eq_zero fun j _ =>
    sum_eq_zero fun l _ => ?_
  rw [entry_symBlock]
  split
  · rfl
  · simp only [List.map_cons, List.map_nil, List.sum_cons, List.sum_nil, add_zero]
    rw [if_neg (by omega)]

theorem unit_ordered {r c : ℕ} (h : r ≤ c) (p q : ℕ) (hp : (unit r : ℕ → K) p ≠ 0)
    (hq : (unit c : ℕ → K) q ≠ 0) : p ≤ q := by
  unfold unit at hp hq
  have h1 : p = r := by by_contra hc; exact hp (if_neg hc)
  have h2 : q = c := by by_contra hc; exact hq (if_neg hc)
  omega

/-- A matrix of size `N` is given by its entries. -/
theorem bilin_sum_entry {L : Coo K} {N : ℕ} (h : ∀ t ∈ L, t.row < N ∧ t.col < N) (x y : ℕ → K) :
    Coo.bilin L x y = ∑ r ∈ range N, ∑ c ∈ range N, Coo.entry L r c * x r * y c := by
  induction L with
  | nil => simp
  | cons t L ih =>
    rw [Coo.bilin_cons, ih fun s hs => h s (List.mem_cons_of_mem _ hs)]
    obtain ⟨h1, h2⟩ := h t List.mem_cons_self
    simp only [Coo.entry_cons, add_mul, Finset.sum_add_distrib]
    congr 1
    rw [Finset.sum_eq_single t.row, Finset.sum_eq_single t.col]
    · simp
    · intro c _ hc
      rw [if_neg (fun h => hc h.2.symm)]; ring
    · intro hc; exact absurd (mem_range.2 h2) hc
    · intro r _ hr
      refine sum_eq_zero fun c _ => ?_
      rw [if_neg (fun h => hr h.1.symm)]; ring
    · intro hc; exact absurd (mem_range.2 h1) hc

end

namespace Aero

open Spec Model

variable {K : Type*} [Field K] [DecidableEq K]

omit [DecidableEq K] in
theorem disp_w (S : Shape K) (P : Panel K) (s0 : ℕ) (c : ℕ → K) (p q : ℕ) (ξ η : K) :
    disp S P s0 c 2 p q ξ η
      = ∑ i ∈ range P.m, ∑ j ∈ range P.n, c (s0 + dof P.m i j + 2) *
          ((2 / P.a) ^ p * (2 / P.b) ^ q * (S.D p i ξ P.xw * S.D q j η P.yw)) := by
  unfold disp
  rw [Finset.mul_sum]
  refine sum_congr rfl fun i _ => ?_
  rw [Finset.mul_sum]
  refine sum_congr rfl fun j _ => ?_
  show _ * (_ * (S.D p i ξ P.xw * S.D q j η P.yw)) = _
  rw [show s0 + 3 * (j * P.m + i) + 2 = s0 + dof P.m i j + 2 from rfl]
  ring

variable (S : Shape K) (G : GaussTab K) (P : Panel K)

/-- The value written at a point of the grid for flow along `x`. -/
theorem ax_val [CharZero K] (beta gamma : K) (nx ny : ℕ) (p : ℕ × ℕ) (i k j l : ℕ) :
    Gen.PlateNum.fkAx_num S P beta (etaAt G P ny p.2) gamma (sub P).intx (sub P).inty
        (weightAt G nx ny p.1 p.2) (xiAt G P nx p.1) i k j l 2 2
      = (weightAt G nx ny p.1 p.2 * (sub P).intx * (sub P).inty / 4) *
        ((gamma * (S.f i (xiAt G P nx p.1) P.xw * S.f j (etaAt G P ny p.2) P.yw)
          - beta * (2 / P.a * (S.fp i (xiAt G P nx p.1) P.xw * S.f j (etaAt G P ny p.2) P.yw))) *
          (S.f k (xiAt G P nx p.1) P.xw * S.f l (etaAt G P ny p.2) P.yw)) := by
  simp only [Gen.PlateNum.fkAx_num, Gen.PlateNum.fkAx_num_22]; ring

omit [DecidableEq K] in
theorem cyl_ax_val (beta gamma eta intx inty weight xi : K) (i k j l a b : ℕ) :
    Gen.CylNum.fkAx_num S P beta eta gamma intx inty weight xi i k j l a b
      = Gen.PlateNum.fkAx_num S P beta eta gamma intx inty weight xi i k j l a b := by
  unfold Gen.CylNum.fkAx_num Gen.PlateNum.fkAx_num
  split
  · simp only [Gen.CylNum.fkAx_num_22, Gen.PlateNum.fkAx_num_22]
  · split
    · exfalso; simp_all
    · rfl

/-- The value for flow along `y`. -/
theorem ay_val [CharZero K] (beta : K) (nx ny : ℕ) (p : ℕ × ℕ) (i k j l : ℕ) :
    Gen.PlateNum.fkAy_num S P beta (etaAt G P ny p.2) (sub P).intx (sub P).inty
        (weightAt G nx ny p.1 p.2) (xiAt G P nx p.1) i k j l 2 2
      = (weightAt G nx ny p.1 p.2 * (sub P).intx * (sub P).inty / 4) *
        ((- (beta * (2 / P.b * (S.f i (xiAt G P nx p.1) P.xw * S.fp j (etaAt G P ny p.2) P.yw)))) *
          (S.f k (xiAt G P nx p.1) P.xw * S.f l (etaAt G P ny p.2) P.yw)) := by
  simp only [Gen.PlateNum.fkAy_num, Gen.PlateNum.fkAy_num_22]; ring

/-- Plate and cylinder use the same text. -/
theorem cyl_eq_plate (beta gamma : K) (row0 col0 nx ny : ℕ) :
    cylFkAxNum S G P beta gamma row0 col0 nx ny = plateFkAxNum S G P beta gamma row0 col0 nx ny := by
  unfold cylFkAxNum plateFkAxNum
  rw [show Gen.CylNum.fkAx_num_pat = Gen.PlateNum.fkAx_num_pat from rfl]
  congr 2

omit [DecidableEq K] in
theorem ax_zero (beta gamma eta intx inty weight xi : K) (i k j l a b : ℕ)
    (h : (a, b) ∉ Gen.PlateNum.fkAx_num_pat) :
    Gen.PlateNum.fkAx_num S P beta eta gamma intx inty weight xi i k j l a b = 0 := by
  unfold Gen.PlateNum.fkAx_num
  split
  · exact absurd (by decide) h
  · rfl

omit [DecidableEq K] in
theorem ay_zero (beta eta intx inty weight xi : K) (i k j l a b : ℕ)
    (h : (a, b) ∉ Gen.PlateNum.fkAy_num_pat) :
    Gen.PlateNum.fkAy_num S P beta eta intx inty weight xi i k j l a b = 0 := by
  unfold Gen.PlateNum.fkAy_num
  split
  · exact absurd (by decide) h
  · rfl

end Aero

theorem toSparse_bound {K : Type} [Field K] {n : ℕ} {L L' : Coo K}
    (h : Model.toSparse n L = .ok L') : ∀ t ∈ L, t.row < n ∧ t.col < n := by
  unfold Model.toSparse at h
  split at h
  · next ha =>
    intro t ht
    have := List.all_eq_true.1 ha t ht
    simpa using this
  · cases h

end Verif
