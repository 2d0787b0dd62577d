import Verif.Model.FieldOut
import Verif.Spec.Field
import Mathlib.Algebra.BigOperators.Intervals
import Mathlib.Tactic.Ring
import Mathlib.Tactic.FieldSimp
import Mathlib.Tactic.IntervalCases

/-!
# Lemmas on the field output and the interpolation matrix
-/

namespace Verif

open Finset Model Spec

variable {K : Type*} [Field K]

theorem foldl_add_eq (l : List K) (a : K) : l.foldl (· + ·) a = a + l.sum := by
  induction l generalizing a with
  | nil => simp
  | cons x l ih => simp [ih, add_assoc]

theorem acc_eq (m n : ℕ) (t : ℕ → ℕ → K) :
    acc m n t = ∑ i ∈ range m, ∑ j ∈ range n, t i j := by
  have h := sum_map_flatMap (List.range n) (fun j => (List.range m).map fun i => t i j)
    (fun x : K => x)
  simp only [List.map_id'] at h
  rw [acc, foldl_add_eq, zero_add, h, list_sum_range, sum_comm]
  exact sum_congr rfl fun j _ => list_sum_range _ _

/-! ## Cutting the points among the cores -/

theorem flatten_chunks {α : Type*} (q : ℕ) (rows : ℕ) (l : List α) :
    ((List.range rows).map fun r => (l.drop (r * q)).take q).flatten = l.take (rows * q) := by
  induction rows with
  | zero => simp
  | succ k ih =>
    rw [List.range_succ, List.map_append, List.flatten_append, ih]
    simp only [List.map_cons, List.map_nil, List.flatten_cons, List.flatten_nil, List.append_nil]
    rw [Nat.succ_mul, List.take_add]

theorem flatten_reshape {α : Type*} (rows : ℕ) (l : List α) (h : rows ∣ l.length) :
    (reshape rows l).flatten = l := by
  rw [reshape, flatten_chunks, Nat.mul_div_cancel' h, List.take_length]

theorem zipWith_reshape {α β γ : Type*} (f : α → β → γ) (rows : ℕ) (l : List α) (l' : List β)
    (h : l.length = l'.length) :
    List.zipWith (fun a b => List.zipWith f a b) (reshape rows l) (reshape rows l') =
      reshape rows (List.zipWith f l l') := by
  have hl : (List.zipWith f l l').length = l.length := by simp [h]
  rw [reshape, reshape, reshape, hl, ← h, List.zipWith_map, List.zipWith_self]
  refine List.map_congr_left fun r _ => ?_
  rw [List.drop_zipWith, List.take_zipWith]

theorem dvd_padPts (cores : ℕ) (hc : 0 < cores) (xs : List K) :
    cores ∣ (padPts cores xs).length := by
  unfold padPts
  have hlt := Nat.mod_lt xs.length hc
  by_cases h : xs.length % cores = 0
  · simpa [h] using Nat.dvd_of_mod_eq_zero h
  · have h1 : ¬ (cores - xs.length % cores = cores) := by omega
    simp only [h1, if_false, ne_eq, h, not_false_eq_true, if_true, List.length_append,
      List.length_replicate]
    refine ⟨xs.length / cores + 1, ?_⟩
    have := Nat.div_add_mod xs.length cores
    rw [Nat.mul_add, Nat.mul_one]
    omega

theorem padPts_prefix (cores : ℕ) (xs : List K) : ∃ z, padPts cores xs = xs ++ z := by
  unfold padPts
  by_cases h : xs.length % cores = 0
  · exact ⟨[], by simp [h]⟩
  · exact ⟨_, by simp [h]; rfl⟩

theorem padPts_length (cores : ℕ) (xs ys : List K) (h : xs.length = ys.length) :
    (padPts cores xs).length = (padPts cores ys).length := by
  unfold padPts
  rw [h]
  by_cases h0 : ys.length % cores = 0
  · simp [h0, h]
  · simp [h0, h]

/-- Whatever the number of cores, the result is the list of the point-wise values. -/
theorem chunked_eq {γ : Type*} (f : K → K → γ) (cores : ℕ) (hc : 0 < cores) (xs ys : List K)
    (h : xs.length = ys.length) :
    ((List.zipWith (fun a b => List.zipWith f a b) (reshape cores (padPts cores xs))
      (reshape cores (padPts cores ys))).flatten).take xs.length = List.zipWith f xs ys := by
  have hp := padPts_length cores xs ys h
  rw [zipWith_reshape _ _ _ _ hp, flatten_reshape]
  · obtain ⟨z, hz⟩ := padPts_prefix cores xs
    obtain ⟨z', hz'⟩ := padPts_prefix cores ys
    rw [hz, hz', List.zipWith_append h, List.take_append_of_le_length (by simp [h])]
    exact List.take_of_length_le (by simp [h])
  · simpa [hp] using dvd_padPts cores hc ys

/-! ## The interpolation matrix -/

theorem foldl_put2_not_mem (ws : List ((ℕ × ℕ) × K)) (g : ℕ → ℕ → K) (r c : ℕ)
    (h : ∀ w ∈ ws, w.1 ≠ (r, c)) : ws.foldl put2 g r c = g r c := by
  induction ws generalizing g with
  | nil => rfl
  | cons w ws ih =>
    rw [List.foldl_cons, ih _ fun w hw => h w (List.mem_cons_of_mem _ hw)]
    have := h w List.mem_cons_self
    rw [put2, if_neg]
    rintro ⟨h1, h2⟩
    exact this (Prod.ext h1.symm h2.symm)

theorem foldl_put2_mem (ws : List ((ℕ × ℕ) × K)) (g : ℕ → ℕ → K) (r c : ℕ) (v : K)
    (hm : ((r, c), v) ∈ ws) (h : ∀ w ∈ ws, w.1 = (r, c) → w.2 = v) :
    ws.foldl put2 g r c = v := by
  induction ws generalizing g with
  | nil => simp at hm
  | cons w ws ih =>
    rw [List.foldl_cons]
    by_cases hin : ((r, c), v) ∈ ws
    · exact ih _ hin fun w hw => h w (List.mem_cons_of_mem _ hw)
    · by_cases hex : ∃ w' ∈ ws, w'.1 = (r, c)
      · obtain ⟨w', hw', he⟩ := hex
        have := h w' (List.mem_cons_of_mem _ hw') he
        exact absurd (by rw [← he, ← this]; exact hw') hin
      · push Not at hex
        rw [foldl_put2_not_mem _ _ _ _ hex]
        have hw : w = ((r, c), v) := by
          rcases List.mem_cons.1 hm with h' | h'
          · exact h'.symm
          · exact absurd h' hin
        simp [put2, hw]

/-- Displacement component behind row `r` of the interpolation matrix. -/
def gcomp (r : ℕ) : ℕ := if r < 3 then r else 2

/-- Entry of row `r` for the term `(i, j)`. -/
def gval (S : Shape K) (P : Panel K) (r i j : ℕ) (x y : K) : K :=
  let xi := 2 * x / P.a - 1
  let eta := 2 * y / P.b - 1
  match r with
  | 0 => S.f i xi P.xu * S.f j eta P.yu
  | 1 => S.f i xi P.xv * S.f j eta P.yv
  | 2 => S.f i xi P.xw * S.f j eta P.yw
  | 3 => -(2 / P.a) * S.fp i xi P.xw * S.f j eta P.yw
  | _ => -(2 / P.b) * S.f i xi P.xw * S.fp j eta P.yw

theorem mem_cfgWrites (S : Shape K) (P : Panel K) (x y : K) (w : (ℕ × ℕ) × K) :
    w ∈ cfgWrites S P x y ↔ ∃ r < 5, ∃ i < P.m, ∃ j < P.n,
      w = ((r, dof P.m i j + gcomp r), gval S P r i j x y) := by
  simp only [cfgWrites, List.mem_flatMap, List.mem_range, List.mem_cons, List.not_mem_nil, or_false]
  constructor
  · rintro ⟨j, hj, i, hi, h⟩
    rcases h with h | h | h | h | h
    · exact ⟨0, by omega, i, hi, j, hj, h⟩
    · exact ⟨1, by omega, i, hi, j, hj, h⟩
    · exact ⟨2, by omega, i, hi, j, hj, h⟩
    · exact ⟨3, by omega, i, hi, j, hj, h⟩
    · exact ⟨4, by omega, i, hi, j, hj, h⟩
  · rintro ⟨r, hr, i, hi, j, hj, h⟩
    refine ⟨j, hj, i, hi, ?_⟩
    interval_cases r
    · exact Or.inl h
    · exact Or.inr (Or.inl h)
    · exact Or.inr (Or.inr (Or.inl h))
    · exact Or.inr (Or.inr (Or.inr (Or.inl h)))
    · exact Or.inr (Or.inr (Or.inr (Or.inr h)))

theorem gcomp_lt (r : ℕ) : gcomp r < 3 := by
  unfold gcomp; split <;> omega

theorem dof_add_inj {m i j k l α β : ℕ} (hi : i < m) (hk : k < m) (hα : α < 3) (hβ : β < 3)
    (h : dof m i j + α = dof m k l + β) : (i = k ∧ j = l) ∧ α = β := by
  have h1 := dof_dvd m i j
  have h2 := dof_dvd m k l
  have hab : α = β := by omega
  subst hab
  exact ⟨dof_inj hi hk (by omega), rfl⟩

/-- Entries written by `fg`. -/
theorem fg_dof (S : Shape K) (P : Panel K) (g : ℕ → ℕ → K) (x y : K) {r i j : ℕ} (hr : r < 5)
    (hi : i < P.m) (hj : j < P.n) :
    fg S P g x y r (dof P.m i j + gcomp r) = gval S P r i j x y := by
  refine foldl_put2_mem _ _ _ _ _ ((mem_cfgWrites _ _ _ _ _).2 ⟨r, hr, i, hi, j, hj, rfl⟩) ?_
  intro w hw he
  obtain ⟨r', hr', i', hi', j', hj', rfl⟩ := (mem_cfgWrites _ _ _ _ _).1 hw
  simp only [Prod.mk.injEq] at he
  obtain ⟨rfl, he⟩ := he
  obtain ⟨⟨rfl, rfl⟩, -⟩ := dof_add_inj hi' hi (gcomp_lt _) (gcomp_lt _) he
  rfl

/-- Entries left alone by `fg`. -/
theorem fg_other (S : Shape K) (P : Panel K) (g : ℕ → ℕ → K) (x y : K) {r i j α : ℕ}
    (hα : α < 3) (hne : α ≠ gcomp r) :
    fg S P g x y r (dof P.m i j + α) = g r (dof P.m i j + α) := by
  refine foldl_put2_not_mem _ _ _ _ ?_
  intro w hw he
  obtain ⟨r', hr', i', hi', j', hj', rfl⟩ := (mem_cfgWrites _ _ _ _ _).1 hw
  simp only [Prod.mk.injEq] at he
  obtain ⟨rfl, he⟩ := he
  have h1 := dof_dvd P.m i j
  have h2 := dof_dvd P.m i' j'
  have := gcomp_lt r'
  omega

/-- The interpolation matrix has zeros wherever `fg` never writes. -/
def CleanG (P : Panel K) (g : ℕ → ℕ → K) : Prop :=
  ∀ r i j α, α < 3 → α ≠ gcomp r → g r (dof P.m i j + α) = 0

theorem cleanG_zero (P : Panel K) : CleanG P (fun _ _ => (0 : K)) := fun _ _ _ _ _ _ => rfl

theorem CleanG.fg {S : Shape K} {P : Panel K} {g : ℕ → ℕ → K} (h : CleanG P g) (x y : K) :
    CleanG P (Model.fg S P g x y) := fun r i j α hα hne => by
  rw [fg_other S P g x y hα hne, h r i j α hα hne]

/-! ## Sums over the degrees of freedom -/

theorem sum_range_three (N : ℕ) (h : ℕ → K) :
    ∑ k ∈ range (3 * N), h k = ∑ q ∈ range N, ∑ α ∈ range 3, h (3 * q + α) := by
  induction N with
  | zero => simp
  | succ N ih => rw [Nat.mul_succ, sum_range_add, ih, sum_range_succ _ N]

theorem sum_range_grid (m n : ℕ) (h : ℕ → K) :
    ∑ q ∈ range (m * n), h q = ∑ i ∈ range m, ∑ j ∈ range n, h (j * m + i) := by
  rw [sum_comm]
  induction n with
  | zero => simp
  | succ n ih => rw [Nat.mul_succ, sum_range_add, ih, sum_range_succ, Nat.mul_comm m n]

theorem sum_getSize (P : Panel K) (h : ℕ → K) :
    ∑ k ∈ range (getSize P), h k =
      ∑ i ∈ range P.m, ∑ j ∈ range P.n, ∑ α ∈ range 3, h (dof P.m i j + α) := by
  rw [getSize, Nat.mul_assoc, sum_range_three, sum_range_grid]
  rfl

/-- Row `r` of the interpolation matrix times the constants. -/
theorem fg_dot (S : Shape K) (P : Panel K) (g : ℕ → ℕ → K) (hg : CleanG P g) (x y : K) (r : ℕ)
    (hr : r < 5) (c : ℕ → K) :
    ∑ k ∈ range (getSize P), fg S P g x y r k * c k =
      ∑ i ∈ range P.m, ∑ j ∈ range P.n, gval S P r i j x y * c (dof P.m i j + gcomp r) := by
  rw [sum_getSize]
  refine sum_congr rfl fun i hi => sum_congr rfl fun j hj => ?_
  rw [sum_eq_single (gcomp r)]
  · rw [fg_dof S P g x y hr (mem_range.1 hi) (mem_range.1 hj)]
  · intro α hα hne
    rw [(hg.fg x y) r i j α (mem_range.1 hα) hne, zero_mul]
  · intro h
    exact absurd (mem_range.2 (gcomp_lt r)) h

/-- What the rows mean: `u, v, w, -w,x, -w,y` at the point. -/
def rowField (S : Shape K) (P : Panel K) (s0 : ℕ) (c : ℕ → K) (r : ℕ) (x y : K) : K :=
  let ξ := 2 * x / P.a - 1
  let η := 2 * y / P.b - 1
  match r with
  | 0 => disp S P s0 c 0 0 0 ξ η
  | 1 => disp S P s0 c 1 0 0 ξ η
  | 2 => disp S P s0 c 2 0 0 ξ η
  | 3 => - disp S P s0 c 2 1 0 ξ η
  | _ => - disp S P s0 c 2 0 1 ξ η

theorem fg_dot_field (S : Shape K) (P : Panel K) (g : ℕ → ℕ → K) (hg : CleanG P g) (x y : K)
    (r : ℕ) (hr : r < 5) (s0 : ℕ) (c : ℕ → K) :
    ∑ k ∈ range (getSize P), fg S P g x y r k * c (s0 + k) = rowField S P s0 c r x y := by
  rw [fg_dot S P g hg x y r hr fun k => c (s0 + k)]
  interval_cases r <;>
  · simp only [rowField, disp, gval, gcomp, dof, pow_zero, pow_one, one_mul, mul_one, mul_sum,
      ← sum_neg_distrib, Shape.D, Panel.xf, Panel.yf]
    refine sum_congr rfl fun i _ => sum_congr rfl fun j _ => ?_
    norm_num
    try rw [← add_assoc]
    try ring

theorem uvwAt_field (S : Shape K) (P : Panel K) (c : ℕ → K) (x y : K) :
    uvwAt S P c x y = ⟨rowField S P 0 c 0 x y, rowField S P 0 c 1 x y, rowField S P 0 c 2 x y,
      rowField S P 0 c 3 x y, rowField S P 0 c 4 x y⟩ := by
  simp only [uvwAt, acc_eq, rowField, disp, dof, pow_zero, pow_one, one_mul, mul_one, mul_sum,
    sum_mul, ← sum_neg_distrib, Shape.D, Panel.xf, Panel.yf, zero_add, UVW.mk.injEq]
  refine ⟨?_, ?_, ?_, ?_, ?_⟩ <;>
    exact sum_congr rfl fun i _ => sum_congr rfl fun j _ => by ring

end Verif
