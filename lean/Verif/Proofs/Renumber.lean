import Verif.Proofs.AeroForm
import Verif.Props.C92
import Verif.Spec.Renumber

/-!
# Lemmas on assemblies with their panels in another order
-/

set_option linter.unusedSectionVars false

namespace Verif

open Finset Model Spec

/-! ## Numbers -/

section
variable {src dst len : ℕ → ℕ} {c : ℕ}

/-- No two blocks overlap. -/
def Apart (src len : ℕ → ℕ) (c : ℕ) : Prop :=
  ∀ p < c, ∀ q < c, p ≠ q → src p + len p ≤ src q ∨ src q + len q ≤ src p

theorem moveNo_block (hs : Apart src len c) {p k : ℕ} (hp : p < c) (hk : src p ≤ k ∧ k < src p + len p) :
    moveNo src dst len c k = dst p + (k - src p) := by
  induction c with
  | zero => omega
  | succ c ih =>
    rw [moveNo]
    by_cases h : p = c
    · subst h
      rw [if_pos hk]
    · rw [if_neg]
      · exact ih (fun p hp q hq => hs p (by omega) q (by omega)) (by omega)
      · have := hs p hp c (by omega) h
        omega

theorem moveNo_off {k : ℕ} (hk : ∀ p < c, ¬ (src p ≤ k ∧ k < src p + len p)) : moveNo src dst len c k = k := by
  induction c with
  | zero => rfl
  | succ c ih => rw [moveNo, if_neg (hk c (by omega)), ih fun p hp => hk p (by omega)]

theorem moveNo_moveNo (hs : Apart src len c) (hd : Apart dst len c)
    (hc : ∀ k, (∃ p < c, dst p ≤ k ∧ k < dst p + len p) → ∃ p < c, src p ≤ k ∧ k < src p + len p) (k : ℕ) :
    moveNo dst src len c (moveNo src dst len c k) = k := by
  by_cases h : ∃ p < c, src p ≤ k ∧ k < src p + len p
  · obtain ⟨p, hp, hk⟩ := h
    rw [moveNo_block hs hp hk, moveNo_block hd hp ⟨by omega, by omega⟩]
    omega
  · rw [moveNo_off fun p hp hk => h ⟨p, hp, hk⟩, moveNo_off fun p hp hk => h (hc k ⟨p, hp, hk⟩)]

end

/-! ## Sums over the panels -/

theorem range_sum (f : ℕ → ℝ) (n : ℕ) : ((List.range n).map f).sum = ∑ p ∈ range n, f p := by
  induction n with
  | zero => rfl
  | succ n ih => rw [List.range_succ, List.map_append, List.sum_append, ih, Finset.sum_range_succ]; simp

theorem sum_moved {M : Type*} [AddCommMonoid M] {π : ℕ ≃ ℕ} {n : ℕ} (hπ : ∀ p, π p < n ↔ p < n) (f : ℕ → M) :
    ∑ p ∈ range n, f (π p) = ∑ p ∈ range n, f p :=
  C91.sum_over (e := π) (fun k => by rw [mem_range, mem_range, hπ]) f

theorem list_moved {π : ℕ ≃ ℕ} {n : ℕ} (hπ : ∀ p, π p < n ↔ p < n) {f g : ℕ → ℝ}
    (h : ∀ p < n, f (π p) = g p) : ((List.range n).map f).sum = ((List.range n).map g).sum := by
  rw [range_sum, range_sum, ← sum_moved hπ]
  exact Finset.sum_congr rfl fun p hp => h p (mem_range.1 hp)

/-! ## Matrices of single panels -/

theorem quad_within {n : ℕ} {L : Coo ℝ} (hL : ∀ t ∈ L, t.row < n ∧ t.col < n) {v w : ℕ → ℝ}
    (h : ∀ k < n, v k = w k) : Coo.quad L v = Coo.quad L w := by
  unfold Coo.quad Coo.bilin
  exact congrArg List.sum (List.map_congr_left fun t ht => by rw [h _ (hL t ht).1, h _ (hL t ht).2])

theorem finalizeSym_within {n : ℕ} {L : Coo ℝ} (hL : ∀ t ∈ L, t.row < n ∧ t.col < n) :
    ∀ t ∈ Coo.finalizeSym L, t.row < n ∧ t.col < n := by
  intro t ht
  rcases List.mem_append.1 ht with h | h
  · exact hL t (List.mem_filter.1 h).1
  · obtain ⟨s, hs, rfl⟩ := List.mem_map.1 h
    exact (hL s (List.mem_filter.1 hs).1).symm

theorem sparse_within {n : ℕ} {L L' : Coo ℝ} (h : toSparse n L = .ok L') : ∀ t ∈ L', t.row < n ∧ t.col < n := by
  rw [toSparse_ok h]
  exact toSparse_bound h

theorem calcKC_within {E : Env ℝ} {s t : Shell ℝ} {L : Coo ℝ} (h : s.calcKC E {} = .ok (L, t)) :
    ∀ x ∈ L, x.row < 3 * s.pan.m * s.pan.n ∧ x.col < 3 * s.pan.m * s.pan.n := by
  unfold Shell.calcKC at h
  obtain ⟨r, h1, h⟩ := bind_ok.1 h
  have hp : r.pan = s.pan := (rebuild_kept E h1).1
  simp only [SizeArg.value, hp] at h
  obtain ⟨_, -, h⟩ := bind_ok.1 h
  obtain ⟨kC, h2, h⟩ := bind_ok.1 h
  obtain ⟨kG, h3, h⟩ := bind_ok.1 h
  cases h
  refine finalizeSym_within fun x hx => ?_
  rcases List.mem_append.1 hx with hx | hx
  · unfold Shell.kCpart at h2
    obtain ⟨b, -, h2⟩ := bind_ok.1 h2
    exact sparse_within h2 x hx
  · unfold Shell.kGcte at h3
    split at h3
    · obtain ⟨_, -, h3⟩ := bind_ok.1 h3
      obtain ⟨b, -, h3⟩ := bind_ok.1 h3
      exact sparse_within h3 x hx
    · cases h3
      cases hx

theorem calcKG_within {E : Env ℝ} {s t : Shell ℝ} {L : Coo ℝ} (h : s.calcKG E {} = .ok (L, t)) :
    ∀ x ∈ L, x.row < 3 * s.pan.m * s.pan.n ∧ x.col < 3 * s.pan.m * s.pan.n := by
  unfold Shell.calcKG at h
  obtain ⟨r, h1, h⟩ := bind_ok.1 h
  have hp : r.pan = s.pan := (rebuild_kept E h1).1
  simp only [SizeArg.value, hp] at h
  obtain ⟨_, -, h⟩ := bind_ok.1 h
  obtain ⟨b, -, h⟩ := bind_ok.1 h
  obtain ⟨kG, h3, h⟩ := bind_ok.1 h
  cases h
  exact finalizeSym_within (sparse_within h3)

/-! ## Energy of one joint -/

section
variable {S : Shape ℝ} {P1 P2 : Panel ℝ} {a b a' b' : ℕ} {v v' : ℕ → ℝ}

/-- The same displacements: the same energy. -/
theorem springs_same (e1 : ∀ α < 3, u S P1 a' v' α = u S P1 a v α) (e2 : ∀ α < 3, u S P2 b' v' α = u S P2 b v α)
    (f : String) (kt kr z1 z2 : ℝ) :
    C40.springs S P1 P2 a' b' v' f kt kr z1 z2 = C40.springs S P1 P2 a b v f kt kr z1 z2 := by
  simp only [C40.springs, e1 0 (by omega), e1 1 (by omega), e1 2 (by omega), e2 0 (by omega), e2 1 (by omega),
    e2 2 (by omega)]

/-- Two skins play the same part. -/
theorem springs_back {f : String} (hf : f = "SSxcte" ∧ P1.b = P2.b ∧ P1.b ≠ 0 ∨ f = "SSycte" ∧ P1.a = P2.a ∧ P1.a ≠ 0)
    (kt kr z1 z2 : ℝ) :
    C40.springs S P2 P1 b a v f kt kr z2 z1 = C40.springs S P1 P2 a b v f kt kr z1 z2 := by
  rcases hf with ⟨rfl, h, h0⟩ | ⟨rfl, h, h0⟩
  · simp only [C40.springs, String.reduceEq, if_true, jointEnergy, ← h, div_self h0, one_mul]
    exact intervalIntegral.integral_congr fun y _ => by ring
  · simp only [C40.springs, String.reduceEq, if_true, if_false, jointEnergy, ← h, div_self h0, one_mul]
    exact intervalIntegral.integral_congr fun y _ => by ring

/-- A flange that is numbered before its base is tied as if it stood on the other side. -/
theorem springs_flange (hS : S.C2) (h : P1.a = P2.a) (h0 : P1.a ≠ 0) (kt kr z1 z2 : ℝ) :
    C40.springs S P2 P1 b a v "BFycte" kt kr z2 z1 = C40.springs S P1 P2 a b v "BFycte" kt kr z1 z2
      + 4 * kt * ∫ x in (0 : ℝ)..P1.a,
          (u S P1 a v 1 x z1 * u S P2 b v 2 x z2 - u S P1 a v 2 x z1 * u S P2 b v 1 x z2) := by
  have c1 : ∀ α, Continuous fun x : ℝ => u S P1 a v α x z1 := fun α =>
    u_line hS P1 a v α continuous_id continuous_const
  have c2 : ∀ α, Continuous fun x : ℝ => u S P2 b v α x z2 := fun α =>
    u_line hS P2 b v α continuous_id continuous_const
  have d1 : Continuous fun x : ℝ => dy (u S P1 a v 2) x z1 := dy_line hS P1 a v 2 continuous_id continuous_const
  have d2 : Continuous fun x : ℝ => dy (u S P2 b v 2) x z2 := dy_line hS P2 b v 2 continuous_id continuous_const
  have c10 := c1 0
  have c11 := c1 1
  have c12 := c1 2
  have c20 := c2 0
  have c21 := c2 1
  have c22 := c2 2
  simp only [C40.springs, String.reduceEq, if_true, if_false, jointEnergy, ← h, div_self h0, one_mul]
  rw [← intervalIntegral.integral_const_mul, ← intervalIntegral.integral_add]
  · exact intervalIntegral.integral_congr fun y _ => by ring
  · exact Continuous.intervalIntegrable (by fun_prop) _ _
  · exact Continuous.intervalIntegrable (by fun_prop) _ _

/-- Panels laid over each other: which of them is on top follows from the numbers.  The first panel alone is
moved. -/
theorem springs_stack (hS : S.C2) (hb : ∀ α < 3, u S P2 b v α = fun _ _ => 0) (ha : P1.a = P2.a) (hb' : P1.b = P2.b)
    (h0 : P1.a ≠ 0) (h1 : P1.b ≠ 0) (hu : ∀ α < 2, u S P1 a v α = fun _ _ => 0) (kt kr d z2 : ℝ) :
    C40.springs S P1 P2 a b v "SB" kt kr d z2 = C40.springs S P2 P1 b a v "SB" kt kr d z2
      + kt * d ^ 2 * ∫ x in (0 : ℝ)..P1.a, ∫ y in (0 : ℝ)..P1.b,
          (dx (u S P1 a v 2) x y ^ 2 + dy (u S P1 a v 2) x y ^ 2) := by
  have z0 := hb 0 (by omega)
  have z1 := hb 1 (by omega)
  have z2' := hb 2 (by omega)
  have y0 := hu 0 (by omega)
  have y1 := hu 1 (by omega)
  have zx : ∀ x y, dx (fun _ _ : ℝ => (0 : ℝ)) x y = 0 := fun x y => by simp [dx]
  have zy : ∀ x y, dy (fun _ _ : ℝ => (0 : ℝ)) x y = 0 := fun x y => by simp [dy]
  have cw : Continuous fun q : ℝ × ℝ => u S P1 a v 2 q.1 q.2 := u_continuous hS P1 a v 2
  have cx : Continuous fun q : ℝ × ℝ => dx (u S P1 a v 2) q.1 q.2 := dx_continuous hS P1 a v 2
  have cy : Continuous fun q : ℝ × ℝ => dy (u S P1 a v 2) q.1 q.2 := dy_continuous hS P1 a v 2
  have inner : ∀ {g : ℝ → ℝ → ℝ}, Continuous (fun q : ℝ × ℝ => g q.1 q.2) →
      Continuous fun x => ∫ y in (0 : ℝ)..P1.b, g x y := fun hg =>
    intervalIntegral.continuous_parametric_intervalIntegral_of_continuous' hg 0 P1.b
  have line : ∀ {g : ℝ → ℝ → ℝ}, Continuous (fun q : ℝ × ℝ => g q.1 q.2) → ∀ x,
      Continuous (g x) := fun hg x => hg.comp (by fun_prop : Continuous fun y : ℝ => (x, y))
  simp only [C40.springs, String.reduceEq, if_false, areaEnergy, ← ha, ← hb', div_self h0, div_self h1, one_mul, z0,
    z1, z2', y0, y1, zx, zy, mul_zero, zero_add, sub_zero, zero_sub, neg_sq]
  have g1 : Continuous fun q : ℝ × ℝ => kt * ((0 : ℝ) ^ 2 + 0 ^ 2 + u S P1 a v 2 q.1 q.2 ^ 2) := by fun_prop
  have g2 : Continuous fun q : ℝ × ℝ => kt * d ^ 2 *
      (dx (u S P1 a v 2) q.1 q.2 ^ 2 + dy (u S P1 a v 2) q.1 q.2 ^ 2) := by fun_prop
  simp only [← intervalIntegral.integral_const_mul]
  rw [← intervalIntegral.integral_add ((inner g1).intervalIntegrable _ _) ((inner g2).intervalIntegrable _ _)]
  refine intervalIntegral.integral_congr fun x _ => ?_
  beta_reduce
  rw [← intervalIntegral.integral_add
    ((line (g := fun x y => kt * ((0 : ℝ) ^ 2 + 0 ^ 2 + u S P1 a v 2 x y ^ 2)) g1 x).intervalIntegrable _ _)
    ((line (g := fun x y => kt * d ^ 2 * (dx (u S P1 a v 2) x y ^ 2 + dy (u S P1 a v 2) x y ^ 2))
      g2 x).intervalIntegrable _ _)]
  refine intervalIntegral.integral_congr fun y _ => ?_
  beta_reduce
  ring

end

end Verif
