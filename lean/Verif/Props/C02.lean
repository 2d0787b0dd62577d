import Verif.Proofs.ShapeTab
import Verif.Spec.RealField
import Verif.Spec.Witness

/-!
# C02: edge flags remove edge displacement and edge rotation
-/

set_option maxRecDepth 100000

namespace Verif.C02

open Model ShapeCheck Finset

/-- Value of a list of terms over `ℚ`. -/
def qev (l : List (ℕ × ℚ)) (x : ℚ) : ℚ := (l.map fun t => t.2 * x ^ t.1).sum

theorem tev_cast (l : List (ℕ × ℚ)) (x : ℚ) : tev l (x : ℝ) = ((qev l x : ℚ) : ℝ) := by
  induction l with
  | nil => simp [tev, qev]
  | cons t l ih =>
    simp only [tev, qev, List.map_cons, List.sum_cons] at ih ⊢
    rw [ih]; push_cast; ring

/-- Row `i`, evaluated at `x`, is `v` for `i = k` and otherwise 0 (`i < 4`) or below `B`. -/
def edgeRow (k : ℕ) (v B x : ℚ) (i : ℕ) (l : List (ℕ × ℚ)) : Bool :=
  if i < 4 then qev l x == (if i = k then v else 0) else decide (|qev l x| ≤ B)

def edgeOK : Bool := (List.range 30).all fun i =>
  match Gen.sc_f[i]?, Gen.sc_fp[i]? with
  | some a, some b =>
    (a.fl == min i 4) && (b.fl == min i 4) &&
    edgeRow 0 1 (2 / 10 ^ 9) (-1) i (terms a) && edgeRow 2 1 (2 / 10 ^ 9) 1 i (terms a) &&
    edgeRow 1 (1 / 2) (9 / 10 ^ 8) (-1) i (terms b) && edgeRow 3 (1 / 2) (9 / 10 ^ 8) 1 i (terms b) &&
    edgeRow 1 (1 / 2) (9 / 10 ^ 8) (-1) i (dterms (terms a)) &&
    edgeRow 3 (1 / 2) (9 / 10 ^ 8) 1 i (dterms (terms a))
  | _, _ => false

theorem edgeOK_true : edgeOK = true := by decide +kernel

theorem edgeRow_sound {k : ℕ} (hk : k < 4) {v B x : ℚ} (hB : 0 ≤ B) {i : ℕ} {l : List (ℕ × ℚ)}
    (h : edgeRow k v B x i l = true) (fl : Flags ℝ) (hone : 4 ≤ i → Spec.flag fl i = 1) :
    |Spec.flag fl i * tev l (x : ℝ) - (if i = k then v * Spec.flag fl k else 0)| ≤ B := by
  rw [edgeRow] at h
  have hB' : (0 : ℝ) ≤ B := by exact_mod_cast hB
  split at h
  · rw [beq_iff_eq] at h
    rw [tev_cast, h]
    by_cases hik : i = k
    · subst hik; simp [mul_comm]; exact hB
    · simp [hik]; exact hB
  · rw [decide_eq_true_eq] at h
    rw [hone (by omega), if_neg (by omega), sub_zero, one_mul, tev_cast, ← Rat.cast_abs]
    exact_mod_cast h

theorem flag_one (fl : Flags ℝ) (i : ℕ) (h : 4 ≤ i) : Spec.flag fl i = 1 := by
  obtain ⟨n, rfl⟩ : ∃ n, i = n + 4 := ⟨i - 4, by omega⟩
  rfl

/-- Values and slopes of every function at the two edges, for arbitrary flags: function 0 is
`t1` at edge 1, function 2 is `t2` at edge 2, the slope of function 1 at edge 1 is `r1/2`, that of
function 3 at edge 2 is `r2/2`; every other value is below `2·10^-9`, every other slope below
`9·10^-8` (exactly 0 for the four boundary functions).  Slopes both as returned by `fp` and as
derivative of `f`. -/
theorem edge_values (i : ℕ) (fl : Flags ℝ) :
    let S := scShape ℝ
    |S.f i (-1) fl - (if i = 0 then fl.t1 else 0)| ≤ 2 / 10 ^ 9 ∧
    |S.f i 1 fl - (if i = 2 then fl.t2 else 0)| ≤ 2 / 10 ^ 9 ∧
    |S.fp i (-1) fl - (if i = 1 then 1 / 2 * fl.r1 else 0)| ≤ 9 / 10 ^ 8 ∧
    |S.fp i 1 fl - (if i = 3 then 1 / 2 * fl.r2 else 0)| ≤ 9 / 10 ^ 8 ∧
    |deriv (fun t => S.f i t fl) (-1) - (if i = 1 then 1 / 2 * fl.r1 else 0)| ≤ 9 / 10 ^ 8 ∧
    |deriv (fun t => S.f i t fl) 1 - (if i = 3 then 1 / 2 * fl.r2 else 0)| ≤ 9 / 10 ^ 8 := by
  intro S
  by_cases hi : i < 30
  · have h := edgeOK_true
    rw [edgeOK, List.all_eq_true] at h
    have h1 := h i (List.mem_range.2 hi)
    rcases ha : Gen.sc_f[i]? with _ | a <;> rcases hb : Gen.sc_fp[i]? with _ | b <;>
      rw [ha, hb] at h1
    · exact absurd h1 (by simp)
    · exact absurd h1 (by simp)
    · exact absurd h1 (by simp)
    · simp only [Bool.and_eq_true, beq_iff_eq] at h1
      obtain ⟨⟨⟨⟨⟨⟨⟨fa, fb⟩, e1⟩, e2⟩, e3⟩, e4⟩, e5⟩, e6⟩ := h1
      have ef : (fun t => S.f i t fl) = fun t => Spec.flag fl i * tev (terms a) t := by
        funext t
        simp only [S, scShape, tabVal, ha, rowVal_eq, fa, get_min]
      have ef' : ∀ x, S.f i x fl = Spec.flag fl i * tev (terms a) x := fun x => congrFun ef x
      have ep : ∀ x, S.fp i x fl = Spec.flag fl i * tev (terms b) x := by
        intro x
        simp only [S, scShape, tabVal, hb, rowVal_eq, fb, get_min]
      have hd : ∀ x, deriv (fun t => S.f i t fl) x = Spec.flag fl i * tev (dterms (terms a)) x := by
        intro x
        rw [ef]
        exact ((tev_hasDeriv (terms a) x).const_mul (Spec.flag fl i)).deriv
      rw [hd, hd, ep, ep, ef', ef']
      have f1 := flag_one fl i
      have r1 := edgeRow_sound (by norm_num) (by norm_num) e1 fl f1
      have r2 := edgeRow_sound (by norm_num) (by norm_num) e2 fl f1
      have r3 := edgeRow_sound (by norm_num) (by norm_num) e3 fl f1
      have r4 := edgeRow_sound (by norm_num) (by norm_num) e4 fl f1
      have r5 := edgeRow_sound (by norm_num) (by norm_num) e5 fl f1
      have r6 := edgeRow_sound (by norm_num) (by norm_num) e6 fl f1
      push_cast at r1 r2 r3 r4 r5 r6
      simp only [one_mul] at r1 r2
      exact ⟨r1, r2, r3, r4, r5, r6⟩
  · have h1 : Gen.sc_f.length = 30 := rfl
    have h2 : Gen.sc_fp.length = 30 := rfl
    have z1 : ∀ x, S.f i x fl = 0 := by
      intro x
      simp only [S, scShape, tabVal]; rw [List.getElem?_eq_none (by omega)]
    have z2 : ∀ x, S.fp i x fl = 0 := by
      intro x
      simp only [S, scShape, tabVal]; rw [List.getElem?_eq_none (by omega)]
    have i0 : i ≠ 0 := by omega
    have i1 : i ≠ 1 := by omega
    have i2 : i ≠ 2 := by omega
    have i3 : i ≠ 3 := by omega
    simp only [z1, z2, i0, i1, i2, i3, if_false, deriv_const]
    norm_num

/-- With exact zero for the boundary functions. -/
theorem edge_values_exact (i : ℕ) (hi : i < 4) (fl : Flags ℝ) :
    let S := scShape ℝ
    S.f i (-1) fl = (if i = 0 then fl.t1 else 0) ∧ S.f i 1 fl = (if i = 2 then fl.t2 else 0) ∧
    S.fp i (-1) fl = (if i = 1 then 1 / 2 * fl.r1 else 0) ∧
    S.fp i 1 fl = (if i = 3 then 1 / 2 * fl.r2 else 0) := by
  interval_cases i <;>
    norm_num [scShape, tabVal, Gen.sc_f, Gen.sc_fp, rowVal, Gen.sc_f_0, Gen.sc_f_1, Gen.sc_f_2,
      Gen.sc_f_3, Gen.sc_fp_0, Gen.sc_fp_1, Gen.sc_fp_2, Gen.sc_fp_3, dec, Flags.get] <;> ring

/-- One-dimensional series at an edge. -/
theorem series_edge (m k : ℕ) (d v : ℕ → ℝ) (t B : ℝ)
    (hv : ∀ i, |v i - (if i = k then t else 0)| ≤ B) :
    |∑ i ∈ range m, d i * v i - (if k < m then t * d k else 0)| ≤ B * ∑ i ∈ range m, |d i| := by
  have e : (if k < m then t * d k else 0) = ∑ i ∈ range m, d i * (if i = k then t else 0) := by
    simp only [mul_ite, mul_zero, Finset.sum_ite_eq', mem_range, mul_comm]
  rw [e, ← Finset.sum_sub_distrib, Finset.mul_sum]
  refine (Finset.abs_sum_le_sum_abs _ _).trans (Finset.sum_le_sum fun i _ => ?_)
  rw [← mul_sub, abs_mul, mul_comm]
  exact mul_le_mul_of_nonneg_right (hv i) (abs_nonneg _)

/-- Coefficient of function `i` along `x` on the line `y = const`. -/
noncomputable def lineX (P : Panel ℝ) (s0 : ℕ) (c : ℕ → ℝ) (α : ℕ) (y : ℝ) (i : ℕ) : ℝ :=
  ∑ j ∈ range P.n, c (s0 + 3 * (j * P.m + i) + α) *
    (scShape ℝ).f j (2 / P.b * y - 1) (P.yf α)

/-- Coefficient of function `j` along `y` on the line `x = const`. -/
noncomputable def lineY (P : Panel ℝ) (s0 : ℕ) (c : ℕ → ℝ) (α : ℕ) (x : ℝ) (j : ℕ) : ℝ :=
  ∑ i ∈ range P.m, c (s0 + 3 * (j * P.m + i) + α) *
    (scShape ℝ).f i (2 / P.a * x - 1) (P.xf α)

theorem u_lineX (P : Panel ℝ) (s0 : ℕ) (c : ℕ → ℝ) (α : ℕ) (x y : ℝ) :
    Spec.u (scShape ℝ) P s0 c α x y = ∑ i ∈ range P.m, lineX P s0 c α y i *
      (scShape ℝ).f i (2 / P.a * x - 1) (P.xf α) := by
  unfold Spec.u lineX
  refine Finset.sum_congr rfl fun i _ => ?_
  rw [Finset.sum_mul]
  exact Finset.sum_congr rfl fun j _ => by ring

theorem u_lineY (P : Panel ℝ) (s0 : ℕ) (c : ℕ → ℝ) (α : ℕ) (x y : ℝ) :
    Spec.u (scShape ℝ) P s0 c α x y = ∑ j ∈ range P.n, lineY P s0 c α x j *
      (scShape ℝ).f j (2 / P.b * y - 1) (P.yf α) := by
  unfold Spec.u lineY
  rw [Finset.sum_comm]
  refine Finset.sum_congr rfl fun j _ => ?_
  rw [Finset.sum_mul]
  exact Finset.sum_congr rfl fun i _ => by ring

/-- Displacement `α` on the four edges.  With the translation flag 0 it vanishes up to
`2·10^-9 ∑ |coefficients|`; with flag 1 exactly one term (0 at the first edge, 2 at the second)
controls it, with factor 1. -/
theorem edge_displacement (P : Panel ℝ) (ha : P.a ≠ 0) (hb : P.b ≠ 0) (s0 : ℕ) (c : ℕ → ℝ)
    (α : ℕ) (x y : ℝ) :
    let U := Spec.u (scShape ℝ) P s0 c α
    let X := lineX P s0 c α y
    let Y := lineY P s0 c α x
    |U 0 y - (if 0 < P.m then (P.xf α).t1 * X 0 else 0)| ≤ 2 / 10 ^ 9 * ∑ i ∈ range P.m, |X i| ∧
    |U P.a y - (if 2 < P.m then (P.xf α).t2 * X 2 else 0)| ≤ 2 / 10 ^ 9 * ∑ i ∈ range P.m, |X i| ∧
    |U x 0 - (if 0 < P.n then (P.yf α).t1 * Y 0 else 0)| ≤ 2 / 10 ^ 9 * ∑ j ∈ range P.n, |Y j| ∧
    |U x P.b - (if 2 < P.n then (P.yf α).t2 * Y 2 else 0)| ≤ 2 / 10 ^ 9 * ∑ j ∈ range P.n, |Y j| := by
  have x0 : 2 / P.a * 0 - 1 = -1 := by ring
  have x1 : 2 / P.a * P.a - 1 = 1 := by field_simp; ring
  have y0 : 2 / P.b * 0 - 1 = -1 := by ring
  have y1 : 2 / P.b * P.b - 1 = 1 := by field_simp; ring
  intro U X Y
  refine ⟨?_, ?_, ?_, ?_⟩
  · simp only [U, u_lineX, x0]
    exact series_edge P.m 0 X _ _ _ fun i => (edge_values i (P.xf α)).1
  · simp only [U, u_lineX, x1]
    exact series_edge P.m 2 X _ _ _ fun i => (edge_values i (P.xf α)).2.1
  · simp only [U, u_lineY, y0]
    exact series_edge P.n 0 Y _ _ _ fun i => (edge_values i (P.yf α)).1
  · simp only [U, u_lineY, y1]
    exact series_edge P.n 2 Y _ _ _ fun i => (edge_values i (P.yf α)).2.1

theorem differentiable_f (i : ℕ) (fl : Flags ℝ) (x : ℝ) :
    DifferentiableAt ℝ (fun t => (scShape ℝ).f i t fl) x := by
  rcases ha : Gen.sc_f[i]? with _ | a
  · have : (fun t => (scShape ℝ).f i t fl) = fun _ => 0 := by
      funext t; simp only [scShape, tabVal, ha]
    rw [this]; exact differentiableAt_const _
  · have : (fun t => (scShape ℝ).f i t fl) = fun t => fl.get a.fl * tev (terms a) t := by
      funext t; simp only [scShape, tabVal, ha, rowVal_eq]
    rw [this]
    exact ((tev_hasDeriv (terms a) x).const_mul _).differentiableAt

theorem deriv_series (m : ℕ) (d : ℕ → ℝ) (k : ℝ) (fl : Flags ℝ) (x : ℝ) :
    deriv (fun t => ∑ i ∈ range m, d i * (scShape ℝ).f i (k * t - 1) fl) x
      = k * ∑ i ∈ range m, d i * deriv (fun t => (scShape ℝ).f i t fl) (k * x - 1) := by
  have h : HasDerivAt (fun t => ∑ i ∈ range m, d i * (scShape ℝ).f i (k * t - 1) fl)
      (∑ i ∈ range m, d i * (k * deriv (fun t => (scShape ℝ).f i t fl) (k * x - 1))) x := by
    apply HasDerivAt.fun_sum
    intro i _
    apply HasDerivAt.const_mul
    have h1 : HasDerivAt (fun t : ℝ => k * t - 1) k x := by
      simpa using ((hasDerivAt_id x).const_mul k).sub_const 1
    have := HasDerivAt.comp x (differentiable_f i fl (k * x - 1)).hasDerivAt h1
    rw [mul_comm]
    exact this
  rw [h.deriv, Finset.mul_sum]
  exact Finset.sum_congr rfl fun i _ => by ring

/-- Slope normal to the edge (true derivative of the displacement).  With the rotation flag 0 it
vanishes up to rounding; with flag 1 exactly one term (1 at the first edge, 3 at the second)
controls it, with factor 1/2 in the natural coordinate (`1/a` resp. `1/b` in the physical one). -/
theorem edge_slope (P : Panel ℝ) (ha : P.a ≠ 0) (hb : P.b ≠ 0) (s0 : ℕ) (c : ℕ → ℝ)
    (α : ℕ) (x y : ℝ) :
    let U := Spec.u (scShape ℝ) P s0 c α
    let X := lineX P s0 c α y
    let Y := lineY P s0 c α x
    |Spec.dx U 0 y - 2 / P.a * (if 1 < P.m then 1 / 2 * (P.xf α).r1 * X 1 else 0)|
      ≤ |2 / P.a| * (9 / 10 ^ 8 * ∑ i ∈ range P.m, |X i|) ∧
    |Spec.dx U P.a y - 2 / P.a * (if 3 < P.m then 1 / 2 * (P.xf α).r2 * X 3 else 0)|
      ≤ |2 / P.a| * (9 / 10 ^ 8 * ∑ i ∈ range P.m, |X i|) ∧
    |Spec.dy U x 0 - 2 / P.b * (if 1 < P.n then 1 / 2 * (P.yf α).r1 * Y 1 else 0)|
      ≤ |2 / P.b| * (9 / 10 ^ 8 * ∑ j ∈ range P.n, |Y j|) ∧
    |Spec.dy U x P.b - 2 / P.b * (if 3 < P.n then 1 / 2 * (P.yf α).r2 * Y 3 else 0)|
      ≤ |2 / P.b| * (9 / 10 ^ 8 * ∑ j ∈ range P.n, |Y j|) := by
  have x0 : 2 / P.a * 0 - 1 = -1 := by ring
  have x1 : 2 / P.a * P.a - 1 = 1 := by field_simp; ring
  have y0 : 2 / P.b * 0 - 1 = -1 := by ring
  have y1 : 2 / P.b * P.b - 1 = 1 := by field_simp; ring
  intro U X Y
  refine ⟨?_, ?_, ?_, ?_⟩
  · simp only [U, Spec.dx, u_lineX, deriv_series, x0]
    rw [← mul_sub, abs_mul]
    exact mul_le_mul_of_nonneg_left (series_edge P.m 1 X _ _ _ fun i =>
      (edge_values i (P.xf α)).2.2.2.2.1) (abs_nonneg _)
  · simp only [U, Spec.dx, u_lineX, deriv_series, x1]
    rw [← mul_sub, abs_mul]
    exact mul_le_mul_of_nonneg_left (series_edge P.m 3 X _ _ _ fun i =>
      (edge_values i (P.xf α)).2.2.2.2.2) (abs_nonneg _)
  · simp only [U, Spec.dy, u_lineY, deriv_series, y0]
    rw [← mul_sub, abs_mul]
    exact mul_le_mul_of_nonneg_left (series_edge P.n 1 Y _ _ _ fun i =>
      (edge_values i (P.yf α)).2.2.2.2.1) (abs_nonneg _)
  · simp only [U, Spec.dy, u_lineY, deriv_series, y1]
    rw [← mul_sub, abs_mul]
    exact mul_le_mul_of_nonneg_left (series_edge P.n 3 Y _ _ _ fun i =>
      (edge_values i (P.yf α)).2.2.2.2.2) (abs_nonneg _)

/-- The witness panel is clamped in `w` at `x = 0` and simply supported at `x = a`. -/
example (c : ℕ → ℝ) (y : ℝ) :
    |Spec.u (scShape ℝ) Witness.panel 6 c 2 0 y|
      ≤ 2 / 10 ^ 9 * ∑ i ∈ range 5, |lineX Witness.panel 6 c 2 y i| := by
  have := (edge_displacement Witness.panel (by norm_num [Witness.panel])
    (by norm_num [Witness.panel]) 6 c 2 0 y).1
  simpa [Witness.panel, Panel.xf] using this

end Verif.C02
