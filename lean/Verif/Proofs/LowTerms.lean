import Verif.Proofs.Definite
import Verif.Spec.Rigid

/-!
# Fields without strain are made of the four cubics only

The strains of a panel vanish on a grid with enough points exactly when the amplitudes are those of a
motion without strain of the surface (six parameters).
-/

namespace Verif.Indep

open Polynomial Finset Spec Model

/-- As `Fam.zero`, with a remainder of lower degree. -/
theorem Fam.zero_rem {k N : ℕ} {q : ℕ → ℝ[X]} (hq : Fam k N q) (hk : k ≤ 2) {m : ℕ} (hm : m ≤ N)
    (h4 : 4 ≤ m) (b : ℕ → ℝ) (s : Finset ℝ) (hs : m - 1 < s.card) (r : ℝ[X])
    (hr : r.natDegree ≤ 3 - k) (h : ∀ x ∈ s, ∑ i ∈ range m, b i * (q i).eval x + r.eval x = 0) :
    (∀ i, 4 ≤ i → i < m → b i = 0) ∧
      ∀ d, ∑ i ∈ range 4, b i * (base k i d : ℝ) + r.coeff d = 0 := by
  have hdeg : ∀ i, i < 4 → (q i).natDegree ≤ 3 - k := fun i hi =>
    natDegree_le_iff_coeff_eq_zero.2 fun d hd => by
      rw [hq.low i hi, base_zero (by omega) hk, Rat.cast_zero]
  have hp : ∑ i ∈ range m, C (b i) * q i + r = 0 := by
    refine eq_zero_of_natDegree_lt_card_of_eval_eq_zero' _ s (fun x hx => ?_) (lt_of_le_of_lt ?_ hs)
    · rw [eval_add, eval_finsetSum, ← h x hx]
      congr 1
      exact sum_congr rfl fun i _ => by rw [eval_mul, eval_C]
    · refine (natDegree_add_le _ _).trans (max_le (natDegree_sum_le_of_forall_le _ _ fun i hi => ?_)
        (by omega))
      refine (natDegree_C_mul_le _ _).trans ?_
      have him := mem_range.1 hi
      by_cases h4 : i < 4
      · have := hdeg i h4; omega
      · have := hq.deg i (by omega) (by omega); omega
  have hc : ∀ d, ∑ i ∈ range m, b i * (q i).coeff d + r.coeff d = 0 := fun d => by
    have := congrArg (fun p => coeff p d) hp
    simpa only [coeff_add, finsetSum_coeff, coeff_C_mul, coeff_zero] using this
  have high : ∀ t i, m - i ≤ t → 4 ≤ i → i < m → b i = 0 := by
    intro t
    induction t with
    | zero => intro i h1 _ h3; omega
    | succ t ih =>
      intro i h1 h2 h3
      have e := hc (i - k)
      rw [coeff_eq_zero_of_natDegree_lt (p := r) (by omega), add_zero, sum_eq_single i] at e
      · exact (mul_eq_zero.1 e).resolve_right (hq.lead i h2 (by omega))
      · intro j hj hne
        have hjm := mem_range.1 hj
        rcases Nat.lt_or_gt_of_ne hne with hlt | hgt
        · rw [coeff_eq_zero_of_natDegree_lt, mul_zero]
          by_cases h4 : j < 4
          · have := hdeg j h4; omega
          · have := hq.deg j (by omega) (by omega); omega
        · rw [ih j (by omega) (by omega) hjm, zero_mul]
      · intro hn; exact absurd (mem_range.2 h3) hn
  refine ⟨fun i h1 h2 => high m i (by omega) h1 h2, fun d => Eq.trans ?_ (hc d)⟩
  congr 1
  rw [← sum_subset (range_subset_range.2 h4)]
  · exact sum_congr rfl fun i hi => by rw [hq.low i (mem_range.1 hi)]
  · intro i hi hni
    rw [high m i (by omega) (by simpa using hni) (mem_range.1 hi), zero_mul]

/-- Without remainder, values: every coefficient vanishes. -/
theorem Fam.indep {N : ℕ} {q : ℕ → ℝ[X]} (hq : Fam 0 N q) {m : ℕ} (hm : m ≤ N) (h4 : 4 ≤ m)
    (b : ℕ → ℝ) (s : Finset ℝ) (hs : m - 1 < s.card)
    (h : ∀ x ∈ s, ∑ i ∈ range m, b i * (q i).eval x = 0) (i : ℕ) (hi : i < m) : b i = 0 := by
  obtain ⟨h1, h2⟩ := hq.zero_rem (by norm_num) hm h4 b s hs 0 (by simp) fun x hx => by
    rw [h x hx, eval_zero, add_zero]
  by_cases hi4 : 4 ≤ i
  · exact h1 i hi4 hi
  · have s0 := h2 0
    have s1 := h2 1
    have s2 := h2 2
    have s3 := h2 3
    simp only [sum_range_succ, sum_range_zero, base, coeff_zero] at s0 s1 s2 s3
    push_cast at s0 s1 s2 s3
    match i, hi4 with
    | 0, _ => linarith
    | 1, _ => linarith
    | 2, _ => linarith
    | 3, _ => linarith
    | i + 4, h => exact absurd (by omega) h

/-! ## Two directions -/

/-- The families of the two directions with their points. -/
structure Grid (m n : ℕ) (q : ℕ → ℕ → ℝ[X]) where
  N : ℕ
  fam : ∀ k ≤ 2, Fam k N (q k)
  hm : m ≤ N
  hn : n ≤ N
  m4 : 4 ≤ m
  n4 : 4 ≤ n
  s : Finset ℝ
  t : Finset ℝ
  hs : m - 1 < s.card
  ht : n - 1 < t.card

variable {m n : ℕ} {q : ℕ → ℕ → ℝ[X]}

/-- `∑ Aᵢⱼ qₖᵢ(ξ) qₗⱼ(η)`. -/
noncomputable def ser (m n : ℕ) (q : ℕ → ℕ → ℝ[X]) (A : ℕ → ℕ → ℝ) (k l : ℕ) (ξ η : ℝ) : ℝ :=
  ∑ i ∈ range m, ∑ j ∈ range n, A i j * ((q k i).eval ξ * (q l j).eval η)

theorem ser_x (A : ℕ → ℕ → ℝ) (k l : ℕ) (ξ η : ℝ) :
    ser m n q A k l ξ η = ∑ i ∈ range m, (∑ j ∈ range n, A i j * (q l j).eval η) * (q k i).eval ξ := by
  unfold ser
  refine sum_congr rfl fun i _ => ?_
  rw [sum_mul]
  exact sum_congr rfl fun j _ => by ring

theorem ser_y (A : ℕ → ℕ → ℝ) (k l : ℕ) (ξ η : ℝ) :
    ser m n q A k l ξ η = ∑ j ∈ range n, (∑ i ∈ range m, A i j * (q k i).eval ξ) * (q l j).eval η := by
  unfold ser
  rw [sum_comm]
  refine sum_congr rfl fun j _ => ?_
  rw [sum_mul]
  exact sum_congr rfl fun i _ => by ring

/-- Derivatives along `x`, values along `y`. -/
theorem Grid.zero_x (G : Grid m n q) {k : ℕ} (hk : k ≤ 2) (A : ℕ → ℕ → ℝ)
    (h : ∀ ξ ∈ G.s, ∀ η ∈ G.t, ser m n q A k 0 ξ η = 0) :
    ∀ j < n, (∀ i, 4 ≤ i → i < m → A i j = 0) ∧
      ∀ d, ∑ i ∈ range 4, A i j * (base k i d : ℝ) = 0 := by
  have key : ∀ η ∈ G.t, _ := fun η hη => (G.fam k hk).zero_rem hk G.hm G.m4
    (fun i => ∑ j ∈ range n, A i j * (q 0 j).eval η) G.s G.hs 0 (by simp) fun ξ hξ => by
      rw [← ser_x, h ξ hξ η hη, eval_zero, add_zero]
  intro j hj
  constructor
  · intro i h4 hi
    exact (G.fam 0 (by norm_num)).indep G.hn G.n4 (fun j => A i j) G.t G.ht
      (fun η hη => (key η hη).1 i h4 hi) j hj
  · intro d
    refine (G.fam 0 (by norm_num)).indep G.hn G.n4
      (fun j => ∑ i ∈ range 4, A i j * (base k i d : ℝ)) G.t G.ht (fun η hη => ?_) j hj
    have := (key η hη).2 d
    rw [coeff_zero, add_zero] at this
    rw [← this]
    simp only [sum_mul]
    rw [sum_comm]
    exact sum_congr rfl fun i _ => sum_congr rfl fun j _ => by ring

/-- Values along `x`, derivatives along `y`, with a remainder. -/
theorem Grid.zero_y (G : Grid m n q) {k : ℕ} (hk : k ≤ 2) (A : ℕ → ℕ → ℝ) (R : ℕ → ℝ[X])
    (hR : ∀ i < m, (R i).natDegree ≤ 3 - k)
    (h : ∀ ξ ∈ G.s, ∀ η ∈ G.t, ser m n q A 0 k ξ η
      + ∑ i ∈ range m, (R i).eval η * (q 0 i).eval ξ = 0) :
    ∀ i < m, (∀ j, 4 ≤ j → j < n → A i j = 0) ∧
      ∀ d, ∑ j ∈ range 4, A i j * (base k j d : ℝ) + (R i).coeff d = 0 := by
  have key : ∀ ξ ∈ G.s, _ := fun ξ hξ => (G.fam k hk).zero_rem hk G.hn G.n4
    (fun j => ∑ i ∈ range m, A i j * (q 0 i).eval ξ) G.t G.ht
    (∑ i ∈ range m, C ((q 0 i).eval ξ) * R i)
    (natDegree_sum_le_of_forall_le _ _ fun i hi => (natDegree_C_mul_le _ _).trans
      (hR i (mem_range.1 hi))) fun η hη => by
      rw [← ser_y, ← h ξ hξ η hη, eval_finsetSum]
      congr 1
      exact sum_congr rfl fun i _ => by rw [eval_mul, eval_C, mul_comm]
  intro i hi
  constructor
  · intro j h4 hj
    exact (G.fam 0 (by norm_num)).indep G.hm G.m4 (fun i => A i j) G.s G.hs
      (fun ξ hξ => (key ξ hξ).1 j h4 hj) i hi
  · intro d
    refine (G.fam 0 (by norm_num)).indep G.hm G.m4
      (fun i => ∑ j ∈ range 4, A i j * (base k j d : ℝ) + (R i).coeff d) G.s G.hs
      (fun ξ hξ => ?_) i hi
    have := (key ξ hξ).2 d
    rw [← this, finsetSum_coeff]
    simp only [add_mul, sum_mul, sum_add_distrib, coeff_C_mul]
    congr 1
    · rw [sum_comm]
      exact sum_congr rfl fun j _ => sum_congr rfl fun i _ => by ring
    · exact sum_congr rfl fun i _ => by ring

/-! ## The four cubics -/

/-- `∑ eᵢ qᵢ` over the four cubics. -/
noncomputable def lowp (q : ℕ → ℝ[X]) (e : ℕ → ℝ) : ℝ[X] := ∑ i ∈ range 4, C (e i) * q i

theorem Fam.coeff_lowp {k N : ℕ} {q : ℕ → ℝ[X]} (hq : Fam k N q) (e : ℕ → ℝ) (d : ℕ) :
    (lowp q e).coeff d = ∑ i ∈ range 4, e i * (base k i d : ℝ) := by
  rw [lowp, finsetSum_coeff]
  exact sum_congr rfl fun i hi => by rw [coeff_C_mul, hq.low i (mem_range.1 hi)]

theorem eval_lowp (q : ℕ → ℝ[X]) (e : ℕ → ℝ) {m : ℕ} (h4 : 4 ≤ m)
    (h : ∀ i, 4 ≤ i → i < m → e i = 0) (x : ℝ) :
    ∑ i ∈ range m, e i * (q i).eval x = (lowp q e).eval x := by
  rw [lowp, eval_finsetSum, ← sum_subset (range_subset_range.2 h4)]
  · exact sum_congr rfl fun i _ => by rw [eval_mul, eval_C]
  · intro i hi hni
    rw [h i (by simpa using hni) (mem_range.1 hi), zero_mul]

theorem Fam.lowp_deg {N : ℕ} {q : ℕ → ℝ[X]} (hq : Fam 0 N q) (e : ℕ → ℝ)
    (h : ∑ i ∈ range 4, e i * (base 0 i 3 : ℝ) = 0) : (lowp q e).natDegree ≤ 2 := by
  refine natDegree_le_iff_coeff_eq_zero.2 fun d hd => ?_
  rw [hq.coeff_lowp]
  rcases Nat.lt_or_ge d 4 with h4 | h4
  · rw [show d = 3 by omega, h]
  · exact sum_eq_zero fun i _ => by rw [base_zero (by omega) (by norm_num), Rat.cast_zero, mul_zero]

/-- `1` at both ends without slopes. -/
def h1 : ℕ → ℝ
  | 0 => 1
  | 2 => 1
  | _ => 0

/-- The cubic data of `(1 + ξ) / 2`. -/
def h2 : ℕ → ℝ
  | 0 => 0
  | _ => 1

/-- The cubic data of `((1 + ξ) / 2)²`. -/
def h3 : ℕ → ℝ
  | 2 => 1
  | 3 => 2
  | _ => 0

/-- The amplitudes of a motion in the four cubics of each direction. -/
noncomputable def _root_.Verif.Spec.Motion.data (κ a b : ℝ) (M : Motion) (c i j : ℕ) : ℝ :=
  match c with
  | 0 => h1 i * (M.p * h1 j + M.θ * b * h2 j + κ * M.β / 2 * b ^ 2 * h3 j)
  | 1 => h1 i * (M.q * h1 j - κ * (M.α * b * h2 j + M.γ / 2 * b ^ 2 * h3 j))
      - a * h2 i * (M.θ * h1 j + κ * M.β * b * h2 j)
  | _ => h1 i * (M.α * h1 j + M.γ * b * h2 j) + a * h2 i * (M.β * h1 j)

/-- Affine in the direction of the first index of `A`. -/
def Aff (A : ℕ → ℝ) : Prop := A 2 = A 0 + A 1 ∧ A 3 = A 1

theorem Grid.defl (G : Grid m n q) (A : ℕ → ℕ → ℝ)
    (e3 : ∀ ξ ∈ G.s, ∀ η ∈ G.t, ser m n q A 2 0 ξ η = 0)
    (e4 : ∀ ξ ∈ G.s, ∀ η ∈ G.t, ser m n q A 0 2 ξ η = 0) :
    (∀ j < n, (∀ i, 4 ≤ i → i < m → A i j = 0) ∧ Aff fun i => A i j) ∧
    ∀ i < m, (∀ j, 4 ≤ j → j < n → A i j = 0) ∧ Aff (A i) := by
  have wx := G.zero_x le_rfl A e3
  have wy := G.zero_y le_rfl A (fun _ => 0) (by simp) fun ξ hξ η hη => by
    rw [e4 ξ hξ η hη]; simp
  refine ⟨fun j hj => ⟨(wx j hj).1, ?_⟩, fun i hi => ⟨(wy i hi).1, ?_⟩⟩
  · have s0 := (wx j hj).2 0
    have s1 := (wx j hj).2 1
    simp only [sum_range_succ, sum_range_zero, base] at s0 s1
    push_cast at s0 s1
    constructor <;> linarith
  · have s0 := (wy i hi).2 0
    have s1 := (wy i hi).2 1
    simp only [sum_range_succ, sum_range_zero, base, coeff_zero] at s0 s1
    push_cast at s0 s1
    constructor <;> linarith

theorem Grid.twist (G : Grid m n q) (A : ℕ → ℕ → ℝ) (hx : ∀ j < n, Aff fun i => A i j)
    (hy : ∀ i < m, Aff (A i)) (e5 : ∀ ξ ∈ G.s, ∀ η ∈ G.t, ser m n q A 1 1 ξ η = 0) :
    A 1 1 = 0 := by
  have m4 := G.m4
  have n4 := G.n4
  have key : ∀ η ∈ G.t, _ := fun η hη => ((G.fam 1 (by norm_num)).zero_rem (by norm_num) G.hm G.m4
    (fun i => ∑ j ∈ range n, A i j * (q 1 j).eval η) G.s G.hs 0 (by simp) fun ξ hξ => by
      rw [← ser_x, e5 ξ hξ η hη, eval_zero, add_zero]).2 0
  have := ((G.fam 1 (by norm_num)).zero_rem (by norm_num) G.hn G.n4
    (fun j => ∑ i ∈ range 4, A i j * (base 1 i 0 : ℝ)) G.t G.ht 0 (by simp) fun η hη => by
      have := key η hη
      rw [coeff_zero] at this
      rw [← this, eval_zero]
      simp only [sum_mul]
      rw [sum_comm]
      congr 1
      exact sum_congr rfl fun i _ => sum_congr rfl fun j _ => by ring).2 0
  have x0 := hx 0 (by omega)
  have x1 := hx 1 (by omega)
  have x2 := hx 2 (by omega)
  have x3 := hx 3 (by omega)
  have y0 := hy 0 (by omega)
  have y1 := hy 1 (by omega)
  simp only [Aff] at x0 x1 x2 x3 y0 y1
  simp only [sum_range_succ, sum_range_zero, base, coeff_zero] at this
  push_cast at this
  rw [x0.1, x0.2, x1.1, x1.2, x2.1, x2.2, x3.1, x3.2, y0.1, y0.2, y1.1, y1.2] at this
  linarith

theorem Grid.axial (G : Grid m n q) (A : ℕ → ℕ → ℝ)
    (e0 : ∀ ξ ∈ G.s, ∀ η ∈ G.t, ser m n q A 1 0 ξ η = 0) :
    ∀ j < n, (∀ i, 4 ≤ i → i < m → A i j = 0) ∧ A 1 j = 0 ∧ A 2 j = A 0 j ∧ A 3 j = 0 := by
  have ux := G.zero_x (by norm_num : 1 ≤ 2) A e0
  intro j hj
  have s0 := (ux j hj).2 0
  have s1 := (ux j hj).2 1
  have s2 := (ux j hj).2 2
  simp only [sum_range_succ, sum_range_zero, base] at s0 s1 s2
  push_cast at s0 s1 s2
  refine ⟨(ux j hj).1, ?_, ?_, ?_⟩ <;> linarith

theorem Grid.axial_eval (G : Grid m n q) (e : ℕ → ℝ) (h : ∀ i, 4 ≤ i → i < m → e i = 0)
    (u1 : e 1 = 0) (u2 : e 2 = e 0) (u3 : e 3 = 0) (ξ : ℝ) :
    ∑ i ∈ range m, e i * (q 0 i).eval ξ = e 0 := by
  rw [eval_lowp (q 0) e G.m4 h, show lowp (q 0) e = C (e 0) from ?_, eval_C]
  ext d
  rw [(G.fam 0 (by norm_num)).coeff_lowp, coeff_C]
  simp only [sum_range_succ, sum_range_zero, u1, u2, u3]
  match d with
  | 0 => simp only [base, if_true]; push_cast; ring
  | 1 => simp only [base]; rw [if_neg (by norm_num)]; push_cast; ring
  | 2 => simp only [base]; rw [if_neg (by norm_num)]; push_cast; ring
  | 3 => simp only [base]; rw [if_neg (by norm_num)]; push_cast; ring
  | d + 4 =>
    rw [base_zero (by omega) (by norm_num), base_zero (by omega) (by norm_num),
      base_zero (by omega) (by norm_num), base_zero (by omega) (by norm_num)]
    simp

/-- The membrane displacement along `y` follows the deflection. -/
def Foll (κ b : ℝ) (v w : ℕ → ℝ) : Prop :=
  v 1 = -(κ * b) * w 0 ∧ v 3 = -(κ * b) * (w 0 + w 1) ∧ v 2 = v 0 - κ * b * (w 0 + w 1 / 2)

theorem Grid.hoop (G : Grid m n q) (A W : ℕ → ℕ → ℝ) {b κ : ℝ} (hb : b ≠ 0)
    (hW : ∀ i < m, (∀ j, 4 ≤ j → j < n → W i j = 0) ∧ Aff (W i))
    (e1 : ∀ ξ ∈ G.s, ∀ η ∈ G.t, 2 / b * ser m n q A 0 1 ξ η + κ * ser m n q W 0 0 ξ η = 0) :
    ∀ i < m, (∀ j, 4 ≤ j → j < n → A i j = 0) ∧ Foll κ b (A i) (W i) := by
  have wdeg : ∀ i < m, (lowp (q 0) (W i)).natDegree ≤ 2 := fun i hi => by
    refine (G.fam 0 (by norm_num)).lowp_deg _ ?_
    have := (hW i hi).2
    simp only [sum_range_succ, sum_range_zero, base, this.1, this.2]
    push_cast
    ring
  have vy := G.zero_y (by norm_num : 1 ≤ 2) (fun i j => 2 / b * A i j)
    (fun i => C κ * lowp (q 0) (W i))
    (fun i hi => (natDegree_C_mul_le _ _).trans (wdeg i hi)) fun ξ hξ η hη => by
      rw [← e1 ξ hξ η hη, ser_x W, mul_sum]
      congr 1
      · simp only [ser, mul_sum, mul_assoc]
      · refine sum_congr rfl fun i hi => ?_
        rw [eval_lowp (q 0) (W i) G.n4 (hW i (mem_range.1 hi)).1, eval_mul, eval_C, mul_assoc]
  have vy' : ∀ i < m, ∀ d, ∑ j ∈ range 4, A i j * (base 1 j d : ℝ)
      = -(κ * b / 2) * ∑ j ∈ range 4, W i j * (base 0 j d : ℝ) := by
    intro i hi d
    have := (vy i hi).2 d
    rw [coeff_C_mul, (G.fam 0 (by norm_num)).coeff_lowp] at this
    simp only [mul_assoc, ← mul_sum] at this
    field_simp at this
    linarith
  intro i hi
  refine ⟨fun j h4 hj => (mul_eq_zero.1 ((vy i hi).1 j h4 hj)).resolve_left (by positivity), ?_⟩
  have s0 := vy' i hi 0
  have s1 := vy' i hi 1
  have s2 := vy' i hi 2
  have := (hW i hi).2
  simp only [sum_range_succ, sum_range_zero, base, this.1, this.2] at s0 s1 s2
  push_cast at s0 s1 s2
  refine ⟨?_, ?_, ?_⟩ <;> linarith

theorem Grid.shear (G : Grid m n q) (A V : ℕ → ℕ → ℝ) {a b : ℝ} (ha : a ≠ 0) (hb : b ≠ 0)
    (hA : ∀ j < n, (∀ i, 4 ≤ i → i < m → A i j = 0) ∧ A 1 j = 0 ∧ A 2 j = A 0 j ∧ A 3 j = 0)
    (hV : ∀ i < m, ∀ j, 4 ≤ j → j < n → V i j = 0)
    (hV3 : ∀ i < m, ∑ j ∈ range 4, V i j * (base 0 j 3 : ℝ) = 0)
    (e2 : ∀ ξ ∈ G.s, ∀ η ∈ G.t,
      2 / b * ser m n q A 0 1 ξ η + 2 / a * ser m n q V 1 0 ξ η = 0) :
    (∀ i, 4 ≤ i → i < m → ∀ j < n, V i j = 0) ∧ (∀ j < n, Aff fun i => V i j) ∧
    (∀ j, 4 ≤ j → j < n → A 0 j = 0) ∧
    ∀ d, ∑ j ∈ range 4, A 0 j * (base 1 j d : ℝ)
      = -(b / a) * ∑ i ∈ range 4, (base 1 i 0 : ℝ) * ∑ j ∈ range 4, V i j * (base 0 j d : ℝ) := by
  have m4 := G.m4
  have n4 := G.n4
  have key : ∀ η ∈ G.t, _ := fun η hη => (G.fam 1 (by norm_num)).zero_rem (by norm_num) G.hm G.m4
    (fun i => 2 / a * ∑ j ∈ range n, V i j * (q 0 j).eval η) G.s G.hs
    (C (2 / b * ∑ j ∈ range n, A 0 j * (q 1 j).eval η)) (by rw [natDegree_C]; omega) fun ξ hξ => by
      rw [← e2 ξ hξ η hη, ser_x V, ser_y A, eval_C, add_comm]
      congr 1
      · congr 1
        refine sum_congr rfl fun j hj => ?_
        obtain ⟨h, u1, u2, u3⟩ := hA j (mem_range.1 hj)
        rw [G.axial_eval (fun i => A i j) h u1 u2 u3]
      · rw [mul_sum]
        exact sum_congr rfl fun i _ => by ring
  have vx : ∀ d, 1 ≤ d → ∀ j < n, ∑ i ∈ range 4, V i j * (base 1 i d : ℝ) = 0 := by
    intro d hd j hj
    refine (G.fam 0 (by norm_num)).indep G.hn G.n4
      (fun j => ∑ i ∈ range 4, V i j * (base 1 i d : ℝ)) G.t G.ht (fun η hη => ?_) j hj
    have := (key η hη).2 d
    rw [coeff_C, if_neg (by omega), add_zero] at this
    simp only [mul_assoc, ← mul_sum] at this
    rw [← (mul_eq_zero.1 this).resolve_left (by positivity)]
    simp only [sum_mul]
    rw [sum_comm]
    exact sum_congr rfl fun i _ => sum_congr rfl fun j _ => by ring
  obtain ⟨uh, ul⟩ := (G.fam 1 (by norm_num)).zero_rem (by norm_num) G.hn G.n4
    (fun j => 2 / b * A 0 j) G.t G.ht
    (∑ i ∈ range 4, C (2 / a * (base 1 i 0 : ℝ)) * lowp (q 0) (V i))
    (natDegree_sum_le_of_forall_le _ _ fun i hi => (natDegree_C_mul_le _ _).trans
      ((G.fam 0 (by norm_num)).lowp_deg _ (hV3 i (by have := mem_range.1 hi; omega))))
    fun η hη => by
      have := (key η hη).2 0
      rw [coeff_C, if_pos rfl] at this
      rw [← this, add_comm, eval_finsetSum]
      congr 1
      · refine sum_congr rfl fun i hi => ?_
        have him := mem_range.1 hi
        rw [eval_lowp (q 0) (V i) n4 (hV i (by omega)), eval_mul, eval_C]
        ring
      · simp only [mul_assoc, mul_sum]
  refine ⟨fun i h4 hi j hj => ?_, fun j hj => ?_, fun j h4 hj => ?_, fun d => ?_⟩
  · refine (G.fam 0 (by norm_num)).indep G.hn G.n4 (V i) G.t G.ht (fun η hη => ?_) j hj
    exact (mul_eq_zero.1 ((key η hη).1 i h4 hi)).resolve_left (by positivity)
  · have s1 := vx 1 le_rfl j hj
    have s2 := vx 2 (by norm_num) j hj
    simp only [sum_range_succ, sum_range_zero, base] at s1 s2
    push_cast at s1 s2
    constructor <;> linarith
  · exact (mul_eq_zero.1 (uh j h4 hj)).resolve_left (by positivity)
  · have := ul d
    rw [finsetSum_coeff] at this
    simp only [coeff_C_mul, (G.fam 0 (by norm_num)).coeff_lowp, mul_assoc, ← mul_sum] at this
    field_simp at this ⊢
    linarith

/-- The data of the first component of a motion. -/
theorem first_data {U : ℕ → ℝ} {V W : ℕ → ℕ → ℝ} {a b κ : ℝ} (vr : Foll κ b (V 1) (W 1))
    (vx : ∀ j < 4, Aff fun i => V i j) (w11 : W 1 1 = 0)
    (ul : ∀ d, ∑ j ∈ range 4, U j * (base 1 j d : ℝ)
      = -(b / a) * ∑ i ∈ range 4, (base 1 i 0 : ℝ) * ∑ j ∈ range 4, V i j * (base 0 j d : ℝ)) :
    ∀ j < 4, U j = U 0 * h1 j + -(V 1 0) / a * b * h2 j + κ * (W 1 0 / a) / 2 * b ^ 2 * h3 j := by
  have ul' : ∀ d, ∑ j ∈ range 4, U j * (base 1 j d : ℝ)
      = -(b / a) * ∑ j ∈ range 4, V 1 j / 2 * (base 0 j d : ℝ) := by
    intro d
    rw [ul d]
    simp only [mul_sum (range 4)]
    rw [sum_comm]
    refine sum_congr rfl fun j hj => ?_
    have X := vx j (mem_range.1 hj)
    simp only [Aff] at X
    rw [sum_range_succ, sum_range_succ, sum_range_succ, sum_range_succ, sum_range_zero, X.1, X.2]
    simp only [base]
    push_cast
    ring
  obtain ⟨b1, b2, b3⟩ := vr
  rw [w11] at b2 b3
  have hu : U 1 = -(b / a) * V 1 0 ∧ U 3 = -(b / a) * (V 1 0 - κ * b * W 1 0) ∧
      U 2 = U 0 - b / a * (V 1 0 - κ * b * W 1 0 / 2) := by
    have s0 := ul' 0
    have s1 := ul' 1
    have s2 := ul' 2
    simp only [sum_range_succ, sum_range_zero, base, b1, b2, b3] at s0 s1 s2
    push_cast at s0 s1 s2
    refine ⟨?_, ?_, ?_⟩ <;> linarith
  intro j hj
  match j, hj with
  | 0, _ => simp [h1, h2, h3]
  | 1, _ => rw [hu.1]; simp only [h1, h2, h3]; ring
  | 2, _ => rw [hu.2.2]; simp only [h1, h2, h3]; ring
  | 3, _ => rw [hu.2.1]; simp only [h1, h2, h3]; ring

/-- A table that is affine along the first index. -/
theorem aff_data {V : ℕ → ℕ → ℝ} {M : Motion} {κ a b : ℝ} {c : ℕ} (hc : 1 ≤ c) {j : ℕ}
    (X : Aff fun i => V i j) (r0 : V 0 j = M.data κ a b c 0 j) (r1 : V 1 j = M.data κ a b c 1 j) :
    ∀ i < 4, V i j = M.data κ a b c i j := by
  simp only [Aff] at X
  intro i hi
  match c, hc, i, hi with
  | _, _, 0, _ => exact r0
  | _, _, 1, _ => exact r1
  | 1, _, 2, _ => rw [X.1, r0, r1]; simp only [Motion.data, h1, h2]; ring
  | 1, _, 3, _ => rw [X.2, r1]; simp only [Motion.data, h1, h2]
  | c + 2, _, 2, _ => rw [X.1, r0, r1]; simp only [Motion.data, h1, h2]; ring
  | c + 2, _, 3, _ => rw [X.2, r1]; simp only [Motion.data, h1, h2]

/-- Without strain on a grid only the four cubics are left, with the amplitudes of a motion. -/
theorem Grid.motion (G : Grid m n q) (A : ℕ → ℕ → ℕ → ℝ) {a b κ : ℝ} (ha : a ≠ 0) (hb : b ≠ 0)
    (e0 : ∀ ξ ∈ G.s, ∀ η ∈ G.t, ser m n q (A 0) 1 0 ξ η = 0)
    (e1 : ∀ ξ ∈ G.s, ∀ η ∈ G.t, 2 / b * ser m n q (A 1) 0 1 ξ η + κ * ser m n q (A 2) 0 0 ξ η = 0)
    (e2 : ∀ ξ ∈ G.s, ∀ η ∈ G.t,
      2 / b * ser m n q (A 0) 0 1 ξ η + 2 / a * ser m n q (A 1) 1 0 ξ η = 0)
    (e3 : ∀ ξ ∈ G.s, ∀ η ∈ G.t, ser m n q (A 2) 2 0 ξ η = 0)
    (e4 : ∀ ξ ∈ G.s, ∀ η ∈ G.t, ser m n q (A 2) 0 2 ξ η = 0)
    (e5 : ∀ ξ ∈ G.s, ∀ η ∈ G.t, ser m n q (A 2) 1 1 ξ η = 0) :
    ∃ M : Motion, ∀ c < 3, (∀ i < m, ∀ j < n, 4 ≤ i ∨ 4 ≤ j → A c i j = 0) ∧
      ∀ i < 4, ∀ j < 4, A c i j = M.data κ a b c i j := by
  have m4 := G.m4
  have n4 := G.n4
  obtain ⟨wx, wy⟩ := G.defl (A 2) e3 e4
  have w11 := G.twist (A 2) (fun j hj => (wx j hj).2) (fun i hi => (wy i hi).2) e5
  have ux := G.axial (A 0) e0
  have vy := G.hoop (A 1) (A 2) hb wy e1
  obtain ⟨vhx, vx, uh, ul⟩ := G.shear (A 0) (A 1) ha hb ux (fun i hi => (vy i hi).1)
    (fun i hi => by
      obtain ⟨f1, f2, f3⟩ := (vy i hi).2
      simp only [sum_range_succ, sum_range_zero, base, f1, f2, f3]
      push_cast
      ring) e2
  have ud := first_data (vy 1 (by omega)).2 (fun j hj => vx j (by omega)) w11 ul
  refine ⟨⟨A 0 0 0, A 1 0 0, -(A 1 1 0) / a, A 2 0 0, A 2 1 0 / a, A 2 0 1 / b⟩, fun c hc => ?_⟩
  match c, hc with
  | 0, _ =>
    constructor
    · intro i hi j hj h
      obtain ⟨uz, u1, u2, u3⟩ := ux j hj
      by_cases h4 : 4 ≤ i
      · exact uz i h4 hi
      · have u0 := uh j (by omega) hj
        match i, h4 with
        | 0, _ => exact u0
        | 1, _ => exact u1
        | 2, _ => exact u2.trans u0
        | 3, _ => exact u3
        | i + 4, h => exact absurd (by omega) h
    · intro i hi j hj
      obtain ⟨-, u1, u2, u3⟩ := ux j (by omega)
      have r0 := ud j hj
      match i, hi with
      | 0, _ => simpa [Motion.data, h1] using r0
      | 1, _ => simpa [Motion.data, h1] using u1
      | 2, _ => rw [u2]; simpa [Motion.data, h1] using r0
      | 3, _ => simpa [Motion.data, h1] using u3
  | 1, _ =>
    refine ⟨fun i hi j hj h => h.elim (fun h => vhx i h hi j hj) fun h => (vy i hi).1 j h hj,
      fun i hi j hj => aff_data le_rfl (vx j (by omega)) ?_ ?_ i hi⟩
    · obtain ⟨f1, f2, f3⟩ := (vy 0 (by omega)).2
      match j, hj with
      | 0, _ => simp [Motion.data, h1, h2, h3]
      | 1, _ => rw [f1]; simp only [Motion.data, h1, h2, h3]; field_simp; ring
      | 2, _ => rw [f3]; simp only [Motion.data, h1, h2, h3]; field_simp; ring
      | 3, _ => rw [f2]; simp only [Motion.data, h1, h2, h3]; field_simp; ring
    · obtain ⟨f1, f2, f3⟩ := (vy 1 (by omega)).2
      rw [w11] at f2 f3
      match j, hj with
      | 0, _ => simp only [Motion.data, h1, h2, h3]; field_simp; ring
      | 1, _ => rw [f1]; simp only [Motion.data, h1, h2, h3]; field_simp; ring
      | 2, _ => rw [f3]; simp only [Motion.data, h1, h2, h3]; field_simp; ring
      | 3, _ => rw [f2]; simp only [Motion.data, h1, h2, h3]; field_simp; ring
  | 2, _ =>
    refine ⟨fun i hi j hj h => h.elim (fun h => (wx j hj).1 i h hi) fun h => (wy i hi).1 j h hj,
      fun i hi j hj => aff_data (by norm_num) (wx j (by omega)).2 ?_ ?_ i hi⟩
    · obtain ⟨f1, f2⟩ := (wy 0 (by omega)).2
      match j, hj with
      | 0, _ => simp [Motion.data, h1, h2]
      | 1, _ => simp only [Motion.data, h1, h2]; field_simp; ring
      | 2, _ => rw [f1]; simp only [Motion.data, h1, h2]; field_simp; ring
      | 3, _ => rw [f2]; simp only [Motion.data, h1, h2]; field_simp; ring
    · obtain ⟨f1, f2⟩ := (wy 1 (by omega)).2
      rw [w11] at f1 f2
      match j, hj with
      | 0, _ => simp only [Motion.data, h1, h2]; field_simp; ring
      | 1, _ => rw [w11]; simp only [Motion.data, h1, h2]; ring
      | 2, _ => rw [f1]; simp only [Motion.data, h1, h2]; field_simp; ring
      | 3, _ => rw [f2]; simp only [Motion.data, h1, h2]; ring

end Verif.Indep
