import Verif.Proofs.Definite
import Verif.Proofs.FieldOut
import Verif.Props.C07
import Verif.Spec.Witness

/-!
# C75: the displacement field determines the amplitudes
-/

namespace Verif.C75

open Spec Model Indep Finset

/-- At least four points in each direction, and at least as many as terms. -/
def Enough (m : ℕ) (s : Finset ℝ) : Prop := 4 ≤ s.card ∧ m ≤ s.card

theorem Enough.dense {m : ℕ} {s : Finset ℝ} (h : Enough m s) {a : ℝ} (ha : a ≠ 0) :
    Dense m ((fun x => 2 / a * x - 1) '' (s : Set ℝ)) := by
  classical
  refine ⟨s.image fun x => 2 / a * x - 1, fun x hx => ?_, ?_⟩
  · obtain ⟨y, hy, rfl⟩ := mem_image.1 hx
    exact ⟨y, hy, rfl⟩
  · obtain ⟨h4, hm⟩ := h
    have h2 : (2 : ℝ) / a ≠ 0 := by positivity
    rw [card_image_of_injective _ fun x y hxy => mul_left_cancel₀ h2 (sub_left_inj.1 hxy)]
    omega

theorem rowField_sub (S : Shape ℝ) (P : Panel ℝ) (c c' : ℕ → ℝ) (α : ℕ) (ξ η : ℝ) :
    disp S P 0 (fun k => c k - c' k) α 0 0 ξ η
      = disp S P 0 c α 0 0 ξ η - disp S P 0 c' α 0 0 ξ η := by
  simp only [disp, pow_zero, one_mul, sub_mul, sum_sub_distrib]

/-- Two sets of amplitudes give the same displacement output on a grid of points exactly when they
agree in all amplitudes that the edge flags switch on. -/
theorem hier {S : Shape ℝ} {N : ℕ} (hS : Hier S N) (P : Panel ℝ) (hm : P.m ≤ N) (hn : P.n ≤ N)
    (ha : P.a ≠ 0) (hb : P.b ≠ 0) (xs ys : Finset ℝ) (hx : Enough P.m xs) (hy : Enough P.n ys)
    (c c' : ℕ → ℝ) :
    (∀ x ∈ xs, ∀ y ∈ ys, (uvwAt S P c x y).u = (uvwAt S P c' x y).u ∧
      (uvwAt S P c x y).v = (uvwAt S P c' x y).v ∧ (uvwAt S P c x y).w = (uvwAt S P c' x y).w) ↔
    ∀ k, Active P 0 k → c k = c' k := by
  have e : ∀ x y, ((uvwAt S P c x y).u = (uvwAt S P c' x y).u ∧
      (uvwAt S P c x y).v = (uvwAt S P c' x y).v ∧ (uvwAt S P c x y).w = (uvwAt S P c' x y).w) ↔
      ∀ α < 3, disp S P 0 (fun k => c k - c' k) α 0 0 (2 / P.a * x - 1) (2 / P.b * y - 1) = 0 := by
    intro x y
    simp only [uvwAt_field, rowField, rowField_sub, sub_eq_zero, mul_div_right_comm]
    constructor
    · rintro ⟨h0, h1, h2⟩ α hα
      match α, hα with
      | 0, _ => exact h0
      | 1, _ => exact h1
      | 2, _ => exact h2
    · intro h
      exact ⟨h 0 (by norm_num), h 1 (by norm_num), h 2 (by norm_num)⟩
  have f : (∀ k, Active P 0 k → c k = c' k) ↔ ∀ α < 3, Rest P 0 (fun k => c k - c' k) α := by
    constructor
    · intro h α hα i hi j hj h1 h2
      exact sub_eq_zero.2 (h _ ⟨α, hα, i, hi, j, hj, h1, h2, rfl⟩)
    · rintro h _ ⟨α, hα, i, hi, j, hj, h1, h2, rfl⟩
      exact sub_eq_zero.1 (h α hα i hi j hj h1 h2)
  rw [f]
  constructor
  · intro h α hα
    refine disp_sep hS hm hn ha hb (hx.dense ha) (hy.dense hb) 0 _ (p := 0) (q := 0) (by norm_num)
      (by norm_num) trivial trivial ?_
    rintro _ ⟨x, hx', rfl⟩ _ ⟨y, hy', rfl⟩
    exact (e x y).1 (h x hx' y hy') α hα
  · intro h x _ y _
    exact (e x y).2 fun α hα => disp_rest hS hm hn (h α hα) (by norm_num) (by norm_num) _ _

/-- The printed functions, up to the implemented number of terms. -/
theorem printed (P : Panel ℝ) (hm : P.m ≤ 30) (hn : P.n ≤ 30) (ha : P.a ≠ 0) (hb : P.b ≠ 0)
    (xs ys : Finset ℝ) (hx : Enough P.m xs) (hy : Enough P.n ys) (c c' : ℕ → ℝ) :
    (∀ x ∈ xs, ∀ y ∈ ys,
      (uvwAt (vecShape ℝ) P c x y).u = (uvwAt (vecShape ℝ) P c' x y).u ∧
      (uvwAt (vecShape ℝ) P c x y).v = (uvwAt (vecShape ℝ) P c' x y).v ∧
      (uvwAt (vecShape ℝ) P c x y).w = (uvwAt (vecShape ℝ) P c' x y).w) ↔
    ∀ k, Active P 0 k → c k = c' k :=
  hier printed_hier P hm hn ha hb xs ys hx hy c c'

/-- The exact functions, any number of terms. -/
theorem exact (P : Panel ℝ) (ha : P.a ≠ 0) (hb : P.b ≠ 0) (xs ys : Finset ℝ)
    (hx : Enough P.m xs) (hy : Enough P.n ys) (c c' : ℕ → ℝ) :
    (∀ x ∈ xs, ∀ y ∈ ys,
      (uvwAt (bardellShape ℝ) P c x y).u = (uvwAt (bardellShape ℝ) P c' x y).u ∧
      (uvwAt (bardellShape ℝ) P c x y).v = (uvwAt (bardellShape ℝ) P c' x y).v ∧
      (uvwAt (bardellShape ℝ) P c x y).w = (uvwAt (bardellShape ℝ) P c' x y).w) ↔
    ∀ k, Active P 0 k → c k = c' k :=
  hier (exact_hier (max P.m P.n)) P (le_max_left _ _) (le_max_right _ _) ha hb xs ys hx hy c c'

/-- Beyond the implemented number of terms the amplitudes are not determined: the output only
depends on those of the first 30 terms in each direction. -/
theorem beyond (P : Panel ℝ) (c c' : ℕ → ℝ) (h : ∀ α < 3, ∀ i < P.m, ∀ j < P.n, i < 30 → j < 30 →
      c (3 * (j * P.m + i) + α) = c' (3 * (j * P.m + i) + α)) (x y : ℝ) :
    uvwAt (vecShape ℝ) P c x y = uvwAt (vecShape ℝ) P c' x y := by
  have hz : ∀ p i, 30 ≤ i → ∀ ξ fl, (vecShape ℝ).D p i ξ fl = 0 := by
    intro p i hi ξ fl
    rw [C01.vec_eq_scalar]
    obtain ⟨h1, h2, h3⟩ := C07.evaluators_high i hi ξ fl
    match p with
    | 0 => exact h1
    | 1 => exact h2
    | _ + 2 => exact h3
  have e : ∀ α < 3, ∀ p q ξ η, disp (vecShape ℝ) P 0 c α p q ξ η
      = disp (vecShape ℝ) P 0 c' α p q ξ η := by
    intro α hα p q ξ η
    unfold disp
    refine congrArg _ (sum_congr rfl fun i hi => sum_congr rfl fun j hj => ?_)
    by_cases h1 : i < 30
    · by_cases h2 : j < 30
      · rw [zero_add, h α hα i (mem_range.1 hi) j (mem_range.1 hj) h1 h2]
      · rw [hz q j (by omega), mul_zero, mul_zero, mul_zero]
    · rw [hz p i (by omega), zero_mul, mul_zero, mul_zero]
  simp only [uvwAt_field, rowField, e 0 (by norm_num), e 1 (by norm_num), e 2 (by norm_num)]

/-- Five terms and seven terms, on a grid of 5 × 7 points: the first amplitude of the deflection that
is switched on can be read off. -/
example (c c' : ℕ → ℝ) (h : ∀ x ∈ (range 5).image fun k : ℕ => (k : ℝ) / 2,
    ∀ y ∈ (range 7).image fun k : ℕ => (k : ℝ) / 7,
      (uvwAt (vecShape ℝ) Witness.panel c x y).u = (uvwAt (vecShape ℝ) Witness.panel c' x y).u ∧
      (uvwAt (vecShape ℝ) Witness.panel c x y).v = (uvwAt (vecShape ℝ) Witness.panel c' x y).v ∧
      (uvwAt (vecShape ℝ) Witness.panel c x y).w = (uvwAt (vecShape ℝ) Witness.panel c' x y).w) :
    c (3 * (4 * 5 + 3) + 2) = c' (3 * (4 * 5 + 3) + 2) := by
  refine (printed Witness.panel (by simp [Witness.panel]) (by simp [Witness.panel])
    (by simp [Witness.panel]) (by simp [Witness.panel]) _ _ ?_ ?_ c c').1 h _
    ⟨2, by norm_num, 3, by simp [Witness.panel], 4, by simp [Witness.panel],
      by simp [Witness.panel, Panel.xf, flag], by simp [flag], by simp [Witness.panel]⟩
  · rw [Enough, card_image_of_injective _ fun a b hab => by
      simpa using hab]
    simp [Witness.panel]
  · rw [Enough, card_image_of_injective _ fun a b hab => by
      simpa using hab]
    simp [Witness.panel]

end Verif.C75
