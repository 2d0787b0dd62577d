import Verif.Proofs.NumStiff
import Verif.Spec.Bardell
import Verif.Proofs.GaussTab
import Verif.Spec.Witness
import Mathlib.Algebra.Polynomial.Eval.Degree
import Mathlib.Algebra.Polynomial.BigOperators
import Mathlib.Topology.Algebra.Polynomial

/-!
# C27: sub-domain integration

`Exact G n d`: the `n`-point rule integrates `x^k` over `[-1, 1]` exactly for `k ≤ d`.  Then it does so
for every polynomial of degree at most `d` on every interval (`rule_interval`), the quadrature of a
panel is the integral over its sub-domain (`gauss_integral`), and splitting a panel at any station and
adding the matrices gives the matrix of the whole (`kC_split_x`, `kC_split_y`, `kM_split_x`,
`kM_split_y`).  The printed rules are exact up to `10⁻⁵³` per moment (`printed_interval`).
-/

namespace Verif.C27

open Finset Spec Model Polynomial

/-- `f` is a polynomial function of degree at most `d`. -/
def IsPoly (d : ℕ) (f : ℝ → ℝ) : Prop := ∃ p : ℝ[X], p.natDegree ≤ d ∧ ∀ x, f x = p.eval x

namespace IsPoly

theorem const (d : ℕ) (c : ℝ) : IsPoly d fun _ => c := ⟨C c, by simp, by simp⟩

theorem mono {d e : ℕ} {f : ℝ → ℝ} (h : IsPoly d f) (hde : d ≤ e) : IsPoly e f := by
  obtain ⟨p, hp, hf⟩ := h
  exact ⟨p, hp.trans hde, hf⟩

theorem add {d : ℕ} {f g : ℝ → ℝ} (hf : IsPoly d f) (hg : IsPoly d g) :
    IsPoly d fun x => f x + g x := by
  obtain ⟨p, hp, hf⟩ := hf
  obtain ⟨q, hq, hg⟩ := hg
  exact ⟨p + q, natDegree_add_le_of_degree_le hp hq, fun x => by simp [hf, hg]⟩

theorem mul {d e : ℕ} {f g : ℝ → ℝ} (hf : IsPoly d f) (hg : IsPoly e g) :
    IsPoly (d + e) fun x => f x * g x := by
  obtain ⟨p, hp, hf⟩ := hf
  obtain ⟨q, hq, hg⟩ := hg
  exact ⟨p * q, natDegree_mul_le_of_le hp hq, fun x => by simp [hf, hg]⟩

theorem smul {d : ℕ} {f : ℝ → ℝ} (c : ℝ) (hf : IsPoly d f) : IsPoly d fun x => c * f x := by
  simpa using (const 0 c).mul hf

theorem mul_const {d : ℕ} {f : ℝ → ℝ} (hf : IsPoly d f) (c : ℝ) : IsPoly d fun x => f x * c := by
  simpa using hf.mul (const 0 c)

theorem neg {d : ℕ} {f : ℝ → ℝ} (hf : IsPoly d f) : IsPoly d fun x => - f x := by
  simpa using hf.smul (-1)

theorem sq {d : ℕ} {f : ℝ → ℝ} (hf : IsPoly d f) : IsPoly (2 * d) fun x => f x ^ 2 := by
  simpa [pow_two, two_mul] using hf.mul hf

theorem sum {ι : Type} (s : Finset ι) {d : ℕ} {f : ι → ℝ → ℝ} (h : ∀ i ∈ s, IsPoly d (f i)) :
    IsPoly d fun x => ∑ i ∈ s, f i x := by
  classical
  induction s using Finset.induction_on with
  | empty => simpa using const d 0
  | insert a s ha ih =>
    simp only [Finset.sum_insert ha]
    exact (h a (Finset.mem_insert_self a s)).add (ih fun i hi => h i (Finset.mem_insert_of_mem hi))

theorem affine {d : ℕ} {f : ℝ → ℝ} (hf : IsPoly d f) (c e : ℝ) : IsPoly d fun x => f (e + c * x) := by
  obtain ⟨p, hp, hf⟩ := hf
  refine ⟨p.comp (C e + C c * X), ?_, fun x => by simp [hf]⟩
  refine natDegree_comp_le.trans ?_
  have : (C e + C c * X : ℝ[X]).natDegree ≤ 1 := by compute_degree
  calc p.natDegree * _ ≤ p.natDegree * 1 := Nat.mul_le_mul_left _ this
    _ ≤ d := by simpa using hp

theorem continuous {d : ℕ} {f : ℝ → ℝ} (hf : IsPoly d f) : Continuous f := by
  obtain ⟨p, -, hf⟩ := hf
  rw [show f = fun x => p.eval x from funext hf]
  exact p.continuous

end IsPoly

/-- The `n`-point rule integrates the powers up to `d` exactly over `[-1, 1]`. -/
def Exact (G : GaussTab ℝ) (n d : ℕ) : Prop :=
  ∀ k ≤ d, ∑ i ∈ range n, G.wt n i * G.pt n i ^ k = ∫ x in (-1 : ℝ)..1, x ^ k

/-- From `[-1, 1]` to an interval. -/
theorem integral_affine (f : ℝ → ℝ) (lo hi : ℝ) :
    ∫ x in lo..hi, f x = (hi - lo) / 2 * ∫ x in (-1 : ℝ)..1, f ((lo + hi) / 2 + (hi - lo) / 2 * x) := by
  have h := intervalIntegral.smul_integral_comp_add_mul (a := -1) (b := 1) f ((hi - lo) / 2)
    ((lo + hi) / 2)
  rw [smul_eq_mul] at h
  rw [h]
  congr 1 <;> ring

theorem integral_poly (p : ℝ[X]) : ∫ x in (-1 : ℝ)..1, p.eval x
    = ∑ k ∈ range (p.natDegree + 1), p.coeff k * ∫ x in (-1 : ℝ)..1, x ^ k := by
  simp only [eval_eq_sum_range]
  rw [intervalIntegral.integral_finsetSum fun k _ =>
    (Continuous.intervalIntegrable (by fun_prop) _ _)]
  exact Finset.sum_congr rfl fun k _ => by rw [intervalIntegral.integral_const_mul]

theorem rule_poly (G : GaussTab ℝ) (n : ℕ) (p : ℝ[X]) :
    ∑ i ∈ range n, G.wt n i * p.eval (G.pt n i)
      = ∑ k ∈ range (p.natDegree + 1), p.coeff k * ∑ i ∈ range n, G.wt n i * G.pt n i ^ k := by
  simp only [eval_eq_sum_range, Finset.mul_sum]
  rw [Finset.sum_comm]
  exact Finset.sum_congr rfl fun k _ => Finset.sum_congr rfl fun i _ => by ring

/-- An exact rule integrates polynomials over any interval. -/
theorem rule_interval {G : GaussTab ℝ} {n d : ℕ} (hG : Exact G n d) {f : ℝ → ℝ} (hf : IsPoly d f)
    (lo hi : ℝ) :
    ∑ i ∈ range n, G.wt n i * ((hi - lo) / 2) * f (node G n lo hi i) = ∫ x in lo..hi, f x := by
  rw [integral_affine]
  obtain ⟨p, hp, hf⟩ := hf.affine ((hi - lo) / 2) ((lo + hi) / 2)
  have e : ∫ x in (-1 : ℝ)..1, p.eval x = ∑ i ∈ range n, G.wt n i * p.eval (G.pt n i) := by
    rw [integral_poly, rule_poly]
    refine Finset.sum_congr rfl fun k hk => ?_
    rw [← hG k (by rw [Finset.mem_range] at hk; omega)]
  rw [show (fun x => f ((lo + hi) / 2 + (hi - lo) / 2 * x)) = fun x => p.eval x from funext hf,
    e, Finset.mul_sum]
  refine Finset.sum_congr rfl fun i _ => ?_
  rw [node, ← hf]
  ring

/-- The integral of the powers, as the tables are checked against. -/
theorem integral_power (k : ℕ) :
    ∫ x in (-1 : ℝ)..1, x ^ k = if k % 2 = 0 then 2 / ((k : ℝ) + 1) else 0 := by
  rw [integral_pow]
  rcases Nat.even_or_odd k with h | h
  · rw [if_pos (Nat.even_iff.1 h), (h.add_one).neg_one_pow]
    ring
  · rw [if_neg (by rw [Nat.odd_iff.1 h]; decide), (h.add_one).neg_one_pow]
    simp

/-- The printed rules on an interval: the error of every polynomial of degree below `2 n` is at most
`10⁻⁵³` times half the length and the coefficients of the polynomial taken to `[-1, 1]`. -/
theorem printed_interval (n : ℕ) (h2 : 2 ≤ n) (h64 : n ≤ 64) (p : ℝ[X]) (hp : p.natDegree < 2 * n)
    (lo hi : ℝ) (q : ℝ[X]) (hq : q = p.comp (C ((lo + hi) / 2) + C ((hi - lo) / 2) * X)) :
    |∑ i ∈ range n, (gaussTab ℝ).wt n i * ((hi - lo) / 2) * p.eval (node (gaussTab ℝ) n lo hi i)
        - ∫ x in lo..hi, p.eval x|
      ≤ 1 / 10 ^ 53 * (|hi - lo| / 2) * ∑ k ∈ range (q.natDegree + 1), |q.coeff k| := by
  have hqd : q.natDegree < 2 * n := by
    rw [hq]
    refine lt_of_le_of_lt natDegree_comp_le (lt_of_le_of_lt ?_ hp)
    have : (C ((lo + hi) / 2) + C ((hi - lo) / 2) * X : ℝ[X]).natDegree ≤ 1 := by compute_degree
    calc p.natDegree * _ ≤ p.natDegree * 1 := Nat.mul_le_mul_left _ this
      _ = p.natDegree := mul_one _
  have he : ∀ x, p.eval ((lo + hi) / 2 + (hi - lo) / 2 * x) = q.eval x := by
    intro x; rw [hq]; simp
  have h1 : ∑ i ∈ range n, (gaussTab ℝ).wt n i * ((hi - lo) / 2) * p.eval (node (gaussTab ℝ) n lo hi i)
      = (hi - lo) / 2 * ∑ i ∈ range n, (gaussTab ℝ).wt n i * q.eval ((gaussTab ℝ).pt n i) := by
    rw [Finset.mul_sum]
    refine Finset.sum_congr rfl fun i _ => ?_
    rw [node, he]
    ring
  rw [h1, integral_affine]
  simp only [he]
  rw [rule_poly, integral_poly, ← mul_sub, ← Finset.sum_sub_distrib, abs_mul, abs_div]
  have h3 : |∑ k ∈ range (q.natDegree + 1), (q.coeff k *
        ∑ i ∈ range n, (gaussTab ℝ).wt n i * (gaussTab ℝ).pt n i ^ k
          - q.coeff k * ∫ x in (-1 : ℝ)..1, x ^ k)|
      ≤ 1 / 10 ^ 53 * ∑ k ∈ range (q.natDegree + 1), |q.coeff k| := by
    refine (Finset.abs_sum_le_sum_abs _ _).trans ?_
    rw [Finset.mul_sum]
    refine Finset.sum_le_sum fun k hk => ?_
    rw [Finset.mem_range] at hk
    rw [← mul_sub, abs_mul, integral_power, mul_comm (1 / 10 ^ 53 : ℝ)]
    exact mul_le_mul_of_nonneg_left (GaussCheck.moment n h2 h64 k (by omega)) (abs_nonneg _)
  calc _ ≤ |hi - lo| / |2| * (1 / 10 ^ 53 * ∑ k ∈ range (q.natDegree + 1), |q.coeff k|) :=
        mul_le_mul_of_nonneg_left h3 (by positivity)
    _ = _ := by rw [abs_two]; ring

/-! ## Rectangles -/

/-- The quadrature over a rectangle is the integral over it. -/
theorem gauss_integral {G : GaussTab ℝ} {nx ny d e : ℕ} (hx : Exact G nx d) (hy : Exact G ny e)
    {g : ℝ → ℝ → ℝ} (gx : ∀ y, IsPoly d fun x => g x y) (gy : ∀ x, IsPoly e fun y => g x y)
    (x1 x2 y1 y2 : ℝ) :
    gauss G nx ny x1 x2 y1 y2 (fun _ _ => g) = ∫ y in y1..y2, ∫ x in x1..x2, g x y := by
  have h1 : gauss G nx ny x1 x2 y1 y2 (fun _ _ => g)
      = ∑ p ∈ range nx, G.wt nx p * ((x2 - x1) / 2) * ∫ y in y1..y2, g (node G nx x1 x2 p) y := by
    unfold gauss
    refine Finset.sum_congr rfl fun p _ => ?_
    rw [← rule_interval hy (gy _), Finset.mul_sum]
    exact Finset.sum_congr rfl fun q _ => by ring
  rw [h1]
  simp only [← rule_interval hx (gx _), ← intervalIntegral.integral_const_mul]
  rw [intervalIntegral.integral_finsetSum fun p _ =>
    ((gy _).continuous.const_mul _).intervalIntegrable _ _]

/-- Splitting along `x`. -/
theorem gauss_split_x {G : GaussTab ℝ} {nx ny d : ℕ} (hx : Exact G nx d) {g : ℝ → ℝ → ℝ}
    (gx : ∀ y, IsPoly d fun x => g x y) (x1 x2 x3 y1 y2 : ℝ) :
    gauss G nx ny x1 x2 y1 y2 (fun _ _ => g) + gauss G nx ny x2 x3 y1 y2 (fun _ _ => g)
      = gauss G nx ny x1 x3 y1 y2 (fun _ _ => g) := by
  have h : ∀ lo hi, gauss G nx ny lo hi y1 y2 (fun _ _ => g)
      = ∑ q ∈ range ny, G.wt ny q * ((y2 - y1) / 2) * ∫ x in lo..hi, g x (node G ny y1 y2 q) := by
    intro lo hi
    unfold gauss
    rw [Finset.sum_comm]
    refine Finset.sum_congr rfl fun q _ => ?_
    rw [← rule_interval hx (gx _), Finset.mul_sum]
    exact Finset.sum_congr rfl fun p _ => by ring
  rw [h, h, h, ← Finset.sum_add_distrib]
  refine Finset.sum_congr rfl fun q _ => ?_
  rw [← mul_add, intervalIntegral.integral_add_adjacent_intervals
    ((gx _).continuous.intervalIntegrable _ _) ((gx _).continuous.intervalIntegrable _ _)]

/-- Splitting along `y`. -/
theorem gauss_split_y {G : GaussTab ℝ} {nx ny e : ℕ} (hy : Exact G ny e) {g : ℝ → ℝ → ℝ}
    (gy : ∀ x, IsPoly e fun y => g x y) (x1 x2 y1 y2 y3 : ℝ) :
    gauss G nx ny x1 x2 y1 y2 (fun _ _ => g) + gauss G nx ny x1 x2 y2 y3 (fun _ _ => g)
      = gauss G nx ny x1 x2 y1 y3 (fun _ _ => g) := by
  have h : ∀ lo hi, gauss G nx ny x1 x2 lo hi (fun _ _ => g)
      = ∑ p ∈ range nx, G.wt nx p * ((x2 - x1) / 2) * ∫ y in lo..hi, g (node G nx x1 x2 p) y := by
    intro lo hi
    unfold gauss
    refine Finset.sum_congr rfl fun p _ => ?_
    rw [← rule_interval hy (gy _), Finset.mul_sum]
    exact Finset.sum_congr rfl fun q _ => by ring
  rw [h, h, h, ← Finset.sum_add_distrib]
  refine Finset.sum_congr rfl fun p _ => ?_
  rw [← mul_add, intervalIntegral.integral_add_adjacent_intervals
    ((gy _).continuous.intervalIntegrable _ _) ((gy _).continuous.intervalIntegrable _ _)]

/-! ## Densities of panels with polynomial shape functions -/

/-- The first `m` shape functions and their derivatives are polynomials of degree at most `d`. -/
def ShapePoly (S : Shape ℝ) (m d : ℕ) : Prop := ∀ p i fl, i < m → IsPoly d fun x => S.D p i x fl

theorem disp_x {S : Shape ℝ} {P : Panel ℝ} {d : ℕ} (hS : ShapePoly S P.m d) (s0 : ℕ) (c : ℕ → ℝ)
    (α p q : ℕ) (η : ℝ) : IsPoly d fun x => disp S P s0 c α p q (2 / P.a * x - 1) η := by
  unfold disp
  refine IsPoly.smul _ (IsPoly.sum _ fun i hi => IsPoly.sum _ fun j _ => IsPoly.smul _ ?_)
  refine IsPoly.mul_const ?_ _
  have := (hS p i (P.xf α) (Finset.mem_range.1 hi)).affine (2 / P.a) (-1)
  simpa only [neg_add_eq_sub] using this

theorem disp_y {S : Shape ℝ} {P : Panel ℝ} {e : ℕ} (hS : ShapePoly S P.n e) (s0 : ℕ) (c : ℕ → ℝ)
    (α p q : ℕ) (ξ : ℝ) : IsPoly e fun y => disp S P s0 c α p q ξ (2 / P.b * y - 1) := by
  unfold disp
  refine IsPoly.smul _ (IsPoly.sum _ fun i _ => IsPoly.sum _ fun j hj => IsPoly.smul _ ?_)
  refine IsPoly.smul _ ?_
  have := (hS q j (P.yf α) (Finset.mem_range.1 hj)).affine (2 / P.b) (-1)
  simpa only [neg_add_eq_sub] using this

theorem lin_x {S : Shape ℝ} {P : Panel ℝ} {d : ℕ} (hS : ShapePoly S P.m d) (κ : ℝ) (s0 : ℕ)
    (c : ℕ → ℝ) (s : ℕ) (y : ℝ) : IsPoly d fun x => lin κ S P s0 c s x y := by
  have h := fun α p q => disp_x hS s0 c α p q (2 / P.b * y - 1)
  unfold lin
  split
  · exact h 0 1 0
  · exact (h 1 0 1).add ((h 2 0 0).smul κ)
  · exact (h 0 0 1).add (h 1 1 0)
  · exact (h 2 2 0).neg
  · exact (h 2 0 2).neg
  · exact (h 2 1 1).smul (-2)

theorem lin_y {S : Shape ℝ} {P : Panel ℝ} {e : ℕ} (hS : ShapePoly S P.n e) (κ : ℝ) (s0 : ℕ)
    (c : ℕ → ℝ) (s : ℕ) (x : ℝ) : IsPoly e fun y => lin κ S P s0 c s x y := by
  have h := fun α p q => disp_y hS s0 c α p q (2 / P.a * x - 1)
  unfold lin
  split
  · exact h 0 1 0
  · exact (h 1 0 1).add ((h 2 0 0).smul κ)
  · exact (h 0 0 1).add (h 1 1 0)
  · exact (h 2 2 0).neg
  · exact (h 2 0 2).neg
  · exact (h 2 1 1).smul (-2)

theorem dens_poly {d : ℕ} (N : ℕ) (F : ℕ → ℕ → ℝ) {e : ℝ → ℕ → ℝ}
    (h : ∀ s, IsPoly d fun x => e x s) : IsPoly (2 * d) fun x => Spec.dens N F (e x) := by
  unfold Spec.dens
  refine IsPoly.sum _ fun s _ => IsPoly.sum _ fun t _ => ?_
  simpa only [mul_assoc, two_mul] using ((h s).mul (h t)).smul (F s t)

/-- Strain energy density of the linear theory. -/
noncomputable def energyC (κ : ℝ) (S : Shape ℝ) (P : Panel ℝ) (F : ℕ → ℕ → ℝ) (s0 : ℕ) (c : ℕ → ℝ)
    (x y : ℝ)   : ℝ := Spec.dens 6 F fun s => lin κ S P s0 c s x y

/-- Kinetic energy density of a uniform panel. -/
noncomputable def energyM (S : Shape ℝ) (P : Panel ℝ) (offset h rho : ℝ) (s0 : ℕ) (c : ℕ → ℝ)
    (x y : ℝ) : ℝ :=
  let D := fun α i j => disp S P s0 c α i j (2 / P.a * x - 1) (2 / P.b * y - 1)
  rho * h * ((D 0 0 0 + offset * D 2 1 0) ^ 2 + (D 1 0 0 + offset * D 2 0 1) ^ 2 + D 2 0 0 ^ 2)
    + rho * h * (c12 * h ^ 2) * (D 2 1 0 ^ 2 + D 2 0 1 ^ 2)

theorem energyC_x {S : Shape ℝ} {P : Panel ℝ} {d : ℕ} (hS : ShapePoly S P.m d) (κ : ℝ)
    (F : ℕ → ℕ → ℝ) (s0 : ℕ) (c : ℕ → ℝ) (y : ℝ) :
    IsPoly (2 * d) fun x => energyC κ S P F s0 c x y :=
  dens_poly 6 F fun s => lin_x hS κ s0 c s y

theorem energyC_y {S : Shape ℝ} {P : Panel ℝ} {e : ℕ} (hS : ShapePoly S P.n e) (κ : ℝ)
    (F : ℕ → ℕ → ℝ) (s0 : ℕ) (c : ℕ → ℝ) (x : ℝ) :
    IsPoly (2 * e) fun y => energyC κ S P F s0 c x y :=
  dens_poly 6 F fun s => lin_y hS κ s0 c s x

theorem energyM_x {S : Shape ℝ} {P : Panel ℝ} {d : ℕ} (hS : ShapePoly S P.m d) (offset h rho : ℝ)
    (s0 : ℕ) (c : ℕ → ℝ) (y : ℝ) : IsPoly (2 * d) fun x => energyM S P offset h rho s0 c x y := by
  have D := fun α p q => disp_x hS s0 c α p q (2 / P.b * y - 1)
  unfold energyM
  exact ((((D 0 0 0).add ((D 2 1 0).smul offset)).sq.add
    (((D 1 0 0).add ((D 2 0 1).smul offset)).sq)).add (D 2 0 0).sq).smul _ |>.add
    (((D 2 1 0).sq.add (D 2 0 1).sq).smul _)

theorem energyM_y {S : Shape ℝ} {P : Panel ℝ} {e : ℕ} (hS : ShapePoly S P.n e) (offset h rho : ℝ)
    (s0 : ℕ) (c : ℕ → ℝ) (x : ℝ) : IsPoly (2 * e) fun y => energyM S P offset h rho s0 c x y := by
  have D := fun α p q => disp_y hS s0 c α p q (2 / P.a * x - 1)
  unfold energyM
  exact ((((D 0 0 0).add ((D 2 1 0).smul offset)).sq.add
    (((D 1 0 0).add ((D 2 0 1).smul offset)).sq)).add (D 2 0 0).sq).smul _ |>.add
    (((D 2 1 0).sq.add (D 2 0 1).sq).smul _)

/-! ## Matrices -/

/-- The panel with its sub-domain set. -/
def onPart (P : Panel ℝ) (x1 x2 y1 y2 : ℝ) : Panel ℝ := { P with x1 := x1, x2 := x2, y1 := y1, y2 := y2 }

/-- Quadratic form of the numerical linear stiffness matrix of a plate or a cylinder. -/
noncomputable def formC (cyl : Bool) (S : Shape ℝ) (G : GaussTab ℝ) (P : Panel ℝ) (F : ℕ → ℕ → ℝ)
    (s0 nx ny : ℕ) (c : ℕ → ℝ) : Except Err ℝ :=
  ((if cyl then cylFkCnum S G P (.one F) c s0 s0 nx ny 0
    else plateFkCnum S G P (.one F) c s0 s0 nx ny 0).map fun L => Coo.quad (Coo.finalizeSym L) c)

/-- Curvature of the two models. -/
noncomputable def curv (cyl : Bool) (P : Panel ℝ) : ℝ := if cyl then 1 / P.r else 0

theorem formC_gauss (cyl : Bool) (S : Shape ℝ) (G : GaussTab ℝ) (P : Panel ℝ) (ha : P.a ≠ 0)
    (hb : P.b ≠ 0) (hr : cyl = true → P.r ≠ 0) (F : ℕ → ℕ → ℝ) (hF : ABDSym F) (s0 nx ny : ℕ)
    (c : ℕ → ℝ) : formC cyl S G P F s0 nx ny c
      = .ok (gaussP G nx ny P fun _ _ => energyC (curv cyl P) S P F s0 c) := by
  cases cyl with
  | false =>
    have h := plateFkCnum_quad S G P ha hb (fun _ _ => F) (fun _ _ => hF) c c s0 nx ny 0
    simp only [zero_ne_one, if_false] at h
    unfold formC plateFkCnum
    simp only [Bool.false_eq_true, if_false, lamAt, Except.map, h]
    rfl
  | true =>
    have h := cylFkCnum_quad S G P ha hb (hr rfl) (fun _ _ => F) (fun _ _ => hF) c c s0 nx ny 0
    simp only [zero_ne_one, if_false] at h
    unfold formC cylFkCnum
    simp only [if_true, lamAt, Except.map, h]
    rfl

/-- The numerical stiffness matrix holds the strain energy of the sub-domain. -/
theorem kC_integral (cyl : Bool) {S : Shape ℝ} {G : GaussTab ℝ} {P : Panel ℝ} {nx ny d e : ℕ}
    (hx : Exact G nx (2 * d)) (hy : Exact G ny (2 * e)) (hm : ShapePoly S P.m d)
    (hn : ShapePoly S P.n e) (ha : P.a ≠ 0) (hb : P.b ≠ 0) (hr : cyl = true → P.r ≠ 0)
    (F : ℕ → ℕ → ℝ) (hF : ABDSym F) (s0 : ℕ) (c : ℕ → ℝ) (x1 x2 y1 y2 : ℝ) (h1 : x1 ≠ -1)
    (h2 : x2 ≠ -1) (h3 : y1 ≠ -1) (h4 : y2 ≠ -1) :
    formC cyl S G (onPart P x1 x2 y1 y2) F s0 nx ny c
      = .ok (∫ y in y1..y2, ∫ x in x1..x2, energyC (curv cyl P) S P F s0 c x y) := by
  rw [formC_gauss cyl S G (onPart P x1 x2 y1 y2) ha hb hr F hF, gaussP,
    show xdom (onPart P x1 x2 y1 y2) = (x1, x2) from if_pos ⟨h1, h2⟩,
    show ydom (onPart P x1 x2 y1 y2) = (y1, y2) from if_pos ⟨h3, h4⟩]
  exact congrArg _ (gauss_integral hx hy (fun y => energyC_x hm _ F s0 c y)
    (fun x => energyC_y hn _ F s0 c x) x1 x2 y1 y2)

/-- With one of `x1`, `x2` (and of `y1`, `y2`) left at `-1`, it holds the energy of the whole panel. -/
theorem kC_default (cyl : Bool) {S : Shape ℝ} {G : GaussTab ℝ} {P : Panel ℝ} {nx ny d e : ℕ}
    (hx : Exact G nx (2 * d)) (hy : Exact G ny (2 * e)) (hm : ShapePoly S P.m d)
    (hn : ShapePoly S P.n e) (ha : P.a ≠ 0) (hb : P.b ≠ 0) (hr : cyl = true → P.r ≠ 0)
    (F : ℕ → ℕ → ℝ) (hF : ABDSym F) (s0 : ℕ) (c : ℕ → ℝ) (h1 : P.x1 = -1 ∨ P.x2 = -1)
    (h2 : P.y1 = -1 ∨ P.y2 = -1) :
    formC cyl S G P F s0 nx ny c
      = .ok (∫ y in (0 : ℝ)..P.b, ∫ x in (0 : ℝ)..P.a, energyC (curv cyl P) S P F s0 c x y) := by
  rw [formC_gauss cyl S G P ha hb hr F hF, gaussP,
    show xdom P = (0, P.a) from if_neg (by tauto), show ydom P = (0, P.b) from if_neg (by tauto)]
  exact congrArg _ (gauss_integral hx hy (fun y => energyC_x hm _ F s0 c y)
    (fun x => energyC_y hn _ F s0 c x) 0 P.a 0 P.b)

/-- Split at `x = t`: the two matrices add up to that of the whole panel. -/
theorem kC_split_x (cyl : Bool) {S : Shape ℝ} {G : GaussTab ℝ} {P : Panel ℝ} {nx d : ℕ} (ny : ℕ)
    (hx : Exact G nx (2 * d)) (hm : ShapePoly S P.m d) (ha : P.a ≠ 0) (ha' : P.a ≠ -1) (hb : P.b ≠ 0)
    (hr : cyl = true → P.r ≠ 0) (F : ℕ → ℕ → ℝ) (hF : ABDSym F) (s0 : ℕ) (c : ℕ → ℝ)
    (h1 : P.x1 = -1 ∨ P.x2 = -1) (t : ℝ) (ht : t ≠ -1) :
    ∃ A B, formC cyl S G (onPart P 0 t P.y1 P.y2) F s0 nx ny c = .ok A ∧
      formC cyl S G (onPart P t P.a P.y1 P.y2) F s0 nx ny c = .ok B ∧
      formC cyl S G P F s0 nx ny c = .ok (A + B) := by
  refine ⟨_, _, formC_gauss cyl S G (onPart P 0 t P.y1 P.y2) ha hb hr F hF s0 nx ny c,
    formC_gauss cyl S G (onPart P t P.a P.y1 P.y2) ha hb hr F hF s0 nx ny c, ?_⟩
  rw [formC_gauss cyl S G P ha hb hr F hF]
  simp only [gaussP]
  rw [show xdom P = (0, P.a) from if_neg (by tauto),
    show xdom (onPart P 0 t P.y1 P.y2) = (0, t) from if_pos ⟨by simp [onPart], ht⟩,
    show xdom (onPart P t P.a P.y1 P.y2) = (t, P.a) from if_pos ⟨ht, ha'⟩]
  exact congrArg _ (gauss_split_x hx (fun y => energyC_x hm _ F s0 c y) 0 t P.a _ _).symm

/-- Split at `y = t`. -/
theorem kC_split_y (cyl : Bool) {S : Shape ℝ} {G : GaussTab ℝ} {P : Panel ℝ} {ny e : ℕ} (nx : ℕ)
    (hy : Exact G ny (2 * e)) (hn : ShapePoly S P.n e) (ha : P.a ≠ 0) (hb : P.b ≠ 0) (hb' : P.b ≠ -1)
    (hr : cyl = true → P.r ≠ 0) (F : ℕ → ℕ → ℝ) (hF : ABDSym F) (s0 : ℕ) (c : ℕ → ℝ)
    (h1 : P.y1 = -1 ∨ P.y2 = -1) (t : ℝ) (ht : t ≠ -1) :
    ∃ A B, formC cyl S G (onPart P P.x1 P.x2 0 t) F s0 nx ny c = .ok A ∧
      formC cyl S G (onPart P P.x1 P.x2 t P.b) F s0 nx ny c = .ok B ∧
      formC cyl S G P F s0 nx ny c = .ok (A + B) := by
  refine ⟨_, _, formC_gauss cyl S G (onPart P P.x1 P.x2 0 t) ha hb hr F hF s0 nx ny c,
    formC_gauss cyl S G (onPart P P.x1 P.x2 t P.b) ha hb hr F hF s0 nx ny c, ?_⟩
  rw [formC_gauss cyl S G P ha hb hr F hF]
  simp only [gaussP]
  rw [show ydom P = (0, P.b) from if_neg (by tauto),
    show ydom (onPart P P.x1 P.x2 0 t) = (0, t) from if_pos ⟨by simp [onPart], ht⟩,
    show ydom (onPart P P.x1 P.x2 t P.b) = (t, P.b) from if_pos ⟨ht, hb'⟩]
  exact congrArg _ (gauss_split_y hy (fun x => energyC_y hn _ F s0 c x) _ _ 0 t P.b).symm

/-- Quadratic form of the numerical mass matrix of a uniform panel. -/
noncomputable def formM (S : Shape ℝ) (G : GaussTab ℝ) (P : Panel ℝ) (offset h rho : ℝ)
    (s0 nx ny : ℕ) (c : ℕ → ℝ) : ℝ :=
  Coo.quad (Coo.finalizeSym (fkMnumF S G P offset (fun _ _ => h) (fun _ _ => rho) s0 s0 nx ny)) c

theorem formM_gauss (S : Shape ℝ) (G : GaussTab ℝ) (P : Panel ℝ) (ha : P.a ≠ 0) (hb : P.b ≠ 0)
    (offset h rho : ℝ) (s0 nx ny : ℕ) (c : ℕ → ℝ) : formM S G P offset h rho s0 nx ny c
      = gaussP G nx ny P fun _ _ => energyM S P offset h rho s0 c :=
  fkMnum_quad S G P ha hb offset _ _ c s0 nx ny

/-- The numerical mass matrix holds the kinetic energy of the sub-domain. -/
theorem kM_integral {S : Shape ℝ} {G : GaussTab ℝ} {P : Panel ℝ} {nx ny d e : ℕ}
    (hx : Exact G nx (2 * d)) (hy : Exact G ny (2 * e)) (hm : ShapePoly S P.m d)
    (hn : ShapePoly S P.n e) (ha : P.a ≠ 0) (hb : P.b ≠ 0) (offset h rho : ℝ) (s0 : ℕ) (c : ℕ → ℝ)
    (x1 x2 y1 y2 : ℝ) (h1 : x1 ≠ -1) (h2 : x2 ≠ -1) (h3 : y1 ≠ -1) (h4 : y2 ≠ -1) :
    formM S G (onPart P x1 x2 y1 y2) offset h rho s0 nx ny c
      = ∫ y in y1..y2, ∫ x in x1..x2, energyM S P offset h rho s0 c x y := by
  rw [formM_gauss S G (onPart P x1 x2 y1 y2) ha hb, gaussP,
    show xdom (onPart P x1 x2 y1 y2) = (x1, x2) from if_pos ⟨h1, h2⟩,
    show ydom (onPart P x1 x2 y1 y2) = (y1, y2) from if_pos ⟨h3, h4⟩]
  exact gauss_integral hx hy (fun y => energyM_x hm offset h rho s0 c y)
    (fun x => energyM_y hn offset h rho s0 c x) x1 x2 y1 y2

theorem kM_split_x {S : Shape ℝ} {G : GaussTab ℝ} {P : Panel ℝ} {nx d : ℕ} (ny : ℕ)
    (hx : Exact G nx (2 * d)) (hm : ShapePoly S P.m d) (ha : P.a ≠ 0) (ha' : P.a ≠ -1) (hb : P.b ≠ 0)
    (offset h rho : ℝ) (s0 : ℕ) (c : ℕ → ℝ) (h1 : P.x1 = -1 ∨ P.x2 = -1) (t : ℝ) (ht : t ≠ -1) :
    formM S G P offset h rho s0 nx ny c = formM S G (onPart P 0 t P.y1 P.y2) offset h rho s0 nx ny c
      + formM S G (onPart P t P.a P.y1 P.y2) offset h rho s0 nx ny c := by
  rw [formM_gauss S G P ha hb, formM_gauss S G (onPart P 0 t P.y1 P.y2) ha hb,
    formM_gauss S G (onPart P t P.a P.y1 P.y2) ha hb, gaussP, gaussP, gaussP,
    show xdom P = (0, P.a) from if_neg (by tauto),
    show xdom (onPart P 0 t P.y1 P.y2) = (0, t) from if_pos ⟨by simp [onPart], ht⟩,
    show xdom (onPart P t P.a P.y1 P.y2) = (t, P.a) from if_pos ⟨ht, ha'⟩]
  exact (gauss_split_x hx (fun y => energyM_x hm offset h rho s0 c y) 0 t P.a _ _).symm

theorem kM_split_y {S : Shape ℝ} {G : GaussTab ℝ} {P : Panel ℝ} {ny e : ℕ} (nx : ℕ)
    (hy : Exact G ny (2 * e)) (hn : ShapePoly S P.n e) (ha : P.a ≠ 0) (hb : P.b ≠ 0) (hb' : P.b ≠ -1)
    (offset h rho : ℝ) (s0 : ℕ) (c : ℕ → ℝ) (h1 : P.y1 = -1 ∨ P.y2 = -1) (t : ℝ) (ht : t ≠ -1) :
    formM S G P offset h rho s0 nx ny c = formM S G (onPart P P.x1 P.x2 0 t) offset h rho s0 nx ny c
      + formM S G (onPart P P.x1 P.x2 t P.b) offset h rho s0 nx ny c := by
  rw [formM_gauss S G P ha hb, formM_gauss S G (onPart P P.x1 P.x2 0 t) ha hb,
    formM_gauss S G (onPart P P.x1 P.x2 t P.b) ha hb, gaussP, gaussP, gaussP,
    show ydom P = (0, P.b) from if_neg (by tauto),
    show ydom (onPart P P.x1 P.x2 0 t) = (0, t) from if_pos ⟨by simp [onPart], ht⟩,
    show ydom (onPart P P.x1 P.x2 t P.b) = (t, P.b) from if_pos ⟨ht, hb'⟩]
  exact (gauss_split_y hy (fun x => energyM_y hn offset h rho s0 c x) _ _ 0 t P.b).symm

/-- A shell made without sub-domain has `x1 = -1`, `x2 = 1`: giving only `x1` integrates over
`[x1, 1]` whatever the length. -/
theorem only_x1 (P : Panel ℝ) (x1 : ℝ) (h : x1 ≠ -1) :
    xdom { P with x1 := x1, x2 := 1 } = (x1, 1) := if_pos ⟨h, by norm_num⟩

/-! ## A rule and shape functions meeting the hypotheses -/

/-- Simpson's rule, for every number of points. -/
noncomputable def simpson : GaussTab ℝ where
  pt := fun _ i => if i = 0 then -1 else if i = 1 then 0 else if i = 2 then 1 else 0
  wt := fun _ i => if i = 0 then 1 / 3 else if i = 1 then 4 / 3 else if i = 2 then 1 / 3 else 0

theorem simpson_exact : Exact simpson 3 2 := by
  intro k hk
  rw [integral_power]
  interval_cases k <;> norm_num [simpson, Finset.sum_range_succ]

/-- `1` and `x`. -/
noncomputable def linear : Shape ℝ where
  f := fun i x _ => if i = 0 then 1 else x
  fp := fun i _ _ => if i = 0 then 0 else 1
  fpp := fun _ _ _ => 0

theorem linear_poly (m : ℕ) : ShapePoly linear m 1 := by
  intro p i fl _
  match p with
  | 0 =>
    by_cases h : i = 0
    · simpa [Shape.D, linear, h] using IsPoly.const 1 1
    · refine ⟨X, by simp, fun x => by simp [Shape.D, linear, h]⟩
  | 1 => exact IsPoly.const 1 _
  | _ + 2 => exact IsPoly.const 1 _

theorem pev_poly (l : List ℚ) : IsPoly (l.length - 1) fun x : ℝ => pev l x := by
  induction l with
  | nil => exact IsPoly.const _ 0
  | cons c cs ih =>
    rcases cs with _ | ⟨b, bs⟩
    · obtain ⟨p, hp, h⟩ := IsPoly.const 0 (c : ℝ)
      exact ⟨p, hp, fun x => by simp [pev, ← h]⟩
    · obtain ⟨p, hp, h⟩ := ih
      refine ⟨C (c : ℝ) + X * p, ?_, fun x => by
        rw [eval_add, eval_mul, eval_X, eval_C, ← h]; rfl⟩
      refine (natDegree_add_le _ _).trans (max_le (by simp) ?_)
      refine natDegree_mul_le.trans ?_
      simp only [natDegree_X, List.length_cons] at hp ⊢
      omega

theorem pderFrom_length (k : ℕ) (l : List ℚ) : (pderFrom k l).length = l.length := by
  induction l generalizing k with
  | nil => rfl
  | cons c cs ih => simp [pderFrom, ih]

theorem pder_length (l : List ℚ) : (pder l).length ≤ l.length := by
  cases l with
  | nil => exact le_rfl
  | cons c cs => simp [pder, pderFrom_length]

theorem bardell_length (i : ℕ) : (bardell i).length ≤ max 4 (i + 1) := by
  match i with
  | 0 | 1 | 2 | 3 => simp [bardell]
  | i + 4 => simp [bardell]

/-- The exact Bardell functions: with `m` terms the integrands have degree at most
`2 max(3, m - 1)`. -/
theorem bardell_poly (m : ℕ) : ShapePoly (bardellShape ℝ) m (max 3 (m - 1)) := by
  intro p i fl hi
  have h0 := bardell_length i
  have h1 := pder_length (bardell i)
  have h2 := pder_length (pder (bardell i))
  have key : ∀ l : List ℚ, l.length ≤ (bardell i).length →
      IsPoly (max 3 (m - 1)) fun x : ℝ => flag fl i * pev l x := fun l hl =>
    ((pev_poly l).mono (by omega)).smul _
  match p with
  | 0 => exact key _ le_rfl
  | 1 => exact key _ h1
  | _ + 2 => exact key _ (h2.trans h1)

example : Exact simpson 3 (2 * 1) ∧ ShapePoly linear (Witness.panel : Panel ℝ).m 1 ∧
    (Witness.panel : Panel ℝ).a ≠ -1 ∧ (Witness.panel : Panel ℝ).x1 = -1 :=
  ⟨simpson_exact, linear_poly _, by norm_num [Witness.panel], rfl⟩

example (c : ℕ → ℝ) : ∃ A B,
    formC false linear simpson (onPart Witness.panel 0 (1 / 3) (-1) (-1)) Witness.abd 0 3 3 c = .ok A ∧
    formC false linear simpson (onPart Witness.panel (1 / 3) Witness.panel.a (-1) (-1)) Witness.abd 0 3 3 c
      = .ok B ∧
    formC false linear simpson Witness.panel Witness.abd 0 3 3 c = .ok (A + B) :=
  kC_split_x false 3 simpson_exact (linear_poly _) (by norm_num [Witness.panel])
    (by norm_num [Witness.panel]) (by norm_num [Witness.panel]) (fun h => by cases h) _
    Witness.abd_sym 0 c (Or.inl rfl) (1 / 3) (by norm_num)

end Verif.C27
