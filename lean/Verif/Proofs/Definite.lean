import Verif.Proofs.IndepTab
import Verif.Proofs.NumStiff
import Verif.Proofs.GaussTab
import Verif.Proofs.Joint
import Mathlib.MeasureTheory.Integral.DominatedConvergence
import Mathlib.LinearAlgebra.FiniteDimensional.Lemmas

/-!
# Fields without strain on a grid have no amplitudes

The matrices are quadratic forms of strains at the points of a grid (quadrature) or on a rectangle
(closed form). The strains of a supported panel determine the amplitudes that are switched on.
-/

namespace Verif.Indep

open Finset Spec Model

/-- The amplitudes of component `α` that are switched on by the edge flags vanish. -/
def Rest (P : Panel ℝ) (s0 : ℕ) (d : ℕ → ℝ) (α : ℕ) : Prop :=
  ∀ i < P.m, ∀ j < P.n, flag (P.xf α) i ≠ 0 → flag (P.yf α) j ≠ 0 →
    d (s0 + 3 * (j * P.m + i) + α) = 0

/-- Enough points in each direction. -/
def Dense (m : ℕ) (A : Set ℝ) : Prop := ∃ s : Finset ℝ, (∀ x ∈ s, x ∈ A) ∧ max 3 (m - 1) < s.card

theorem disp_sep {S : Shape ℝ} {N : ℕ} (hS : Hier S N) {P : Panel ℝ} (hm : P.m ≤ N) (hn : P.n ≤ N)
    (ha : P.a ≠ 0) (hb : P.b ≠ 0) {A B : Set ℝ} (hA : Dense P.m A) (hB : Dense P.n B) (s0 : ℕ)
    (d : ℕ → ℝ) {α p q : ℕ} (hp : p ≤ 2) (hq : q ≤ 2) (fx : Fixed p (P.xf α))
    (fy : Fixed q (P.yf α)) (h : ∀ ξ ∈ A, ∀ η ∈ B, disp S P s0 d α p q ξ η = 0) :
    Rest P s0 d α := by
  obtain ⟨s, hs, hs'⟩ := hA
  obtain ⟨t, ht, ht'⟩ := hB
  intro i hi j hj hfi hfj
  refine Sep.prod (hS.sep hp hm hs hs' _ fx) (hS.sep hq hn ht ht' _ fy)
    (fun i j => d (s0 + 3 * (j * P.m + i) + α)) (fun ξ hξ η hη => ?_) hi hj hfi hfj
  have := h ξ hξ η hη
  rw [disp] at this
  exact (mul_eq_zero.1 this).resolve_left (by positivity)

theorem disp_rest {S : Shape ℝ} {N : ℕ} (hS : Hier S N) {P : Panel ℝ} (hm : P.m ≤ N) (hn : P.n ≤ N)
    {s0 : ℕ} {d : ℕ → ℝ} {α : ℕ} (h : Rest P s0 d α) {p q : ℕ} (hp : p ≤ 2) (hq : q ≤ 2)
    (ξ η : ℝ) : disp S P s0 d α p q ξ η = 0 := by
  rw [disp, sum_eq_zero, mul_zero]
  intro i hi
  refine sum_eq_zero fun j hj => ?_
  have hi' := mem_range.1 hi
  have hj' := mem_range.1 hj
  by_cases h1 : flag (P.xf α) i = 0
  · rw [hS.off hp (by omega) ξ h1, zero_mul, mul_zero]
  · by_cases h2 : flag (P.yf α) j = 0
    · rw [hS.off hq (by omega) η h2, mul_zero, mul_zero]
    · rw [h i hi' j hj' h1 h2, zero_mul]

/-- No strain on a dense grid, no amplitudes; `NL` as in the tangent stiffness. -/
theorem rest_of_strain {S : Shape ℝ} {N : ℕ} (hS : Hier S N) {P : Panel ℝ} (hm : P.m ≤ N)
    (hn : P.n ≤ N) (ha : P.a ≠ 0) (hb : P.b ≠ 0) (hP : Supported P) (κ : ℝ) {A B : Set ℝ}
    (hA : Dense P.m ((fun x => 2 / P.a * x - 1) '' A))
    (hB : Dense P.n ((fun y => 2 / P.b * y - 1) '' B)) (s0 : ℕ) (c d : ℕ → ℝ)
    (h : ∀ x ∈ A, ∀ y ∈ B, ∀ s < 6, vkVar κ S P s0 c d s x y = 0) :
    ∀ α < 3, Rest P s0 d α := by
  obtain ⟨hw, huv⟩ := hP
  have sep : ∀ {α p q : ℕ}, p ≤ 2 → q ≤ 2 → Fixed p (P.xf α) → Fixed q (P.yf α) →
      (∀ x ∈ A, ∀ y ∈ B, disp S P s0 d α p q (2 / P.a * x - 1) (2 / P.b * y - 1) = 0) →
      Rest P s0 d α := by
    intro α p q hp hq fx fy h
    refine disp_sep hS hm hn ha hb hA hB s0 d hp hq fx fy ?_
    rintro _ ⟨x, hx, rfl⟩ _ ⟨y, hy, rfl⟩
    exact h x hx y hy
  have r2 : Rest P s0 d 2 := by
    rcases hw with hw | hw
    · refine sep (p := 2) (q := 0) le_rfl (by norm_num) hw trivial fun x hx y hy => ?_
      have := h x hx y hy 3 (by norm_num)
      simp only [vkVar, lin, add_zero, neg_eq_zero] at this
      exact this
    · refine sep (p := 0) (q := 2) (by norm_num) le_rfl trivial hw fun x hx y hy => ?_
      have := h x hx y hy 4 (by norm_num)
      simp only [vkVar, lin, add_zero, neg_eq_zero] at this
      exact this
  have z2 : ∀ {p q : ℕ}, p ≤ 2 → q ≤ 2 → ∀ ξ η, disp S P s0 d 2 p q ξ η = 0 :=
    fun hp hq => disp_rest hS hm hn r2 hp hq
  have e0 : ∀ x ∈ A, ∀ y ∈ B, disp S P s0 d 0 1 0 (2 / P.a * x - 1) (2 / P.b * y - 1) = 0 := by
    intro x hx y hy
    have := h x hx y hy 0 (by norm_num)
    simp only [vkVar, lin, z2 (p := 1) (q := 0) (by norm_num) (by norm_num), mul_zero,
      add_zero] at this
    exact this
  have e1 : ∀ x ∈ A, ∀ y ∈ B, disp S P s0 d 1 0 1 (2 / P.a * x - 1) (2 / P.b * y - 1) = 0 := by
    intro x hx y hy
    have := h x hx y hy 1 (by norm_num)
    simp only [vkVar, lin, z2 (p := 0) (q := 0) (by norm_num) (by norm_num),
      z2 (p := 0) (q := 1) (by norm_num) (by norm_num), mul_zero, add_zero] at this
    exact this
  have e2 : ∀ x ∈ A, ∀ y ∈ B, disp S P s0 d 0 0 1 (2 / P.a * x - 1) (2 / P.b * y - 1)
      + disp S P s0 d 1 1 0 (2 / P.a * x - 1) (2 / P.b * y - 1) = 0 := by
    intro x hx y hy
    have := h x hx y hy 2 (by norm_num)
    simp only [vkVar, lin, z2 (p := 1) (q := 0) (by norm_num) (by norm_num),
      z2 (p := 0) (q := 1) (by norm_num) (by norm_num), mul_zero, add_zero] at this
    exact this
  have r01 : Rest P s0 d 0 ∧ Rest P s0 d 1 := by
    rcases huv with ⟨hu, hv⟩ | ⟨hv, hu⟩
    · have r0 : Rest P s0 d 0 := sep (p := 1) (q := 0) (by norm_num) (by norm_num) hu trivial e0
      refine ⟨r0, ?_⟩
      rcases hv with hv | hv
      · refine sep (p := 1) (q := 0) (by norm_num) (by norm_num) hv trivial fun x hx y hy => ?_
        have := e2 x hx y hy
        rwa [disp_rest hS hm hn r0 (by norm_num) (by norm_num), zero_add] at this
      · exact sep (p := 0) (q := 1) (by norm_num) (by norm_num) trivial hv e1
    · have r1 : Rest P s0 d 1 := sep (p := 0) (q := 1) (by norm_num) (by norm_num) trivial hv e1
      refine ⟨?_, r1⟩
      refine sep (p := 0) (q := 1) (by norm_num) (by norm_num) trivial hu fun x hx y hy => ?_
      have := e2 x hx y hy
      rwa [disp_rest hS hm hn r1 (by norm_num) (by norm_num), add_zero] at this
  intro α hα
  match α, hα with
  | 0, _ => exact r01.1
  | 1, _ => exact r01.2
  | 2, _ => exact r2

/-- Amplitudes that are switched off give no strain. -/
theorem strain_of_rest {S : Shape ℝ} {N : ℕ} (hS : Hier S N) {P : Panel ℝ} (hm : P.m ≤ N)
    (hn : P.n ≤ N) (κ : ℝ) {s0 : ℕ} (c : ℕ → ℝ) {d : ℕ → ℝ} (h : ∀ α < 3, Rest P s0 d α) (s : ℕ)
    (x y : ℝ) : vkVar κ S P s0 c d s x y = 0 ∧ lin κ S P s0 d s x y = 0 := by
  have z : ∀ {α p q : ℕ}, α < 3 → p ≤ 2 → q ≤ 2 → ∀ ξ η, disp S P s0 d α p q ξ η = 0 :=
    fun ha hp hq => disp_rest hS hm hn (h _ ha) hp hq
  constructor <;>
  · try unfold vkVar
    unfold lin
    rcases s with _ | _ | _ | _ | _ | s <;> simp [z]

theorem vkVar_zero (κ : ℝ) (S : Shape ℝ) (P : Panel ℝ) (s0 : ℕ) (d : ℕ → ℝ) (s : ℕ) (x y : ℝ) :
    vkVar κ S P s0 (fun _ => 0) d s x y = lin κ S P s0 d s x y := by
  unfold vkVar
  rcases s with _ | _ | _ | s <;> simp [disp]

/-! ## Quadrature -/

/-- The images of the points of a rule are dense. -/
theorem dense_nodes {n m : ℕ} (h2 : 2 ≤ n) (h64 : n ≤ 64) (h4 : 4 ≤ n) (hmn : m ≤ n) {a x1 x2 : ℝ}
    (ha : a ≠ 0) (hx : x1 < x2) : Dense m ((fun x => 2 / a * x - 1) ''
      {x | ∃ p < n, x = node (gaussTab ℝ) n x1 x2 p}) := by
  classical
  let g : ℕ → ℝ := fun p => 2 / a * node (gaussTab ℝ) n x1 x2 p - 1
  have hinj : Set.InjOn g (range n : Set ℕ) := by
    intro p hp q hq h
    have hp' : p < n := by simpa using hp
    have hq' : q < n := by simpa using hq
    have h2a : (2 : ℝ) / a ≠ 0 := by positivity
    have h1 : node (gaussTab ℝ) n x1 x2 p = node (gaussTab ℝ) n x1 x2 q :=
      mul_left_cancel₀ h2a (sub_left_inj.1 h)
    have h2' : (gaussTab ℝ).pt n p = (gaussTab ℝ).pt n q := by
      simp only [node] at h1
      have : (x2 - x1) ≠ 0 := (sub_pos.2 hx).ne'
      have h3 : (x2 - x1) * ((gaussTab ℝ).pt n p - (gaussTab ℝ).pt n q) = 0 := by linarith
      exact sub_eq_zero.1 ((mul_eq_zero.1 h3).resolve_left this)
    rcases lt_trichotomy p q with hlt | he | hlt
    · exact absurd h2' (GaussCheck.pt_strictMono n h2 h64 p q hlt hq').ne
    · exact he
    · exact absurd h2' (GaussCheck.pt_strictMono n h2 h64 q p hlt hp').ne'
  refine ⟨(range n).image g, fun x hx => ?_, ?_⟩
  · obtain ⟨p, hp, rfl⟩ := mem_image.1 hx
    exact ⟨_, ⟨p, mem_range.1 hp, rfl⟩, rfl⟩
  · rw [card_image_of_injOn hinj, card_range]
    omega

/-- A quadrature of a non-negative integrand is zero exactly when the integrand is zero at all
points. -/
theorem gaussP_eq_zero {nx ny : ℕ} (hx : 2 ≤ nx ∧ nx ≤ 64) (hy : 2 ≤ ny ∧ ny ≤ 64) (P : Panel ℝ)
    (dx : (xdom P).1 < (xdom P).2) (dy : (ydom P).1 < (ydom P).2) {g : ℕ → ℕ → ℝ → ℝ → ℝ}
    (hg : ∀ p q x y, 0 ≤ g p q x y) : gaussP (gaussTab ℝ) nx ny P g = 0 ↔
      ∀ p < nx, ∀ q < ny, g p q (node (gaussTab ℝ) nx (xdom P).1 (xdom P).2 p)
        (node (gaussTab ℝ) ny (ydom P).1 (ydom P).2 q) = 0 := by
  have w : ∀ p < nx, ∀ q < ny, 0 < (gaussTab ℝ).wt nx p * (((xdom P).2 - (xdom P).1) / 2) *
      ((gaussTab ℝ).wt ny q * (((ydom P).2 - (ydom P).1) / 2)) := by
    intro p hp q hq
    have h1 := GaussCheck.wt_pos (K := ℝ) nx hx.1 hx.2 p hp
    have h2 := GaussCheck.wt_pos (K := ℝ) ny hy.1 hy.2 q hq
    have h3 := sub_pos.2 dx
    have h4 := sub_pos.2 dy
    positivity
  have nn : ∀ p ∈ range nx, ∀ q ∈ range ny, 0 ≤ (gaussTab ℝ).wt nx p *
      (((xdom P).2 - (xdom P).1) / 2) * ((gaussTab ℝ).wt ny q * (((ydom P).2 - (ydom P).1) / 2)) *
      g p q (node (gaussTab ℝ) nx (xdom P).1 (xdom P).2 p)
        (node (gaussTab ℝ) ny (ydom P).1 (ydom P).2 q) := fun p hp q hq =>
    mul_nonneg (w p (mem_range.1 hp) q (mem_range.1 hq)).le (hg _ _ _ _)
  rw [gaussP, gauss, sum_eq_zero_iff_of_nonneg fun p hp => sum_nonneg (nn p hp)]
  constructor
  · intro h p hp q hq
    have h1 := (sum_eq_zero_iff_of_nonneg (nn p (mem_range.2 hp))).1 (h p (mem_range.2 hp)) q
      (mem_range.2 hq)
    exact (mul_eq_zero.1 h1).resolve_left (w p hp q hq).ne'
  · intro h p hp
    refine sum_eq_zero fun q hq => ?_
    rw [h p (mem_range.1 hp) q (mem_range.1 hq), mul_zero]

/-! ## Integrals -/

theorem integral_zero {a : ℝ} (ha : 0 < a) {f : ℝ → ℝ} (hf : Continuous f) (h0 : ∀ x, 0 ≤ f x)
    (h : ∫ x in (0 : ℝ)..a, f x = 0) (x : ℝ) (hx : x ∈ Set.Icc 0 a) : f x = 0 := by
  by_contra hne
  exact (intervalIntegral.integral_pos ha hf.continuousOn (fun x _ => h0 x)
    ⟨x, hx, lt_of_le_of_ne (h0 x) (Ne.symm hne)⟩).ne' h

/-- A continuous non-negative density without integral is zero. -/
theorem integral2_zero {a b : ℝ} (ha : 0 < a) (hb : 0 < b) {g : ℝ → ℝ → ℝ}
    (hg : Continuous fun p : ℝ × ℝ => g p.1 p.2) (h0 : ∀ x y, 0 ≤ g x y)
    (h : ∫ x in (0 : ℝ)..a, ∫ y in (0 : ℝ)..b, g x y = 0) (x y : ℝ) (hx : x ∈ Set.Icc 0 a)
    (hy : y ∈ Set.Icc 0 b) : g x y = 0 := by
  have hc : Continuous fun x => ∫ y in (0 : ℝ)..b, g x y :=
    intervalIntegral.continuous_parametric_intervalIntegral_of_continuous' hg 0 b
  have h1 := integral_zero ha hc (fun x => intervalIntegral.integral_nonneg hb.le fun y _ => h0 x y)
    h x hx
  exact integral_zero hb (hg.comp (Continuous.prodMk continuous_const continuous_id)) (h0 x) h1 y hy

/-- An interval is dense. -/
theorem dense_Icc (m : ℕ) {a : ℝ} (ha : 0 < a) :
    Dense m ((fun x => 2 / a * x - 1) '' Set.Icc 0 a) := by
  classical
  refine ⟨(range (m + 5)).image fun k : ℕ => 2 / a * (a / (k + 1)) - 1, fun x hx => ?_, ?_⟩
  · obtain ⟨k, -, rfl⟩ := mem_image.1 hx
    refine ⟨a / (k + 1), ⟨by positivity, ?_⟩, rfl⟩
    rw [div_le_iff₀ (by positivity)]
    nlinarith [Nat.cast_nonneg (α := ℝ) k]
  · rw [card_image_of_injective, card_range]
    · omega
    · intro k l h
      simp only [sub_left_inj] at h
      have h2 : (2 : ℝ) / a ≠ 0 := by positivity
      have h3 := mul_left_cancel₀ h2 h
      rw [div_eq_div_iff (by positivity) (by positivity)] at h3
      have h4 := mul_left_cancel₀ ha.ne' h3
      exact_mod_cast (add_right_cancel h4).symm

/-! ## Systems of equations -/

theorem bilin_act (L : Coo ℝ) (s : Finset ℕ) {d : ℕ → ℝ} (hd : ∀ k, k ∉ s → d k = 0) :
    Coo.quad L d = ∑ k ∈ s, d k * ∑ l ∈ s, Coo.entry L k l * d l := by
  induction L with
  | nil => simp [Coo.quad]
  | cons t L ih =>
    have e : ∑ k ∈ s, d k * ∑ l ∈ s, (if t.row = k ∧ t.col = l then t.val else 0) * d l
        = t.val * d t.row * d t.col := by
      have h1 : ∀ k, ∑ l ∈ s, (if t.row = k ∧ t.col = l then t.val else 0) * d l
          = if t.row = k then t.val * d t.col else 0 := by
        intro k
        by_cases hk : t.row = k
        · simp only [hk, true_and, if_true, ite_mul, zero_mul, sum_ite_eq]
          split
          · rfl
          · rename_i h; rw [hd _ h, mul_zero]
        · simp [hk]
      simp only [h1, mul_ite, mul_zero, sum_ite_eq]
      split
      · ring
      · rename_i h; rw [hd _ h]; ring
    rw [Coo.quad, Coo.bilin_cons, ← e]
    simp only [Coo.entry_cons, add_mul, sum_add_distrib, mul_add]
    rw [← ih, Coo.quad]

/-- A matrix that is definite on a set of amplitudes has exactly one solution there for every right
hand side. -/
theorem solve_unique (L : Coo ℝ) (s : Finset ℕ)
    (h : ∀ d : ℕ → ℝ, (∀ k, k ∉ s → d k = 0) → Coo.quad L d = 0 → ∀ k ∈ s, d k = 0) (f : ℕ → ℝ) :
    ∃! d : ℕ → ℝ, (∀ k, k ∉ s → d k = 0) ∧ ∀ k ∈ s, ∑ l ∈ s, Coo.entry L k l * d l = f k := by
  classical
  let ext : (s → ℝ) → ℕ → ℝ := fun g k => if hk : k ∈ s then g ⟨k, hk⟩ else 0
  have hext : ∀ g k, k ∉ s → ext g k = 0 := fun g k hk => by simp [ext, hk]
  have hval : ∀ g (k : s), ext g k = g k := fun g k => by simp [ext, k.2]
  let T : (s → ℝ) →ₗ[ℝ] (s → ℝ) :=
    { toFun := fun g k => ∑ l : s, Coo.entry L k l * g l
      map_add' := fun g g' => by
        funext k; simp only [Pi.add_apply, mul_add, sum_add_distrib]
      map_smul' := fun r g => by
        funext k
        simp only [Pi.smul_apply, smul_eq_mul, mul_sum, RingHom.id_apply]
        exact sum_congr rfl fun l _ => by ring }
  have hT : ∀ g (k : s), T g k = ∑ l ∈ s, Coo.entry L k l * ext g l := by
    intro g k
    rw [← sum_coe_sort s (fun l => Coo.entry L k l * ext g l)]
    exact sum_congr rfl fun l _ => by rw [hval]
  have hinj : Function.Injective T := by
    rw [injective_iff_map_eq_zero]
    intro g hg
    funext k
    rw [← hval g k]
    refine h (ext g) (hext g) ?_ k k.2
    rw [bilin_act L s (hext g)]
    refine sum_eq_zero fun k hk => ?_
    rw [← hT g ⟨k, hk⟩, hg]
    simp
  obtain ⟨g, hg⟩ := (LinearMap.injective_iff_surjective.1 hinj) fun k => f k
  refine ⟨ext g, ⟨hext g, fun k hk => ?_⟩, fun d ⟨hd, hd'⟩ => ?_⟩
  · rw [← hT g ⟨k, hk⟩, hg]
  · have : (fun k : s => d k) = g := by
      refine hinj ?_
      rw [hg]
      funext k
      rw [hT]
      refine Eq.trans (sum_congr rfl fun l hl => ?_) (hd' k k.2)
      rw [show ext (fun k : s => d k) l = d l by simp [ext, hl]]
    funext k
    by_cases hk : k ∈ s
    · rw [show ext g k = g ⟨k, hk⟩ by simp [ext, hk], ← this]
    · rw [hd k hk, hext g k hk]

end Verif.Indep
