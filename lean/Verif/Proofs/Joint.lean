import Verif.Spec.Joint
import Verif.Proofs.RealField
import Verif.Proofs.VonKarman
import Verif.Proofs.ConnEnergy

/-!
# Joint energies: sign and kernel
-/

namespace Verif.Spec

open MeasureTheory

theorem integral_line (len : ℝ) (h : len ≠ 0) (G : ℝ → ℝ) :
    ∫ t in (0 : ℝ)..len, G (2 / len * t - 1) = len / 2 * Mean.integral.L G := by
  rw [intervalIntegral.integral_comp_mul_sub G (by positivity : (2 / len) ≠ 0)]
  simp only [Mean.integral, smul_eq_mul]
  rw [mul_zero, zero_sub, show 2 / len * len - 1 = 1 by field_simp; norm_num]
  congr 1
  field_simp

theorem integral_zero_iff {len : ℝ} (hl : 0 < len) {E : ℝ → ℝ} (hc : Continuous E)
    (h0 : ∀ t, 0 ≤ E t) : ∫ t in (0 : ℝ)..len, E t = 0 ↔ ∀ t ∈ Set.Icc 0 len, E t = 0 := by
  constructor
  · intro h t ht
    by_contra hne
    have := intervalIntegral.integral_pos hl hc.continuousOn (fun x _ => h0 x)
      ⟨t, ht, lt_of_le_of_ne (h0 t) (Ne.symm hne)⟩
    exact absurd h this.ne'
  · intro h
    rw [intervalIntegral.integral_congr (g := fun _ => 0)]
    · simp
    · intro t ht
      rw [Set.uIcc_of_le hl.le] at ht
      exact h t ht

theorem sum_sq_zero {kt kr a b c d : ℝ} (h1 : 0 < kt) (h2 : 0 < kr) :
    kt * (a ^ 2 + b ^ 2 + c ^ 2) + kr * d ^ 2 = 0 ↔ a = 0 ∧ b = 0 ∧ c = 0 ∧ d = 0 := by
  constructor
  · intro h
    have p1 : 0 ≤ kt * a ^ 2 := by positivity
    have p2 : 0 ≤ kt * b ^ 2 := by positivity
    have p3 : 0 ≤ kt * c ^ 2 := by positivity
    have p4 : 0 ≤ kr * d ^ 2 := by positivity
    have z : ∀ {k x : ℝ}, 0 < k → k * x ^ 2 = 0 → x = 0 := by
      intro k x hk hx
      rcases mul_eq_zero.1 hx with h' | h'
      · exact absurd h' hk.ne'
      · exact pow_eq_zero_iff (two_ne_zero) |>.1 h'
    exact ⟨z h1 (by linarith), z h1 (by linarith), z h1 (by linarith), z h2 (by linarith)⟩
  · rintro ⟨rfl, rfl, rfl, rfl⟩; ring

theorem jointEnergy_nonneg {len kt kr : ℝ} (hl : 0 ≤ len) (h1 : 0 ≤ kt) (h2 : 0 ≤ kr)
    (g0 g1 g2 g3 : ℝ → ℝ) : 0 ≤ jointEnergy len kt kr g0 g1 g2 g3 :=
  intervalIntegral.integral_nonneg hl fun t _ => by positivity

theorem jointEnergy_zero {len kt kr : ℝ} (hl : 0 < len) (h1 : 0 < kt) (h2 : 0 < kr)
    {g0 g1 g2 g3 : ℝ → ℝ} (c0 : Continuous g0) (c1 : Continuous g1) (c2 : Continuous g2)
    (c3 : Continuous g3) : jointEnergy len kt kr g0 g1 g2 g3 = 0 ↔
      ∀ t ∈ Set.Icc 0 len, g0 t = 0 ∧ g1 t = 0 ∧ g2 t = 0 ∧ g3 t = 0 := by
  rw [jointEnergy, integral_zero_iff hl (by fun_prop) (fun t => by positivity)]
  exact forall₂_congr fun t _ => sum_sq_zero h1 h2

theorem areaEnergy_nonneg {a b kt : ℝ} (ha : 0 ≤ a) (hb : 0 ≤ b) (h1 : 0 ≤ kt)
    (g0 g1 g2 : ℝ → ℝ → ℝ) : 0 ≤ areaEnergy a b kt g0 g1 g2 :=
  intervalIntegral.integral_nonneg ha fun x _ => intervalIntegral.integral_nonneg hb fun y _ => by
    positivity

theorem areaEnergy_zero {a b kt : ℝ} (ha : 0 < a) (hb : 0 < b) (h1 : 0 < kt)
    {g0 g1 g2 : ℝ → ℝ → ℝ} (c0 : Continuous fun p : ℝ × ℝ => g0 p.1 p.2)
    (c1 : Continuous fun p : ℝ × ℝ => g1 p.1 p.2) (c2 : Continuous fun p : ℝ × ℝ => g2 p.1 p.2) :
    areaEnergy a b kt g0 g1 g2 = 0 ↔
      ∀ x ∈ Set.Icc 0 a, ∀ y ∈ Set.Icc 0 b, g0 x y = 0 ∧ g1 x y = 0 ∧ g2 x y = 0 := by
  have hc : Continuous fun p : ℝ × ℝ => kt * (g0 p.1 p.2 ^ 2 + g1 p.1 p.2 ^ 2 + g2 p.1 p.2 ^ 2) := by
    fun_prop
  have hin : Continuous fun x => ∫ y in (0 : ℝ)..b, kt * (g0 x y ^ 2 + g1 x y ^ 2 + g2 x y ^ 2) :=
    intervalIntegral.continuous_parametric_intervalIntegral_of_continuous' hc 0 b
  rw [areaEnergy, integral_zero_iff ha hin fun x => intervalIntegral.integral_nonneg hb.le fun y _ => by
    positivity]
  refine forall₂_congr fun x _ => ?_
  rw [integral_zero_iff (E := fun y => kt * (g0 x y ^ 2 + g1 x y ^ 2 + g2 x y ^ 2)) hb
    (hc.comp (Continuous.prodMk_right x)) fun y => by positivity]
  refine forall₂_congr fun y _ => ?_
  have := sum_sq_zero (a := g0 x y) (b := g1 x y) (c := g2 x y) (d := 0) h1 one_pos
  simpa using this

theorem line_point (b1 b2 y : ℝ) (h1 : b1 ≠ 0) (h2 : b2 ≠ 0) :
    2 / b2 * (b2 / b1 * y) - 1 = 2 / b1 * y - 1 := by
  field_simp

/-- The fields are continuous in both variables. -/
theorem u_continuous {S : Shape ℝ} (hS : S.C2) (P : Panel ℝ) (s0 : ℕ) (c : ℕ → ℝ) (α : ℕ) :
    Continuous fun p : ℝ × ℝ => u S P s0 c α p.1 p.2 := by
  have h : ∀ i fl, Continuous fun t => S.f i t fl := fun i fl =>
    continuous_iff_continuousAt.2 fun x => (hS.d1 i x fl).continuousAt
  unfold u
  refine continuous_finsetSum _ fun i _ => continuous_finsetSum _ fun j _ => ?_
  exact continuous_const.mul (((h i _).comp (by fun_prop)).mul ((h j _).comp (by fun_prop)))

theorem disp_continuous {S : Shape ℝ} (hS : S.C2) (P : Panel ℝ) (s0 : ℕ) (c : ℕ → ℝ) (α p q : ℕ) :
    Continuous fun z : ℝ × ℝ => disp S P s0 c α p q (2 / P.a * z.1 - 1) (2 / P.b * z.2 - 1) := by
  have h : ∀ k i fl, Continuous fun t => S.D k i t fl := fun k i fl => hS.inMean k i fl
  unfold disp
  refine continuous_const.mul ?_
  refine continuous_finsetSum _ fun i _ => continuous_finsetSum _ fun j _ => ?_
  exact continuous_const.mul (((h _ i _).comp (by fun_prop)).mul ((h _ j _).comp (by fun_prop)))

theorem dx_continuous {S : Shape ℝ} (hS : S.C2) (P : Panel ℝ) (s0 : ℕ) (c : ℕ → ℝ) (α : ℕ) :
    Continuous fun p : ℝ × ℝ => dx (u S P s0 c α) p.1 p.2 := by
  simp only [u_dx hS]; exact disp_continuous hS P s0 c α 1 0

theorem dy_continuous {S : Shape ℝ} (hS : S.C2) (P : Panel ℝ) (s0 : ℕ) (c : ℕ → ℝ) (α : ℕ) :
    Continuous fun p : ℝ × ℝ => dy (u S P s0 c α) p.1 p.2 := by
  simp only [u_dy hS]; exact disp_continuous hS P s0 c α 0 1

theorem cont_line {F : ℝ → ℝ → ℝ} (hF : Continuous fun p : ℝ × ℝ => F p.1 p.2) {f g : ℝ → ℝ}
    (hf : Continuous f) (hg : Continuous g) : Continuous fun t => F (f t) (g t) :=
  hF.comp (hf.prodMk hg)

theorem cont_scale {F : ℝ → ℝ → ℝ} (hF : Continuous fun p : ℝ × ℝ => F p.1 p.2) (k l : ℝ) :
    Continuous fun p : ℝ × ℝ => F (k * p.1) (l * p.2) :=
  hF.comp (((continuous_const_mul k).comp continuous_fst).prodMk
    ((continuous_const_mul l).comp continuous_snd))

theorem u_line {S : Shape ℝ} (hS : S.C2) (P : Panel ℝ) (s0 : ℕ) (c : ℕ → ℝ) (α : ℕ) {f g : ℝ → ℝ}
    (hf : Continuous f) (hg : Continuous g) : Continuous fun t => u S P s0 c α (f t) (g t) :=
  cont_line (F := u S P s0 c α) (u_continuous hS P s0 c α) hf hg

theorem dx_line {S : Shape ℝ} (hS : S.C2) (P : Panel ℝ) (s0 : ℕ) (c : ℕ → ℝ) (α : ℕ) {f g : ℝ → ℝ}
    (hf : Continuous f) (hg : Continuous g) : Continuous fun t => dx (u S P s0 c α) (f t) (g t) :=
  cont_line (F := dx (u S P s0 c α)) (dx_continuous hS P s0 c α) hf hg

theorem dy_line {S : Shape ℝ} (hS : S.C2) (P : Panel ℝ) (s0 : ℕ) (c : ℕ → ℝ) (α : ℕ) {f g : ℝ → ℝ}
    (hf : Continuous f) (hg : Continuous g) : Continuous fun t => dy (u S P s0 c α) (f t) (g t) :=
  cont_line (F := dy (u S P s0 c α)) (dy_continuous hS P s0 c α) hf hg

theorem u_disp (S : Shape ℝ) (P : Panel ℝ) (s0 : ℕ) (c : ℕ → ℝ) (α : ℕ) (x y : ℝ) :
    u S P s0 c α x y = disp S P s0 c α 0 0 (2 / P.a * x - 1) (2 / P.b * y - 1) := by
  rw [← phys_zero]; rfl

end Verif.Spec
