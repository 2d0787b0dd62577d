import Verif.Proofs.Rigid
import Verif.Props.C76
import Verif.Model.Defaults
import Mathlib.Analysis.Calculus.MeanValue

/-!
# C77: the stiffness is positive definite exactly when the edges prevent every motion without strain
-/

namespace Verif.C77

open Spec Model Indep Finset

/-- The motions have no strain. -/
theorem motion_strain (κ : ℝ) (M : Motion) (s : ℕ) (x y : ℝ) :
    donnell κ (M.field κ 0) (M.field κ 1) (M.field κ 2) s x y = 0 := by
  have x2 : dx (M.field κ 2) = fun _ _ => M.β := funext fun x => funext fun y => (dx_field κ M x y).2.2
  have y2 : dy (M.field κ 2) = fun _ _ => M.γ := funext fun x => funext fun y => (dy_field κ M x y).2.2
  unfold donnell
  rcases s with _ | _ | _ | _ | _ | s
  · exact (dx_field κ M x y).1
  · simp only [(dy_field κ M x y).2.1, Motion.field]; ring
  · simp only [(dy_field κ M x y).1, (dx_field κ M x y).2.1]; ring
  · simp only [x2]; simp [dx]
  · simp only [y2]; simp [dy]
  · simp only [x2]; simp [dy]

/-- The partial derivatives that occur in the strains exist. -/
structure Smooth (u v w : ℝ → ℝ → ℝ) : Prop where
  ux : ∀ y, Differentiable ℝ fun x => u x y
  uy : ∀ x, Differentiable ℝ fun y => u x y
  vx : ∀ y, Differentiable ℝ fun x => v x y
  vy : ∀ x, Differentiable ℝ fun y => v x y
  wx : ∀ y, Differentiable ℝ fun x => w x y
  wy : ∀ x, Differentiable ℝ fun y => w x y
  wxx : ∀ y, Differentiable ℝ fun x => dx w x y
  wxy : ∀ x, Differentiable ℝ fun y => dx w x y
  wyy : ∀ x, Differentiable ℝ fun y => dy w x y

/-- A function with a polynomial derivative of degree one. -/
theorem of_deriv {f : ℝ → ℝ} (hf : Differentiable ℝ f) (a b : ℝ) (h : ∀ x, deriv f x = a + b * x)
    (x : ℝ) : f x = f 0 + a * x + b / 2 * x ^ 2 := by
  have hd : ∀ x, HasDerivAt (fun x => f x - (a * x + b / 2 * x ^ 2)) 0 x := by
    intro x
    have h1 := (hf x).hasDerivAt
    rw [h x] at h1
    have h2 := ((hasDerivAt_id' x).const_mul a).add (((hasDerivAt_id' x).pow 2).const_mul (b / 2))
    have := h1.sub h2
    refine this.congr_deriv ?_
    push_cast
    ring
  have := is_const_of_deriv_eq_zero (fun x => (hd x).differentiableAt) (fun x => (hd x).deriv) x 0
  simp only [mul_zero, ne_eq, OfNat.ofNat_ne_zero, not_false_eq_true, zero_pow, add_zero,
    sub_zero] at this
  linarith

/-- Every field without strain is one of the motions. -/
theorem strain_motion (κ : ℝ) {u v w : ℝ → ℝ → ℝ} (hs : Smooth u v w)
    (h : ∀ s < 6, ∀ x y, donnell κ u v w s x y = 0) :
    ∃ M : Motion, ∀ x y, u x y = M.field κ 0 x y ∧ v x y = M.field κ 1 x y ∧
      w x y = M.field κ 2 x y := by
  have h0 : ∀ x y, dx u x y = 0 := h 0 (by norm_num)
  have h1 : ∀ x y, dy v x y + κ * w x y = 0 := h 1 (by norm_num)
  have h2 : ∀ x y, dy u x y + dx v x y = 0 := h 2 (by norm_num)
  have h3 : ∀ x y, dx (dx w) x y = 0 := fun x y => neg_eq_zero.1 (h 3 (by norm_num) x y)
  have h4 : ∀ x y, dy (dy w) x y = 0 := fun x y => neg_eq_zero.1 (h 4 (by norm_num) x y)
  have h5 : ∀ x y, dy (dx w) x y = 0 := fun x y =>
    (mul_eq_zero.1 (h 5 (by norm_num) x y)).resolve_left (by norm_num)
  have wx : ∀ x y, dx w x y = dx w 0 0 := fun x y => by
    have a1 := of_deriv (hs.wxx y) 0 0 (fun x => (h3 x y).trans (by ring)) x
    have a2 := of_deriv (hs.wxy 0) 0 0 (fun y => (h5 0 y).trans (by ring)) y
    linarith
  have wy : ∀ y, dy w 0 y = dy w 0 0 := fun y => by
    have := of_deriv (hs.wyy 0) 0 0 (fun y => (h4 0 y).trans (by ring)) y
    linarith
  have we : ∀ x y, w x y = w 0 0 + dx w 0 0 * x + dy w 0 0 * y := fun x y => by
    have a1 := of_deriv (hs.wx y) (dx w 0 0) 0 (fun x => (wx x y).trans (by ring)) x
    have a2 := of_deriv (hs.wy 0) (dy w 0 0) 0 (fun y => (wy y).trans (by ring)) y
    linarith
  have ue : ∀ x y, u x y = u 0 y := fun x y => by
    have := of_deriv (hs.ux y) 0 0 (fun x => (h0 x y).trans (by ring)) x
    linarith
  have ve : ∀ x y, v x y = v x 0 - κ * (w 0 0 * y + dx w 0 0 * (x * y) + dy w 0 0 / 2 * y ^ 2) :=
    fun x y => by
      have := of_deriv (hs.vy x) (-(κ * (w 0 0 + dx w 0 0 * x))) (-(κ * dy w 0 0)) (fun y => by
        have e := h1 x y
        rw [we] at e
        exact Eq.trans (eq_neg_of_add_eq_zero_left e) (by ring)) y
      rw [this]
      ring
  have uy : ∀ x y, dy u x y = dy u 0 y := fun x y => by
    have : (fun t => u x t) = fun t => u 0 t := funext fun t => ue x t
    unfold dy
    rw [this]
  have vx : ∀ x, dx v x 0 = -(dy u 0 0) := fun x => by
    have := h2 x 0
    rw [uy] at this
    linarith
  have v0 : ∀ x, v x 0 = v 0 0 - dy u 0 0 * x := fun x => by
    have := of_deriv (hs.vx 0) (-(dy u 0 0)) 0 (fun x => (vx x).trans (by ring)) x
    linarith
  have vx0 : ∀ y, dx v 0 y = -(dy u 0 0) - κ * (dx w 0 0 * y) := fun y => by
    have e : (fun x => v x y) = fun x => (v 0 0 - κ * (w 0 0 * y + dy w 0 0 / 2 * y ^ 2))
        + (-(dy u 0 0) - κ * (dx w 0 0 * y)) * x := funext fun x => by rw [ve, v0]; ring
    unfold dx at e ⊢
    rw [e]
    refine (((hasDerivAt_id' (0 : ℝ)).const_mul _).const_add _).deriv.trans ?_
    ring
  have u0 : ∀ y, u 0 y = u 0 0 + dy u 0 0 * y + κ * dx w 0 0 / 2 * y ^ 2 := fun y => by
    have := of_deriv (hs.uy 0) (dy u 0 0) (κ * dx w 0 0) (fun y => by
      have e := h2 0 y
      rw [vx0] at e
      exact Eq.trans (eq_neg_of_add_eq_zero_left e) (by ring)) y
    exact this
  refine ⟨⟨u 0 0, v 0 0, dy u 0 0, w 0 0, dx w 0 0, dy w 0 0⟩, fun x y => ⟨?_, ?_, ?_⟩⟩
  · rw [ue, u0]; simp only [Motion.field]
  · rw [ve, v0]; simp only [Motion.field]
  · rw [we]; simp only [Motion.field]

theorem smooth_field (κ : ℝ) (M : Motion) : Smooth (M.field κ 0) (M.field κ 1) (M.field κ 2) := by
  have x2 : dx (M.field κ 2) = fun _ _ => M.β := funext fun x => funext fun y => (dx_field κ M x y).2.2
  have y2 : dy (M.field κ 2) = fun _ _ => M.γ := funext fun x => funext fun y => (dy_field κ M x y).2.2
  constructor <;> intro z <;> simp only [x2, y2, Motion.field] <;> fun_prop

/-- `Restrained` says what it should: no field without strain but rest fits the edges. -/
theorem restrained_iff (κ : ℝ) (P : Panel ℝ) : Restrained κ P ↔ ∀ u v w : ℝ → ℝ → ℝ,
    Smooth u v w → (∀ s < 6, ∀ x y, donnell κ u v w s x y = 0) →
    EdgeFits P 0 u → EdgeFits P 1 v → EdgeFits P 2 w →
    ∀ x y, u x y = 0 ∧ v x y = 0 ∧ w x y = 0 := by
  constructor
  · intro hR u v w hs h fu fv fw
    obtain ⟨M, hM⟩ := strain_motion κ hs h
    obtain rfl : u = M.field κ 0 := funext fun x => funext fun y => (hM x y).1
    obtain rfl : v = M.field κ 1 := funext fun x => funext fun y => (hM x y).2.1
    obtain rfl : w = M.field κ 2 := funext fun x => funext fun y => (hM x y).2.2
    have := hR M fun c hc => by
      match c, hc with
      | 0, _ => exact fu
      | 1, _ => exact fv
      | 2, _ => exact fw
    exact fun x y => ⟨this 0 (by norm_num) x y, this 1 (by norm_num) x y, this 2 (by norm_num) x y⟩
  · intro h M hf c hc x y
    have := h _ _ _ (smooth_field κ M) (fun s _ x y => motion_strain κ M s x y) (hf 0 (by norm_num))
      (hf 1 (by norm_num)) (hf 2 (by norm_num)) x y
    match c, hc with
    | 0, _ => exact this.1
    | 1, _ => exact this.2.1
    | 2, _ => exact this.2.2

theorem definite_iff {S : Shape ℝ} {N : ℕ} (hS : Hier S N) (hN : 4 ≤ N) {P : Panel ℝ}
    (hm : P.m ≤ N) (hn : P.n ≤ N) (ha : P.a ≠ 0) (hb : P.b ≠ 0) (κ : ℝ) {A B : Set ℝ}
    (hA : Dense P.m ((fun x => 2 / P.a * x - 1) '' A))
    (hB : Dense P.n ((fun y => 2 / P.b * y - 1) '' B)) {s0 : ℕ} {L : Coo ℝ}
    (h0 : ∀ d, 0 ≤ Coo.quad L d)
    (hL : ∀ d, Coo.quad L d = 0 ↔ ∀ x ∈ A, ∀ y ∈ B, ∀ s < 6, lin κ S P s0 d s x y = 0) :
    (Restrained κ P → C76.Definite P s0 L) ∧
    (4 ≤ P.m → 4 ≤ P.n → C76.Definite P s0 L → Restrained κ P) := by
  constructor
  · intro hR
    refine C76.definite_of h0 fun d => (hL d).trans ⟨fun h => ?_, fun h x _ y _ s _ => ?_⟩
    · obtain ⟨M, hM, hf⟩ := motion_of_strain hS hN hm hn ha hb κ hA hB s0 d h
      exact rest_of_motion ha hb hM (hR M hf)
    · exact (strain_of_rest hS hm hn κ (fun _ => 0) h s x y).2
  · intro m4 n4 hD M hf c hc x y
    obtain ⟨d, hd⟩ := exists_motion ha hb m4 n4 s0 hf
    have hz : Coo.quad L d = 0 := (hL d).2 fun x _ y _ s _ =>
      (disp_motion hS hm hn ha hb hd x y).2 s
    have hr : ∀ c < 3, Rest P s0 d c := by
      refine (C76.rest_iff P s0 d).1 fun k hk => ?_
      by_contra hne
      exact ((hD d).1 ⟨k, hk, hne⟩).ne' hz
    rw [← (disp_motion hS hm hn ha hb hd x y).1 c hc]
    exact disp_rest hS hm hn (hr c hc) (by norm_num) (by norm_num) _ _

/-- A panel whose strain energy vanishes moves as a rigid surface, within what its edges allow: printed
functions, at the points of a rule or anywhere. -/
theorem field {S : Shape ℝ} {N : ℕ} (hS : Hier S N) (hN : 4 ≤ N) {P : Panel ℝ}
    (hm : P.m ≤ N) (hn : P.n ≤ N) (ha : P.a ≠ 0) (hb : P.b ≠ 0) (κ : ℝ) {A B : Set ℝ}
    (hA : Dense P.m ((fun x => 2 / P.a * x - 1) '' A))
    (hB : Dense P.n ((fun y => 2 / P.b * y - 1) '' B)) (s0 : ℕ) (d : ℕ → ℝ)
    (h : ∀ x ∈ A, ∀ y ∈ B, ∀ s < 6, lin κ S P s0 d s x y = 0) :
    ∃ M : Motion, (∀ c < 3, EdgeFits P c (M.field κ c)) ∧
      ∀ c < 3, ∀ x y, disp S P s0 d c 0 0 (2 / P.a * x - 1) (2 / P.b * y - 1) = M.field κ c x y := by
  obtain ⟨M, hM, hf⟩ := motion_of_strain hS hN hm hn ha hb κ hA hB s0 d h
  exact ⟨M, hf, fun c hc x y => (disp_motion hS hm hn ha hb hM x y).1 c hc⟩

theorem gauss_zero {S : Shape ℝ} {P : Panel ℝ} (dx : (xdom P).1 < (xdom P).2)
    (dy : (ydom P).1 < (ydom P).2) (κ : ℝ) {F : ℕ → ℕ → ℕ → ℕ → ℝ}
    (hpos : ∀ p q, C76.ABDDef (F p q)) (c d : ℕ → ℝ) (s0 : ℕ) {nx ny : ℕ} (R : C76.Rule P nx ny)
    {NL : ℕ} (hNL : NL ≠ 1) :
    (gaussP (gaussTab ℝ) nx ny P fun p q x y => dens 6 (F p q) fun s =>
      if NL = 1 then vkVar κ S P s0 c d s x y else lin κ S P s0 d s x y) = 0 ↔
    ∀ x ∈ {x | ∃ p < nx, x = node (gaussTab ℝ) nx (xdom P).1 (xdom P).2 p},
      ∀ y ∈ {y | ∃ q < ny, y = node (gaussTab ℝ) ny (ydom P).1 (ydom P).2 q}, ∀ s < 6,
        lin κ S P s0 d s x y = 0 := by
  rw [gaussP_eq_zero ⟨le_trans (by norm_num) R.x4, R.x64⟩ ⟨le_trans (by norm_num) R.y4, R.y64⟩ P dx dy
    fun p q x y => (hpos p q).nonneg _]
  simp only [if_neg hNL]
  constructor
  · rintro h x ⟨p, hp, rfl⟩ y ⟨q, hq, rfl⟩ s hs
    exact (hpos p q).zero (h p hp q hq) s hs
  · intro h p hp q hq
    exact C13.dens_zero _ _ fun s hs => h _ ⟨p, hp, rfl⟩ _ ⟨q, hq, rfl⟩ s hs

/-- Numerical linear stiffness with the printed functions and rules: plate and cylinder. -/
theorem stiffness_num (P : Panel ℝ) (hm : P.m ≤ 30) (hn : P.n ≤ 30) (ha : P.a ≠ 0) (hb : P.b ≠ 0)
    (m4 : 4 ≤ P.m) (n4 : 4 ≤ P.n) (dx : (xdom P).1 < (xdom P).2) (dy : (ydom P).1 < (ydom P).2)
    (F : ℕ → ℕ → ℕ → ℕ → ℝ) (hF : ∀ p q, ABDSym (F p q)) (hpos : ∀ p q, C76.ABDDef (F p q))
    (c : ℕ → ℝ) (s0 nx ny : ℕ) (R : C76.Rule P nx ny) (NL : ℕ) (hNL : NL ≠ 1) :
    (C76.Definite P s0 (Coo.finalizeSym
      (plateFkCnumF (vecShape ℝ) (gaussTab ℝ) P F c s0 s0 nx ny NL)) ↔ Restrained 0 P) ∧
    (P.r ≠ 0 → (C76.Definite P s0 (Coo.finalizeSym
      (cylFkCnumF (vecShape ℝ) (gaussTab ℝ) P F c s0 s0 nx ny NL)) ↔ Restrained (1 / P.r) P)) := by
  have hpos' : ∀ p q, C13.ABDPos (F p q) := fun p q e => (hpos p q).nonneg e
  have A := dense_nodes (m := P.m) (le_trans (by norm_num) R.x4) R.x64 R.x4 R.xm ha dx
  have B := dense_nodes (m := P.n) (le_trans (by norm_num) R.y4) R.y64 R.y4 R.yn hb dy
  constructor
  · obtain ⟨h1, h2⟩ := definite_iff (s0 := s0) printed_hier (by norm_num) hm hn ha hb 0 A B
      (fun d => (C13.numerical_psd (vecShape ℝ) P ha hb dx.le dy.le F hF hpos' c d s0 nx ny NL).1)
      fun d => by
        rw [plateFkCnum_quad _ _ P ha hb F hF]
        exact gauss_zero dx dy 0 hpos c d s0 R hNL
    exact ⟨h2 m4 n4, h1⟩
  · intro hr
    obtain ⟨h1, h2⟩ := definite_iff (s0 := s0) printed_hier (by norm_num) hm hn ha hb (1 / P.r) A B
      (fun d => (C13.numerical_psd (vecShape ℝ) P ha hb dx.le dy.le F hF hpos' c d s0 nx ny NL).2 hr)
      fun d => by
        rw [cylFkCnum_quad _ _ P ha hb hr F hF]
        exact gauss_zero dx dy _ hpos c d s0 R hNL
    exact ⟨h2 m4 n4, h1⟩

theorem integral_iff {S : Shape ℝ} (hC : S.C2) {P : Panel ℝ} (ha : 0 < P.a) (hb : 0 < P.b) (κ : ℝ)
    {F : ℕ → ℕ → ℝ} (hpos : C76.ABDDef F) (d : ℕ → ℝ) (s0 : ℕ) :
    (∫ x in (0 : ℝ)..P.a, ∫ y in (0 : ℝ)..P.b, dens 6 F fun s => lin κ S P s0 d s x y) = 0 ↔
    ∀ x ∈ Set.Icc 0 P.a, ∀ y ∈ Set.Icc 0 P.b, ∀ s < 6, lin κ S P s0 d s x y = 0 := by
  constructor
  · intro h x hx y hy s hs
    exact hpos.zero (integral2_zero ha hb
      (C76.dens_continuous F fun s _ => C76.lin_continuous hC κ P s0 d s)
      (fun x y => hpos.nonneg _) h x y hx hy) s hs
  · intro h
    have : ∀ x ∈ Set.uIcc 0 P.a, (∫ y in (0 : ℝ)..P.b, dens 6 F fun s => lin κ S P s0 d s x y)
        = 0 := by
      intro x hx
      rw [Set.uIcc_of_le ha.le] at hx
      rw [intervalIntegral.integral_congr (g := fun _ => (0 : ℝ)), intervalIntegral.integral_zero]
      intro y hy
      rw [Set.uIcc_of_le hb.le] at hy
      exact C13.dens_zero _ _ fun s hs => h x hx y hy s hs
    rw [intervalIntegral.integral_congr (g := fun _ => (0 : ℝ)) fun x hx => this x hx,
      intervalIntegral.integral_zero]

/-- Closed-form stiffness with the exact integrals: plate and cylinder, any number of terms from four
on. -/
theorem stiffness_ana {I : Tab ℝ} (hI : I.Exact (bardellShape ℝ) Mean.integral) (P : Panel ℝ)
    (ha : 0 < P.a) (hb : 0 < P.b) (m4 : 4 ≤ P.m) (n4 : 4 ≤ P.n) (F : ℕ → ℕ → ℝ) (hF : ABDSym F)
    (hpos : C76.ABDDef F) (s0 : ℕ) :
    (C76.Definite P s0 (Coo.finalizeSym (plateFk0 I P F s0 s0)) ↔ Restrained 0 P) ∧
    (P.r ≠ 0 →
      (C76.Definite P s0 (Coo.finalizeSym (cylFk0 I P F s0 s0)) ↔ Restrained (1 / P.r) P)) := by
  have hpos' : C13.ABDPos F := fun e => hpos.nonneg e
  have H := exact_hier (max P.m P.n)
  have hm := le_max_left P.m P.n
  have hn := le_max_right P.m P.n
  constructor
  · obtain ⟨h1, h2⟩ := definite_iff (s0 := s0) H (m4.trans hm) hm hn ha.ne' hb.ne' 0 (dense_Icc P.m ha)
      (dense_Icc P.n hb)
      (fun d => (C13.analytical_psd hI bardellShape_C2 P ha hb F hF hpos' s0 d).1) fun d => by
        rw [C08.plate_fk0_strain_energy hI bardellShape_C2 P ha.ne' hb.ne' F hF s0 d]
        simp only [donnell_lin bardellShape_C2]
        exact integral_iff bardellShape_C2 ha hb 0 hpos d s0
    exact ⟨h2 m4 n4, h1⟩
  · intro hr
    obtain ⟨h1, h2⟩ := definite_iff (s0 := s0) H (m4.trans hm) hm hn ha.ne' hb.ne' (1 / P.r)
      (dense_Icc P.m ha) (dense_Icc P.n hb)
      (fun d => (C13.analytical_psd hI bardellShape_C2 P ha hb F hF hpos' s0 d).2 hr) fun d => by
        rw [C11.cyl_fk0_strain_energy hI bardellShape_C2 P ha.ne' hb.ne' hr F hF s0 d]
        simp only [linStrain_lin bardellShape_C2]
        exact integral_iff bardellShape_C2 ha hb _ hpos d s0
    exact ⟨h2 m4 n4, h1⟩

/-! ## Supports -/

/-- The supports of C76 suffice on every curvature. -/
theorem supported (κ : ℝ) {P : Panel ℝ} (ha : 0 < P.a) (hb : 0 < P.b) (hP : Supported P) :
    Restrained κ P := by
  by_cases hk : κ = 0
  · subst hk
    exact (stiffness_ana (Tab.of_exact _ _) { P with m := 4, n := 4 } ha hb le_rfl le_rfl C13.lam
      C13.lam_sym C76.lam_def 0).1.1 (C76.stiffness_ana (Tab.of_exact _ _) { P with m := 4, n := 4 } ha
        hb hP C13.lam C13.lam_sym C76.lam_def 0).1
  · have hr : 1 / κ ≠ 0 := one_div_ne_zero hk
    have := ((stiffness_ana (Tab.of_exact _ _) { P with m := 4, n := 4, r := 1 / κ } ha hb le_rfl le_rfl
      C13.lam C13.lam_sym C76.lam_def 0).2 hr).1 ((C76.stiffness_ana (Tab.of_exact _ _)
        { P with m := 4, n := 4, r := 1 / κ } ha hb hP C13.lam C13.lam_sym C76.lam_def 0).2 hr)
    rw [one_div_one_div] at this
    exact this

/-- New panels and new bays are restrained. -/
theorem defaults (κ : ℝ) {P : Panel ℝ} (ha : 0 < P.a) (hb : 0 < P.b) :
    Restrained κ (shellDefault P) ∧ Restrained κ (bayDefault P) := by
  constructor
  · refine supported κ ha hb ⟨Or.inl ?_, Or.inl ⟨?_, Or.inl ?_⟩⟩ <;>
      simp [Bent, Held, Panel.xf, shellDefault]
  · refine supported κ ha hb ⟨Or.inl ?_, Or.inl ⟨?_, Or.inl ?_⟩⟩ <;>
      simp [Bent, Held, Panel.xf, bayDefault]

/-- A free panel is not restrained, whatever its curvature. -/
theorem free (κ : ℝ) {P : Panel ℝ} (hP : ∀ c < 3, ∀ i < 4, flag (P.xf c) i ≠ 0 ∧
    flag (P.yf c) i ≠ 0) : ¬ Restrained κ P := by
  intro h
  have := h ⟨1, 0, 0, 0, 0, 0⟩ (fun c hc => (fits_edges P c _).2
    ⟨fun i hi hf => absurd hf (hP c hc i hi).1, fun j hj hf => absurd hf (hP c hc j hj).2⟩) 0
    (by norm_num) 0 0
  simp [Motion.field] at this

/-! ## Concrete cases -/

/-- Two adjacent edges carry the deflection, which no single direction of C76 does. -/
noncomputable def corner : Panel ℝ :=
  { Witness.panel with
    xu := ⟨0, 1, 1, 1⟩, xv := ⟨1, 1, 1, 1⟩, xw := ⟨0, 1, 1, 1⟩
    yu := ⟨1, 1, 1, 1⟩, yv := ⟨0, 1, 1, 1⟩, yw := ⟨0, 1, 1, 1⟩ }

theorem corner_restrained (κ : ℝ) : Restrained κ corner ∧ ¬ Supported corner := by
  refine ⟨fun M h => ?_, fun h => ?_⟩
  · obtain ⟨u0, -⟩ := h 0 (by norm_num)
    obtain ⟨-, -, -, -, v0, -⟩ := h 1 (by norm_num)
    obtain ⟨w0, -, -, -, w1, -⟩ := h 2 (by norm_num)
    have u0 := u0 (by simp [corner, Panel.xf])
    have v0 := v0 (by simp [corner, Panel.yf])
    have w0 := w0 (by simp [corner, Panel.xf])
    have w1 := w1 (by simp [corner, Panel.yf])
    simp only [Motion.field] at u0 v0 w0 w1
    have a0 := w0 0
    have a1 := w0 1
    have a2 := w1 1
    have e1 : M.α = 0 := by linarith
    have e2 : M.γ = 0 := by linarith
    have e3 : M.β = 0 := by linarith
    rw [e3] at u0
    have b0 := u0 0
    have b1 := u0 1
    have c0 := v0 0
    have e4 : M.p = 0 := by linarith
    have e5 : M.θ = 0 := by linarith
    have e6 : M.q = 0 := by linarith
    intro c hc x y
    match c, hc with
    | 0, _ => simp only [Motion.field, e3, e4, e5]; ring
    | 1, _ => simp only [Motion.field, e1, e2, e3, e5, e6]; ring
    | 2, _ => simp only [Motion.field, e1, e2, e3]; ring
  · rcases h.1 with h | h <;> simp [corner, Bent, Panel.xf, Panel.yf] at h

/-- Only the membrane displacements are held. -/
noncomputable def membrane : Panel ℝ :=
  { Witness.panel with
    xu := ⟨0, 1, 0, 1⟩, xv := ⟨0, 1, 0, 1⟩, xw := ⟨1, 1, 1, 1⟩
    yu := ⟨0, 1, 0, 1⟩, yv := ⟨0, 1, 0, 1⟩, yw := ⟨1, 1, 1, 1⟩ }

/-- A curved panel whose deflection is free everywhere is restrained; a plate is not. -/
theorem membrane_restrained (κ : ℝ) : Restrained κ membrane ↔ κ ≠ 0 := by
  constructor
  · rintro h rfl
    have := h ⟨0, 0, 0, 1, 0, 0⟩ (fun c hc => ?_) 2 (by norm_num) 0 0
    · simp [Motion.field] at this
    · match c, hc with
      | 0, _ => simp [EdgeFits, Motion.field, dx, dy]
      | 1, _ => simp [EdgeFits, Motion.field, dx, dy]
      | 2, _ => simp [EdgeFits, membrane, Panel.xf, Panel.yf]
  · intro hk M h
    obtain ⟨u0, -⟩ := h 0 (by norm_num)
    obtain ⟨v0, -⟩ := h 1 (by norm_num)
    have u0 := u0 (by simp [membrane, Panel.xf])
    have v0 := v0 (by simp [membrane, Panel.xf])
    simp only [Motion.field] at u0 v0
    have a0 := u0 0
    have a1 := u0 1
    have a2 := u0 (-1)
    have b0 := v0 0
    have b1 := v0 1
    have b2 := v0 (-1)
    have e1 : M.p = 0 := by linarith
    have e2 : M.θ = 0 := by linarith
    have e3 : M.β = 0 := (mul_eq_zero.1 (by linarith : κ * M.β = 0)).resolve_left hk
    have e4 : M.q = 0 := by linarith
    have e5 : M.α = 0 := (mul_eq_zero.1 (by linarith : κ * M.α = 0)).resolve_left hk
    have e6 : M.γ = 0 := (mul_eq_zero.1 (by linarith : κ * M.γ = 0)).resolve_left hk
    intro c hc x y
    match c, hc with
    | 0, _ => simp only [Motion.field, e1, e2, e3]; ring
    | 1, _ => simp only [Motion.field, e2, e3, e4, e5, e6]; ring
    | 2, _ => simp only [Motion.field, e3, e5, e6]; ring

/-- Its numerical stiffness: the cylinder is definite, the plate is not. -/
example : C76.Definite membrane 12 (Coo.finalizeSym (cylFkCnumF (vecShape ℝ) (gaussTab ℝ) membrane
      (fun _ _ => C13.lam) (fun _ => 0) 12 12 6 8 0)) ∧
    ¬ C76.Definite membrane 12 (Coo.finalizeSym (plateFkCnumF (vecShape ℝ) (gaussTab ℝ) membrane
      (fun _ _ => C13.lam) (fun _ => 0) 12 12 6 8 0)) := by
  have R : C76.Rule membrane 6 8 := ⟨by norm_num, by simp [membrane, Witness.panel], by norm_num,
    by norm_num, by simp [membrane, Witness.panel], by norm_num⟩
  obtain ⟨h1, h2⟩ := stiffness_num membrane (by simp [membrane, Witness.panel])
    (by simp [membrane, Witness.panel]) (by simp [membrane, Witness.panel])
    (by simp [membrane, Witness.panel]) (by simp [membrane, Witness.panel])
    (by simp [membrane, Witness.panel]) (by simp [xdom, membrane, Witness.panel])
    (by simp [ydom, membrane, Witness.panel]) (fun _ _ => C13.lam) (fun _ _ => C13.lam_sym)
    (fun _ _ => C76.lam_def) (fun _ => 0) 12 6 8 R 0 (by norm_num)
  refine ⟨(h2 (by simp [membrane, Witness.panel])).2 ((membrane_restrained _).2 ?_),
    fun h => (membrane_restrained 0).1 (h1.1 h) rfl⟩
  simp [membrane, Witness.panel]

/-- The closed form of a panel on two adjacent edges. -/
example : C76.Definite corner 0 (Coo.finalizeSym
    (plateFk0 (Tab.of (bardellShape ℝ) Mean.integral) corner C13.lam 0 0)) :=
  (stiffness_ana (Tab.of_exact _ _) corner (by simp [corner, Witness.panel])
    (by simp [corner, Witness.panel]) (by simp [corner, Witness.panel])
    (by simp [corner, Witness.panel]) _ C13.lam_sym C76.lam_def 0).1.2 (corner_restrained 0).1

end Verif.C77
