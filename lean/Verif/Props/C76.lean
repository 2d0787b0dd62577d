import Verif.Proofs.Definite
import Verif.Props.C13
import Verif.Props.C20

/-!
# C76: the stiffness of a supported panel and the mass of every panel are positive definite
-/

namespace Verif.C76

open Spec Model Indep Finset

/-- The laminate matrix is positive definite. -/
def ABDDef (F : ℕ → ℕ → ℝ) : Prop := ∀ e : ℕ → ℝ, (∃ s < 6, e s ≠ 0) → 0 < dens 6 F e

theorem ABDDef.nonneg {F : ℕ → ℕ → ℝ} (h : ABDDef F) (e : ℕ → ℝ) : 0 ≤ dens 6 F e := by
  by_cases he : ∃ s < 6, e s ≠ 0
  · exact (h e he).le
  · refine (C13.dens_zero F e fun s hs => ?_).ge
    by_contra hne
    exact he ⟨s, hs, hne⟩

theorem ABDDef.zero {F : ℕ → ℕ → ℝ} (h : ABDDef F) {e : ℕ → ℝ} (h0 : dens 6 F e = 0) :
    ∀ s < 6, e s = 0 := by
  intro s hs
  by_contra hne
  exact (h e ⟨s, hs, hne⟩).ne' h0

/-- The quadratic form of the matrix `L` is positive for every set of amplitudes of which one that is
switched on is not zero, and is zero for all others. -/
def Definite (P : Panel ℝ) (s0 : ℕ) (L : Coo ℝ) : Prop :=
  ∀ d : ℕ → ℝ, ((∃ k, Active P s0 k ∧ d k ≠ 0) → 0 < Coo.quad L d) ∧
    ((∀ k, Active P s0 k → d k = 0) → Coo.quad L d = 0)

theorem rest_iff (P : Panel ℝ) (s0 : ℕ) (d : ℕ → ℝ) :
    (∀ k, Active P s0 k → d k = 0) ↔ ∀ α < 3, Rest P s0 d α := by
  constructor
  · intro h α hα i hi j hj h1 h2
    exact h _ ⟨α, hα, i, hi, j, hj, h1, h2, rfl⟩
  · rintro h _ ⟨α, hα, i, hi, j, hj, h1, h2, rfl⟩
    exact h α hα i hi j hj h1 h2

theorem definite_of {P : Panel ℝ} {s0 : ℕ} {L : Coo ℝ} (h0 : ∀ d, 0 ≤ Coo.quad L d)
    (h : ∀ d, Coo.quad L d = 0 ↔ ∀ α < 3, Rest P s0 d α) : Definite P s0 L := by
  intro d
  rw [rest_iff, ← h]
  refine ⟨fun ⟨k, hk, hne⟩ => lt_of_le_of_ne (h0 d) fun he => hne ?_, id⟩
  exact (rest_iff P s0 d).2 ((h d).1 he.symm) k hk

/-- A quadrature with enough points. -/
structure Rule (P : Panel ℝ) (nx ny : ℕ) : Prop where
  x4 : 4 ≤ nx
  xm : P.m ≤ nx
  x64 : nx ≤ 64
  y4 : 4 ≤ ny
  yn : P.n ≤ ny
  y64 : ny ≤ 64

theorem num_iff {S : Shape ℝ} {N : ℕ} (hS : Hier S N) {P : Panel ℝ} (hm : P.m ≤ N) (hn : P.n ≤ N)
    (ha : P.a ≠ 0) (hb : P.b ≠ 0) (hP : Supported P) (dx : (xdom P).1 < (xdom P).2)
    (dy : (ydom P).1 < (ydom P).2) (κ : ℝ) {F : ℕ → ℕ → ℕ → ℕ → ℝ} (hpos : ∀ p q, ABDDef (F p q))
    (c d : ℕ → ℝ) (s0 : ℕ) {nx ny : ℕ} (R : Rule P nx ny) (NL : ℕ) :
    (gaussP (gaussTab ℝ) nx ny P fun p q x y => dens 6 (F p q) fun s =>
      if NL = 1 then vkVar κ S P s0 c d s x y else lin κ S P s0 d s x y) = 0 ↔
    ∀ α < 3, Rest P s0 d α := by
  have hx2 : 2 ≤ nx := le_trans (by norm_num) R.x4
  have hy2 : 2 ≤ ny := le_trans (by norm_num) R.y4
  rw [gaussP_eq_zero ⟨hx2, R.x64⟩ ⟨hy2, R.y64⟩ P dx dy fun p q x y => (hpos p q).nonneg _]
  constructor
  · intro h
    have A := dense_nodes (m := P.m) hx2 R.x64 R.x4 R.xm ha dx
    have B := dense_nodes (m := P.n) hy2 R.y64 R.y4 R.yn hb dy
    refine rest_of_strain hS hm hn ha hb hP κ A B s0 (if NL = 1 then c else fun _ => 0) d ?_
    rintro x ⟨p, hp, rfl⟩ y ⟨q, hq, rfl⟩ s hs
    have := (hpos p q).zero (h p hp q hq) s hs
    by_cases hNL : NL = 1
    · rwa [if_pos hNL] at this ⊢
    · rw [if_neg hNL] at this ⊢
      rwa [vkVar_zero]
  · intro h p _ q _
    refine C13.dens_zero _ _ fun s _ => ?_
    obtain ⟨h1, h2⟩ := strain_of_rest hS hm hn κ c h s
      (node (gaussTab ℝ) nx (xdom P).1 (xdom P).2 p) (node (gaussTab ℝ) ny (ydom P).1 (ydom P).2 q)
    split
    · exact h1
    · exact h2

/-- Numerical stiffness of the plate and of the cylinder with the printed functions and rules, linear
or at any state (`NL = 1`): any sub-domain that is not empty, any laminate field. -/
theorem stiffness_num (P : Panel ℝ) (hm : P.m ≤ 30) (hn : P.n ≤ 30) (ha : P.a ≠ 0) (hb : P.b ≠ 0)
    (hP : Supported P) (dx : (xdom P).1 < (xdom P).2) (dy : (ydom P).1 < (ydom P).2)
    (F : ℕ → ℕ → ℕ → ℕ → ℝ) (hF : ∀ p q, ABDSym (F p q)) (hpos : ∀ p q, ABDDef (F p q))
    (c : ℕ → ℝ) (s0 nx ny : ℕ) (R : Rule P nx ny) (NL : ℕ) :
    Definite P s0 (Coo.finalizeSym
      (plateFkCnumF (vecShape ℝ) (gaussTab ℝ) P F c s0 s0 nx ny NL)) ∧
    (P.r ≠ 0 → Definite P s0 (Coo.finalizeSym
      (cylFkCnumF (vecShape ℝ) (gaussTab ℝ) P F c s0 s0 nx ny NL))) := by
  have hpos' : ∀ p q, C13.ABDPos (F p q) := fun p q e => (hpos p q).nonneg e
  refine ⟨definite_of (fun d => (C13.numerical_psd (vecShape ℝ) P ha hb dx.le dy.le F hF hpos' c d s0
    nx ny NL).1) fun d => ?_, fun hr => definite_of (fun d => (C13.numerical_psd (vecShape ℝ) P ha hb
      dx.le dy.le F hF hpos' c d s0 nx ny NL).2 hr) fun d => ?_⟩
  · rw [plateFkCnum_quad _ _ P ha hb F hF]
    exact num_iff printed_hier hm hn ha hb hP dx dy 0 hpos c d s0 R NL
  · rw [cylFkCnum_quad _ _ P ha hb hr F hF]
    exact num_iff printed_hier hm hn ha hb hP dx dy _ hpos c d s0 R NL

/-! ## Closed form -/

theorem dens_continuous (F : ℕ → ℕ → ℝ) {e : ℕ → ℝ → ℝ → ℝ}
    (he : ∀ s < 6, Continuous fun p : ℝ × ℝ => e s p.1 p.2) :
    Continuous fun p : ℝ × ℝ => dens 6 F fun s => e s p.1 p.2 := by
  unfold Spec.dens
  refine continuous_finset_sum _ fun s hs => continuous_finset_sum _ fun t ht => ?_
  have h1 := he s (mem_range.1 hs)
  have h2 := he t (mem_range.1 ht)
  fun_prop

theorem lin_continuous {S : Shape ℝ} (hS : S.C2) (κ : ℝ) (P : Panel ℝ) (s0 : ℕ) (d : ℕ → ℝ) (s : ℕ) :
    Continuous fun p : ℝ × ℝ => lin κ S P s0 d s p.1 p.2 := by
  have hD := disp_continuous hS P s0 d
  unfold lin
  rcases s with _ | _ | _ | _ | _ | s
  · exact hD 0 1 0
  · exact (hD 1 0 1).add ((hD 2 0 0).const_mul κ)
  · exact (hD 0 0 1).add (hD 1 1 0)
  · exact (hD 2 2 0).neg
  · exact (hD 2 0 2).neg
  · exact (hD 2 1 1).const_mul (-2)

theorem ana_iff {S : Shape ℝ} {N : ℕ} (hC : S.C2) (hS : Hier S N) {P : Panel ℝ} (hm : P.m ≤ N)
    (hn : P.n ≤ N) (ha : 0 < P.a) (hb : 0 < P.b) (hP : Supported P) (κ : ℝ) {F : ℕ → ℕ → ℝ}
    (hpos : ABDDef F) (d : ℕ → ℝ) (s0 : ℕ) :
    (∫ x in (0 : ℝ)..P.a, ∫ y in (0 : ℝ)..P.b, dens 6 F fun s => lin κ S P s0 d s x y) = 0 ↔
    ∀ α < 3, Rest P s0 d α := by
  constructor
  · intro h
    refine rest_of_strain hS hm hn ha.ne' hb.ne' hP κ (dense_Icc P.m ha) (dense_Icc P.n hb) s0
      (fun _ => 0) d fun x hx y hy s hs => ?_
    rw [vkVar_zero]
    exact hpos.zero (integral2_zero ha hb (dens_continuous F fun s _ => lin_continuous hC κ P s0 d s)
      (fun x y => hpos.nonneg _) h x y hx hy) s hs
  · intro h
    have : ∀ x y, (dens 6 F fun s => lin κ S P s0 d s x y) = 0 := fun x y =>
      C13.dens_zero _ _ fun s _ => (strain_of_rest hS hm hn κ (fun _ => 0) h s x y).2
    simp only [this, intervalIntegral.integral_zero]

/-- Closed-form stiffness of the plate and of the cylinder with the exact integrals, any number of
terms. -/
theorem stiffness_ana {I : Tab ℝ} (hI : I.Exact (bardellShape ℝ) Mean.integral) (P : Panel ℝ)
    (ha : 0 < P.a) (hb : 0 < P.b) (hP : Supported P) (F : ℕ → ℕ → ℝ) (hF : ABDSym F)
    (hpos : ABDDef F) (s0 : ℕ) :
    Definite P s0 (Coo.finalizeSym (plateFk0 I P F s0 s0)) ∧
    (P.r ≠ 0 → Definite P s0 (Coo.finalizeSym (cylFk0 I P F s0 s0))) := by
  have hpos' : C13.ABDPos F := fun e => hpos.nonneg e
  have H := exact_hier (max P.m P.n)
  refine ⟨definite_of (fun d => (C13.analytical_psd hI bardellShape_C2 P ha hb F hF hpos' s0 d).1)
    fun d => ?_, fun hr => definite_of (fun d => (C13.analytical_psd hI bardellShape_C2 P ha hb F hF
      hpos' s0 d).2 hr) fun d => ?_⟩
  · rw [C08.plate_fk0_strain_energy hI bardellShape_C2 P ha.ne' hb.ne' F hF s0 d]
    simp only [donnell_lin bardellShape_C2]
    exact ana_iff bardellShape_C2 H (le_max_left _ _) (le_max_right _ _) ha hb hP 0 hpos d s0
  · rw [C11.cyl_fk0_strain_energy hI bardellShape_C2 P ha.ne' hb.ne' hr F hF s0 d]
    simp only [linStrain_lin bardellShape_C2]
    exact ana_iff bardellShape_C2 H (le_max_left _ _) (le_max_right _ _) ha hb hP _ hpos d s0

/-! ## Mass -/

/-- Twice the kinetic energy per unit area, in terms of the displacements and slopes. -/
noncomputable def kin (S : Shape ℝ) (P : Panel ℝ) (s0 : ℕ) (d : ℕ → ℝ) (off h rho x y : ℝ) : ℝ :=
  let D := fun α i j => disp S P s0 d α i j (2 / P.a * x - 1) (2 / P.b * y - 1)
  rho * h * ((D 0 0 0 + off * D 2 1 0) ^ 2 + (D 1 0 0 + off * D 2 0 1) ^ 2 + D 2 0 0 ^ 2)
    + rho * h * (c12 * h ^ 2) * (D 2 1 0 ^ 2 + D 2 0 1 ^ 2)

theorem c12_pos : (0 : ℝ) < c12 := by rw [C20.c12_eq]; norm_num

theorem kin_nonneg (S : Shape ℝ) (P : Panel ℝ) (s0 : ℕ) (d : ℕ → ℝ) (off : ℝ) {h rho : ℝ}
    (hh : 0 < h) (hr : 0 < rho) (x y : ℝ) : 0 ≤ kin S P s0 d off h rho x y := by
  have := c12_pos
  unfold kin
  positivity

theorem rest_of_kin {S : Shape ℝ} {N : ℕ} (hS : Hier S N) {P : Panel ℝ} (hm : P.m ≤ N)
    (hn : P.n ≤ N) (ha : P.a ≠ 0) (hb : P.b ≠ 0) {A B : Set ℝ}
    (hA : Dense P.m ((fun x => 2 / P.a * x - 1) '' A))
    (hB : Dense P.n ((fun y => 2 / P.b * y - 1) '' B)) (s0 : ℕ) (d : ℕ → ℝ) (off : ℝ)
    (hk : ∀ x ∈ A, ∀ y ∈ B, ∃ h > 0, ∃ rho > 0, kin S P s0 d off h rho x y = 0) :
    ∀ α < 3, Rest P s0 d α := by
  have hz : ∀ x ∈ A, ∀ y ∈ B,
      let D := fun α i j => disp S P s0 d α i j (2 / P.a * x - 1) (2 / P.b * y - 1)
      D 0 0 0 + off * D 2 1 0 = 0 ∧ D 1 0 0 + off * D 2 0 1 = 0 ∧ D 2 0 0 = 0 := by
    intro x hx y hy D
    obtain ⟨h, hh, rho, hr, h0⟩ := hk x hx y hy
    have hc := c12_pos
    have h1 : rho * h * ((D 0 0 0 + off * D 2 1 0) ^ 2 + (D 1 0 0 + off * D 2 0 1) ^ 2
        + D 2 0 0 ^ 2) = 0 := by
      have : (0 : ℝ) ≤ rho * h * (c12 * h ^ 2) * (D 2 1 0 ^ 2 + D 2 0 1 ^ 2) := by positivity
      have : (0 : ℝ) ≤ rho * h * ((D 0 0 0 + off * D 2 1 0) ^ 2 + (D 1 0 0 + off * D 2 0 1) ^ 2
        + D 2 0 0 ^ 2) := by positivity
      have h0' : rho * h * ((D 0 0 0 + off * D 2 1 0) ^ 2 + (D 1 0 0 + off * D 2 0 1) ^ 2
        + D 2 0 0 ^ 2) + rho * h * (c12 * h ^ 2) * (D 2 1 0 ^ 2 + D 2 0 1 ^ 2) = 0 := h0
      linarith
    have h2 := (mul_eq_zero.1 h1).resolve_left (mul_pos hr hh).ne'
    have s0' := sq_nonneg (D 0 0 0 + off * D 2 1 0)
    have s1' := sq_nonneg (D 1 0 0 + off * D 2 0 1)
    have s2' := sq_nonneg (D 2 0 0)
    exact ⟨pow_eq_zero_iff two_ne_zero |>.1 (by linarith),
      pow_eq_zero_iff two_ne_zero |>.1 (by linarith), pow_eq_zero_iff two_ne_zero |>.1 (by linarith)⟩
  have sep : ∀ α, (∀ x ∈ A, ∀ y ∈ B,
      disp S P s0 d α 0 0 (2 / P.a * x - 1) (2 / P.b * y - 1) = 0) → Rest P s0 d α := by
    intro α h
    refine disp_sep hS hm hn ha hb hA hB s0 d (p := 0) (q := 0) (by norm_num) (by norm_num) trivial
      trivial ?_
    rintro _ ⟨x, hx, rfl⟩ _ ⟨y, hy, rfl⟩
    exact h x hx y hy
  have r2 : Rest P s0 d 2 := sep 2 fun x hx y hy => (hz x hx y hy).2.2
  intro α hα
  match α, hα with
  | 0, _ =>
    refine sep 0 fun x hx y hy => ?_
    have := (hz x hx y hy).1
    simp only [disp_rest hS hm hn r2 (p := 1) (q := 0) (by norm_num) (by norm_num), mul_zero,
      add_zero] at this
    exact this
  | 1, _ =>
    refine sep 1 fun x hx y hy => ?_
    have := (hz x hx y hy).2.1
    simp only [disp_rest hS hm hn r2 (p := 0) (q := 1) (by norm_num) (by norm_num), mul_zero,
      add_zero] at this
    exact this
  | 2, _ => exact r2

theorem kin_of_rest {S : Shape ℝ} {N : ℕ} (hS : Hier S N) {P : Panel ℝ} (hm : P.m ≤ N)
    (hn : P.n ≤ N) {s0 : ℕ} {d : ℕ → ℝ} (h : ∀ α < 3, Rest P s0 d α) (off t rho x y : ℝ) :
    kin S P s0 d off t rho x y = 0 := by
  have z : ∀ {α p q : ℕ}, α < 3 → p ≤ 2 → q ≤ 2 → ∀ ξ η, disp S P s0 d α p q ξ η = 0 :=
    fun ha hp hq => disp_rest hS hm hn (h _ ha) hp hq
  simp [kin, z]

/-- Numerical mass with the printed functions and rules: no supports are needed. -/
theorem mass_num (P : Panel ℝ) (hm : P.m ≤ 30) (hn : P.n ≤ 30) (ha : P.a ≠ 0) (hb : P.b ≠ 0)
    (dx : (xdom P).1 < (xdom P).2) (dy : (ydom P).1 < (ydom P).2) (off : ℝ) (h rho : ℕ → ℕ → ℝ)
    (hh : ∀ p q, 0 < h p q) (hr : ∀ p q, 0 < rho p q) (s0 nx ny : ℕ) (R : Rule P nx ny) :
    Definite P s0 (Coo.finalizeSym (fkMnumF (vecShape ℝ) (gaussTab ℝ) P off h rho s0 s0 nx ny)) := by
  have e := fun d => fkMnum_quad (vecShape ℝ) (gaussTab ℝ) P ha hb off h rho d s0 nx ny
  have hx2 : 2 ≤ nx := le_trans (by norm_num) R.x4
  have hy2 : 2 ≤ ny := le_trans (by norm_num) R.y4
  refine definite_of (fun d => ?_) fun d => ?_
  · rw [e]
    exact C13.gaussP_nonneg C13.gaussTab_wt_nonneg _ _ _ dx.le dy.le fun p q x y =>
      kin_nonneg _ P s0 d off (hh p q) (hr p q) x y
  · rw [e]
    refine (gaussP_eq_zero ⟨hx2, R.x64⟩ ⟨hy2, R.y64⟩ P dx dy (g := fun p q x y =>
      kin (vecShape ℝ) P s0 d off (h p q) (rho p q) x y)
      fun p q x y => kin_nonneg _ P s0 d off (hh p q) (hr p q) x y).trans ?_
    constructor
    · intro hz
      refine rest_of_kin printed_hier hm hn ha hb (dense_nodes (m := P.m) hx2 R.x64 R.x4 R.xm ha dx)
        (dense_nodes (m := P.n) hy2 R.y64 R.y4 R.yn hb dy) s0 d off ?_
      rintro x ⟨p, hp, rfl⟩ y ⟨q, hq, rfl⟩
      exact ⟨h p q, hh p q, rho p q, hr p q, hz p hp q hq⟩
    · intro hz p _ q _
      exact kin_of_rest printed_hier hm hn hz _ _ _ _ _

/-- Closed-form mass of the plate and of the cylinder with the exact integrals. -/
theorem mass_ana {I : Tab ℝ} (hI : I.Exact (bardellShape ℝ) Mean.integral) (P : Panel ℝ)
    (ha : 0 < P.a) (hb : 0 < P.b) (off h rho : ℝ) (hh : 0 < h) (hr : 0 < rho) (s0 : ℕ) :
    Definite P s0 (Coo.finalizeSym (plateFkM I P off h rho s0 s0)) ∧
    Definite P s0 (Coo.finalizeSym (cylFkM I P off h rho s0 s0)) := by
  have H := exact_hier (max P.m P.n)
  have hm := le_max_left P.m P.n
  have hn := le_max_right P.m P.n
  have key : ∀ d, (∫ x in (0 : ℝ)..P.a, ∫ y in (0 : ℝ)..P.b,
      kin (bardellShape ℝ) P s0 d off h rho x y) = 0 ↔ ∀ α < 3, Rest P s0 d α := by
    intro d
    constructor
    · intro hz
      refine rest_of_kin H hm hn ha.ne' hb.ne' (dense_Icc P.m ha) (dense_Icc P.n hb) s0 d off
        fun x hx y hy => ⟨h, hh, rho, hr, integral2_zero ha hb ?_
          (fun x y => kin_nonneg _ P s0 d off hh hr x y) hz x y hx hy⟩
      have hD := disp_continuous bardellShape_C2 P s0 d
      have h1 := hD 0 0 0
      have h2 := hD 1 0 0
      have h3 := hD 2 0 0
      have h4 := hD 2 1 0
      have h5 := hD 2 0 1
      unfold kin
      fun_prop
    · intro hz
      simp only [kin_of_rest H hm hn hz, intervalIntegral.integral_zero]
  have e := fun d => C20.fkM_kinetic hI bardellShape_C2 P ha.ne' hb.ne' off h rho s0 d
  simp only [C20.kinetic_disp bardellShape_C2] at e
  have nn : ∀ d, 0 ≤ ∫ x in (0 : ℝ)..P.a, ∫ y in (0 : ℝ)..P.b,
      kin (bardellShape ℝ) P s0 d off h rho x y := fun d =>
    intervalIntegral.integral_nonneg ha.le fun x _ =>
      intervalIntegral.integral_nonneg hb.le fun y _ => kin_nonneg _ P s0 d off hh hr x y
  exact ⟨definite_of (fun d => (nn d).trans_eq (e d).1.symm) fun d => by rw [(e d).1]; exact key d,
    definite_of (fun d => (nn d).trans_eq (e d).2.symm) fun d => by rw [(e d).2]; exact key d⟩

/-! ## Equations -/

open Classical in
/-- The numbers of the amplitudes that are switched on. -/
noncomputable def actives (P : Panel ℝ) (s0 : ℕ) : Finset ℕ :=
  (range (s0 + 3 * P.m * P.n)).filter (Active P s0)

theorem mem_actives (P : Panel ℝ) (s0 k : ℕ) : k ∈ actives P s0 ↔ Active P s0 k := by
  classical
  simp only [actives, mem_filter, mem_range, and_iff_right_iff_imp]
  rintro ⟨α, hα, i, hi, j, hj, -, -, rfl⟩
  have h1 : j * P.m + i < P.n * P.m := by
    calc j * P.m + i < j * P.m + P.m := by omega
      _ = (j + 1) * P.m := by ring
      _ ≤ P.n * P.m := Nat.mul_le_mul_right _ hj
  have h2 : 3 * P.m * P.n = 3 * (P.n * P.m) := by ring
  omega

/-- A definite matrix gives exactly one set of amplitudes for every load: those that are switched off
are zero, and the equations of those that are switched on hold. -/
theorem solvable {P : Panel ℝ} {s0 : ℕ} {L : Coo ℝ} (hL : Definite P s0 L) (f : ℕ → ℝ) :
    ∃! d : ℕ → ℝ, (∀ k, ¬ Active P s0 k → d k = 0) ∧
      ∀ k, Active P s0 k → ∑ l ∈ actives P s0, Coo.entry L k l * d l = f k := by
  have := solve_unique L (actives P s0) (fun d _ h k hk => ?_) f
  · simpa only [mem_actives] using this
  · by_contra hne
    exact ((hL d).1 ⟨k, (mem_actives P s0 k).1 hk, hne⟩).ne' h

/-! ## Concrete cases -/

theorem lam_def : ABDDef C13.lam := by
  rintro e ⟨s, hs, hne⟩
  have h : dens 6 C13.lam e = 2 * (e 0 ^ 2 + e 1 ^ 2 + e 2 ^ 2 + e 3 ^ 2 + e 4 ^ 2 + e 5 ^ 2)
      + 2 * (e 0 * e 3) := by
    simp [Spec.dens, C13.lam, Finset.sum_range_succ]; ring
  rw [h]
  have hp : 0 < e s ^ 2 := by positivity
  have q := sq_nonneg (e 0 + e 3)
  have q0 := sq_nonneg (e 0)
  have q1 := sq_nonneg (e 1)
  have q2 := sq_nonneg (e 2)
  have q3 := sq_nonneg (e 3)
  have q4 := sq_nonneg (e 4)
  have q5 := sq_nonneg (e 5)
  match s, hs with
  | 0, _ => nlinarith
  | 1, _ => nlinarith
  | 2, _ => nlinarith
  | 3, _ => nlinarith
  | 4, _ => nlinarith
  | 5, _ => nlinarith

theorem panel_supported : Supported Witness.panel := by
  refine ⟨Or.inl ?_, Or.inl ⟨?_, Or.inl ?_⟩⟩ <;> simp [Bent, Held, Panel.xf, Witness.panel]

/-- The cylinder of `Witness.panel` with a coupled laminate: the tangent at any state. -/
example (c : ℕ → ℝ) : Definite Witness.panel 12 (Coo.finalizeSym (cylFkCnumF (vecShape ℝ)
    (gaussTab ℝ) Witness.panel (fun _ _ => C13.lam) c 12 12 6 8 1)) :=
  (stiffness_num Witness.panel (by simp [Witness.panel]) (by simp [Witness.panel])
    (by simp [Witness.panel]) (by simp [Witness.panel]) panel_supported
    (by simp [xdom, Witness.panel]) (by simp [ydom, Witness.panel]) _ (fun _ _ => C13.lam_sym)
    (fun _ _ => lam_def) c 12 6 8 ⟨by norm_num, by simp [Witness.panel], by norm_num, by norm_num,
      by simp [Witness.panel], by norm_num⟩ 1).2 (by simp [Witness.panel])

example : Definite Witness.panel 0 (Coo.finalizeSym
    (plateFk0 (Tab.of (bardellShape ℝ) Mean.integral) Witness.panel C13.lam 0 0)) :=
  (stiffness_ana (Tab.of_exact _ _) Witness.panel (by simp [Witness.panel]) (by simp [Witness.panel])
    panel_supported _ C13.lam_sym lam_def 0).1

example : Definite Witness.panel 3 (Coo.finalizeSym (fkMnumF (vecShape ℝ) (gaussTab ℝ)
    Witness.panel (1 / 5) (fun p q => 1 + p + q) (fun p _ => 2 + p) 3 3 6 8)) :=
  mass_num Witness.panel (by simp [Witness.panel]) (by simp [Witness.panel])
    (by simp [Witness.panel]) (by simp [Witness.panel])
    (by simp [xdom, Witness.panel]) (by simp [ydom, Witness.panel]) _ _ _
    (fun p q => by positivity) (fun p q => by positivity) 3 6 8 ⟨by norm_num, by simp [Witness.panel],
      by norm_num, by norm_num, by simp [Witness.panel], by norm_num⟩

/-- An amplitude that is switched on: the deflection term `(3, 4)`. -/
example : Active Witness.panel 12 (12 + 3 * (4 * 5 + 3) + 2) :=
  ⟨2, by norm_num, 3, by simp [Witness.panel], 4, by simp [Witness.panel],
    by simp [Witness.panel, Panel.xf, flag], by simp [flag], by simp [Witness.panel]⟩

end Verif.C76
