import Verif.Props.C11
import Verif.Props.C14
import Verif.Proofs.GaussTab
import Verif.Props.C06

/-!
# C13: the constitutive stiffness is positive semidefinite and vanishes on strain-free fields
-/

namespace Verif.C13

open Spec Model Finset

/-- A rule with non-negative weights. -/
theorem gaussP_nonneg {G : GaussTab ℝ} (hw : ∀ n i, i < n → 0 ≤ G.wt n i) (nx ny : ℕ) (P : Panel ℝ)
    (hx : (xdom P).1 ≤ (xdom P).2) (hy : (ydom P).1 ≤ (ydom P).2) {g : ℕ → ℕ → ℝ → ℝ → ℝ}
    (hg : ∀ p q x y, 0 ≤ g p q x y) : 0 ≤ gaussP G nx ny P g := by
  unfold gaussP gauss
  refine Finset.sum_nonneg fun p hp => Finset.sum_nonneg fun q hq => ?_
  have h1 := hw nx p (mem_range.1 hp)
  have h2 := hw ny q (mem_range.1 hq)
  have h3 : 0 ≤ ((xdom P).2 - (xdom P).1) / 2 := by linarith
  have h4 : 0 ≤ ((ydom P).2 - (ydom P).1) / 2 := by linarith
  exact mul_nonneg (mul_nonneg (mul_nonneg h1 h3) (mul_nonneg h2 h4)) (hg _ _ _ _)

/-- The tabulated weights are non-negative for every requested number of points. -/
theorem gaussTab_wt_nonneg (n i : ℕ) (hi : i < n) : 0 ≤ (gaussTab ℝ).wt n i := by
  by_cases h : 2 ≤ n ∧ n ≤ 64
  · exact (GaussCheck.wt_pos n h.1 h.2 i hi).le
  · have := C06.unsupported_zero n (by omega) i
    exact this.2.ge

/-- The laminate matrix is positive semidefinite. -/
def ABDPos (F : ℕ → ℕ → ℝ) : Prop := ∀ e : ℕ → ℝ, 0 ≤ dens 6 F e

/-- Analytical linear stiffness, plate and cylinder. -/
theorem analytical_psd {I : Tab ℝ} {S : Shape ℝ} (hI : I.Exact S Mean.integral)
    (hS : S.C2) (P : Panel ℝ) (ha : 0 < P.a) (hb : 0 < P.b) (F : ℕ → ℕ → ℝ)
    (hF : ABDSym F) (hpos : ABDPos F) (s0 : ℕ) (c : ℕ → ℝ) :
    0 ≤ Coo.quad (Coo.finalizeSym (plateFk0 I P F s0 s0)) c ∧
    (P.r ≠ 0 → 0 ≤ Coo.quad (Coo.finalizeSym (cylFk0 I P F s0 s0)) c) := by
  constructor
  · rw [C08.plate_fk0_strain_energy hI hS P ha.ne' hb.ne' F hF s0 c]
    exact intervalIntegral.integral_nonneg ha.le fun x _ =>
      intervalIntegral.integral_nonneg hb.le fun y _ => hpos _
  · intro hr
    rw [C11.cyl_fk0_strain_energy hI hS P ha.ne' hb.ne' hr F hF s0 c]
    exact intervalIntegral.integral_nonneg ha.le fun x _ =>
      intervalIntegral.integral_nonneg hb.le fun y _ => hpos _

/-- Numerical stiffness with the tabulated rules, linear (`NL ≠ 1`) or tangent (`NL = 1`), plate
and cylinder, any (non-negative) sub-domain, any laminate field. -/
theorem numerical_psd (S : Shape ℝ) (P : Panel ℝ) (ha : P.a ≠ 0) (hb : P.b ≠ 0)
    (hx : (xdom P).1 ≤ (xdom P).2) (hy : (ydom P).1 ≤ (ydom P).2)
    (F : ℕ → ℕ → ℕ → ℕ → ℝ) (hF : ∀ p q, ABDSym (F p q)) (hpos : ∀ p q, ABDPos (F p q))
    (c d : ℕ → ℝ) (s0 nx ny NL : ℕ) :
    0 ≤ Coo.quad (Coo.finalizeSym (plateFkCnumF S (gaussTab ℝ) P F c s0 s0 nx ny NL)) d ∧
    (P.r ≠ 0 →
      0 ≤ Coo.quad (Coo.finalizeSym (cylFkCnumF S (gaussTab ℝ) P F c s0 s0 nx ny NL)) d) := by
  constructor
  · rw [plateFkCnum_quad S _ P ha hb F hF]
    exact gaussP_nonneg gaussTab_wt_nonneg _ _ _ hx hy fun p q x y => hpos p q _
  · intro hr
    rw [cylFkCnum_quad S _ P ha hb hr F hF]
    exact gaussP_nonneg gaussTab_wt_nonneg _ _ _ hx hy fun p q x y => hpos p q _

theorem dens_zero (F : ℕ → ℕ → ℝ) (e : ℕ → ℝ) (h : ∀ s < 6, e s = 0) : dens 6 F e = 0 := by
  unfold Spec.dens
  exact Finset.sum_eq_zero fun s hs => Finset.sum_eq_zero fun t _ => by
    rw [h s (mem_range.1 hs)]; ring

/-- A field without strain has no energy (rigid-body modes lie in the kernel), analytical
matrices. -/
theorem analytical_strain_free {I : Tab ℝ} {S : Shape ℝ} (hI : I.Exact S Mean.integral)
    (hS : S.C2) (P : Panel ℝ) (ha : P.a ≠ 0) (hb : P.b ≠ 0) (F : ℕ → ℕ → ℝ)
    (hF : ABDSym F) (s0 : ℕ) (c : ℕ → ℝ) :
    ((∀ s < 6, ∀ x y, linStrain 0 S P s0 c s x y = 0) →
      Coo.quad (Coo.finalizeSym (plateFk0 I P F s0 s0)) c = 0) ∧
    (P.r ≠ 0 → (∀ s < 6, ∀ x y, linStrain (1 / P.r) S P s0 c s x y = 0) →
      Coo.quad (Coo.finalizeSym (cylFk0 I P F s0 s0)) c = 0) := by
  constructor
  · intro h
    rw [C08.plate_fk0_strain_energy hI hS P ha hb F hF s0 c]
    have : ∀ x y, (dens 6 F fun s => donnell 0 (u S P s0 c 0) (u S P s0 c 1) (u S P s0 c 2) s x y)
        = 0 := fun x y => dens_zero F _ fun s hs => h s hs x y
    simp [this]
  · intro hr h
    rw [C11.cyl_fk0_strain_energy hI hS P ha hb hr F hF s0 c]
    have : ∀ x y, (dens 6 F fun s => linStrain (1 / P.r) S P s0 c s x y)
        = 0 := fun x y => dens_zero F _ fun s hs => h s hs x y
    simp only [this, intervalIntegral.integral_zero]

/-- The same for the numerical matrices: linear strains (`NL ≠ 1`), or their variation at the
state `c` (`NL = 1`). -/
theorem numerical_strain_free {S : Shape ℝ} (hS : S.C2) (G : GaussTab ℝ) (P : Panel ℝ)
    (ha : P.a ≠ 0) (hb : P.b ≠ 0) (F : ℕ → ℕ → ℕ → ℕ → ℝ) (hF : ∀ p q, ABDSym (F p q))
    (c d : ℕ → ℝ) (s0 nx ny NL : ℕ) :
    ((∀ s < 6, ∀ x y, (if NL = 1 then dirDeriv (fun e => vkStrain 0 S P s0 e s x y) c d
        else linStrain 0 S P s0 d s x y) = 0) →
      Coo.quad (Coo.finalizeSym (plateFkCnumF S G P F c s0 s0 nx ny NL)) d = 0) ∧
    (P.r ≠ 0 → (∀ s < 6, ∀ x y, (if NL = 1 then
        dirDeriv (fun e => vkStrain (1 / P.r) S P s0 e s x y) c d
        else linStrain (1 / P.r) S P s0 d s x y) = 0) →
      Coo.quad (Coo.finalizeSym (cylFkCnumF S G P F c s0 s0 nx ny NL)) d = 0) := by
  simp only [dirDeriv_vkStrain hS, linStrain_lin hS]
  constructor
  · intro h
    rw [plateFkCnum_quad S _ P ha hb F hF]
    simp only [gaussP, gauss]
    exact Finset.sum_eq_zero fun p _ => Finset.sum_eq_zero fun q _ => by
      rw [dens_zero _ _ fun s hs => h s hs _ _, mul_zero]
  · intro hr h
    rw [cylFkCnum_quad S _ P ha hb hr F hF]
    simp only [gaussP, gauss]
    exact Finset.sum_eq_zero fun p _ => Finset.sum_eq_zero fun q _ => by
      rw [dens_zero _ _ fun s hs => h s hs _ _, mul_zero]

/-- A coupled laminate that is positive semidefinite: `A = 2·1`, `D = 2·1`, `B = diag(1, 0, 0)`. -/
def lam (s t : ℕ) : ℝ := if s = t then 2 else if s + t = 3 ∧ s * t = 0 then 1 else 0

theorem lam_sym : ABDSym lam where
  symm s t := by
    unfold lam
    simp only [eq_comm (a := s) (b := t), Nat.add_comm s t, Nat.mul_comm s t]
  b12 := by norm_num [lam]
  b16 := by norm_num [lam]
  b26 := by norm_num [lam]

theorem lam_pos : ABDPos lam := by
  intro e
  have : dens 6 lam e = 2 * (e 0 ^ 2 + e 1 ^ 2 + e 2 ^ 2 + e 3 ^ 2 + e 4 ^ 2 + e 5 ^ 2)
      + 2 * (e 0 * e 3) := by
    simp [Spec.dens, lam, Finset.sum_range_succ]; ring
  rw [this]
  nlinarith [sq_nonneg (e 0 + e 3), sq_nonneg (e 0), sq_nonneg (e 1), sq_nonneg (e 2),
    sq_nonneg (e 3), sq_nonneg (e 4), sq_nonneg (e 5)]

example (c d : ℕ → ℝ) : 0 ≤ Coo.quad (Coo.finalizeSym
    (cylFkCnumF (Spec.bardellShape ℝ) (gaussTab ℝ) Witness.panel (fun _ _ => lam) c 3 3 6 8 1)) d :=
  (numerical_psd _ Witness.panel (by simp [Witness.panel]) (by simp [Witness.panel])
    (by simp [xdom, Witness.panel]) (by simp [ydom, Witness.panel]) _ (fun _ _ => lam_sym)
    (fun _ _ => lam_pos) c d 3 6 8 1).2 (by simp [Witness.panel])

end Verif.C13
