import Verif.Proofs.StiffEnergy
import Verif.Proofs.Joint
import Verif.Proofs.Bardell
import Verif.Spec.Beam
import Verif.Spec.Witness

/-!
# C48: the 1D blade stiffener is a beam attached to the skin along `y = ys`
-/

namespace Verif.C48

open Spec Model

/-- Stiffness of the flange: beam energy with the axial strain taken at the distance `df`. -/
theorem stiffness_energy {I : Tab ℝ} {S : Shape ℝ} (hI : I.Exact S Mean.integral) (hS : S.C2)
    (P : Panel ℝ) (ha : P.a ≠ 0) (hb : P.b ≠ 0) (ys bf df E1 F1 S1 Jxx : ℝ) (s : ℕ) (c : ℕ → ℝ) :
    Coo.quad (Coo.finalizeSym (fkCf S I P ys bf df E1 F1 S1 Jxx s s)) c
      = beamEnergy P.a bf E1 F1 S1 Jxx
          (fun x => dx (u S P s c 0) x ys + df * dx (dx (u S P s c 2)) x ys)
          (fun x => dx (dx (u S P s c 2)) x ys)
          (fun x => dy (dx (u S P s c 2)) x ys) := by
  rw [fkCf_energy hI hS.inMean P ha hb, ← Mean.integral.smul, ← integral_line P.a ha, beamEnergy]
  · refine intervalIntegral.integral_congr fun x _ => ?_
    simp only [← phys_zero, dx_phys hS _ _ _ _ _ _ zero_lt_two, dx_phys hS _ _ _ _ _ _ one_lt_two,
      dy_phys hS _ _ _ _ _ _ zero_lt_two, phys, mul_div_right_comm, Nat.reduceAdd]
  · have e : ∀ α p q, Continuous fun ξ => disp S P s c α p q ξ (2 * ys / P.b - 1) :=
      fun α p q => disp_memX (M := Mean.integral) hS.inMean P s c α p q _
    exact ((((continuous_const.mul (((e _ _ _).add (continuous_const.mul (e _ _ _))).pow 2)).add
      (continuous_const.mul ((e _ _ _).pow 2))).add (continuous_const.mul ((e _ _ _).pow 2))).sub
      ((continuous_const.mul ((e _ _ _).add (continuous_const.mul (e _ _ _)))).mul (e _ _ _)))

/-- It is non-negative for an admissible section. -/
theorem stiffness_nonneg {I : Tab ℝ} {S : Shape ℝ} (hI : I.Exact S Mean.integral) (hS : S.C2)
    (P : Panel ℝ) (ha : 0 < P.a) (hb : P.b ≠ 0) (ys bf df E1 F1 S1 Jxx : ℝ) (hbf : 0 ≤ bf)
    (hE : 0 ≤ E1) (hF : 0 ≤ F1) (hJ : 0 ≤ Jxx) (hS1 : S1 ^ 2 ≤ E1 * Jxx) (s : ℕ) (c : ℕ → ℝ) :
    0 ≤ Coo.quad (Coo.finalizeSym (fkCf S I P ys bf df E1 F1 S1 Jxx s s)) c := by
  rw [stiffness_energy hI hS P ha.ne' hb]
  refine intervalIntegral.integral_nonneg ha.le fun x _ => mul_nonneg hbf ?_
  beta_reduce
  generalize dx (u S P s c 0) x ys + df * dx (dx (u S P s c 2)) x ys = e
  generalize dx (dx (u S P s c 2)) x ys = k
  generalize dy (dx (u S P s c 2)) x ys = t
  have h2 : 0 ≤ F1 * k ^ 2 := by positivity
  have h1 : 0 ≤ E1 * e ^ 2 + Jxx * t ^ 2 - 2 * S1 * e * t := by
    rcases eq_or_lt_of_le hE with h | h
    · have : S1 = 0 := by
        have : S1 ^ 2 ≤ 0 := by rw [← h] at hS1; simpa using hS1
        exact pow_eq_zero_iff two_ne_zero |>.1 (le_antisymm this (sq_nonneg _))
      subst this; rw [← h]
      have : 0 ≤ Jxx * t ^ 2 := by positivity
      linarith
    · have : 0 ≤ E1 * (E1 * e ^ 2 + Jxx * t ^ 2 - 2 * S1 * e * t) := by
        have e1 : E1 * (E1 * e ^ 2 + Jxx * t ^ 2 - 2 * S1 * e * t)
            = (E1 * e - S1 * t) ^ 2 + (E1 * Jxx - S1 ^ 2) * t ^ 2 := by ring
        rw [e1]
        have := mul_nonneg (sub_nonneg.2 hS1) (sq_nonneg t)
        positivity
      exact nonneg_of_mul_nonneg_right this h
  linarith

/-- The conditions on the section cannot be dropped: if every beam energy is non-negative, the
section is admissible. -/
theorem section_necessary {bf E1 F1 S1 Jxx len : ℝ} (hl : 0 < len) (hbf : 0 < bf)
    (h : ∀ e k t : ℝ, 0 ≤ beamEnergy len bf E1 F1 S1 Jxx (fun _ => e) (fun _ => k) (fun _ => t)) :
    0 ≤ E1 ∧ 0 ≤ F1 ∧ 0 ≤ Jxx ∧ S1 ^ 2 ≤ E1 * Jxx := by
  have key : ∀ e k t : ℝ, 0 ≤ E1 * e ^ 2 + F1 * k ^ 2 + Jxx * t ^ 2 - 2 * S1 * e * t := by
    intro e k t
    have := h e k t
    rw [beamEnergy, intervalIntegral.integral_const, smul_eq_mul, sub_zero] at this
    exact nonneg_of_mul_nonneg_right (nonneg_of_mul_nonneg_right this hl) hbf
  have h1 := key 1 0 0
  have h2 := key 0 1 0
  have h3 := key 0 0 1
  norm_num at h1 h2 h3
  refine ⟨h1, h2, h3, ?_⟩
  rcases eq_or_lt_of_le h1 with h4 | h4
  · by_contra hc
    rw [← h4, zero_mul, not_le] at hc
    have hne : S1 ≠ 0 := by rintro rfl; simp at hc
    have := key ((Jxx + 1) / (2 * S1)) 0 1
    rw [← h4] at this
    have e : (0 : ℝ) * ((Jxx + 1) / (2 * S1)) ^ 2 + F1 * 0 ^ 2 + Jxx * 1 ^ 2
        - 2 * S1 * ((Jxx + 1) / (2 * S1)) * 1 = -1 := by field_simp; ring
    rw [e] at this
    linarith
  · have := key S1 0 E1
    have e : E1 * S1 ^ 2 + F1 * 0 ^ 2 + Jxx * E1 ^ 2 - 2 * S1 * S1 * E1
        = E1 * (E1 * Jxx - S1 ^ 2) := by ring
    rw [e] at this
    linarith [nonneg_of_mul_nonneg_right this h4]

/-- Geometric stiffness of the flange: work of the axial force through `w,x`. -/
theorem geometric_energy {I : Tab ℝ} {S : Shape ℝ} (hI : I.Exact S Mean.integral) (hS : S.C2)
    (P : Panel ℝ) (ha : P.a ≠ 0) (ys Fx : ℝ) (s : ℕ) (c : ℕ → ℝ) :
    Coo.quad (Coo.finalizeSym (fkGf S I P ys Fx s s)) c
      = beamGeo P.a Fx (fun x => dx (u S P s c 2) x ys) := by
  have e : Continuous fun ξ => disp S P s c 2 1 0 ξ (2 * ys / P.b - 1) :=
      disp_memX (M := Mean.integral) hS.inMean P s c 2 1 0 _
  rw [fkGf_energy hI hS.inMean P ha, ← Mean.integral.smul _ _ (e.fun_mul e), ← integral_line P.a ha,
    beamGeo]
  refine intervalIntegral.integral_congr fun x _ => ?_
  simp only [u_dx hS, mul_div_right_comm]
  ring

/-- Tension stiffens, compression softens. -/
theorem geometric_sign {I : Tab ℝ} {S : Shape ℝ} (hI : I.Exact S Mean.integral) (hS : S.C2)
    (P : Panel ℝ) (ha : 0 < P.a) (ys Fx : ℝ) (s : ℕ) (c : ℕ → ℝ) :
    (0 ≤ Fx → 0 ≤ Coo.quad (Coo.finalizeSym (fkGf S I P ys Fx s s)) c) ∧
    (Fx ≤ 0 → Coo.quad (Coo.finalizeSym (fkGf S I P ys Fx s s)) c ≤ 0) := by
  rw [geometric_energy hI hS P ha.ne', beamGeo, intervalIntegral.integral_const_mul]
  have : 0 ≤ ∫ x in (0 : ℝ)..P.a, (dx (u S P s c 2) x ys) ^ 2 :=
    intervalIntegral.integral_nonneg ha.le fun x _ => sq_nonneg _
  exact ⟨fun h => mul_nonneg h this, fun h => mul_nonpos_of_nonpos_of_nonneg h this⟩

/-- Concrete case with coupling `S1 ≠ 0`. -/
example (c : ℕ → ℝ) :
    0 ≤ Coo.quad (Coo.finalizeSym (fkCf (bardellShape ℝ) (Tab.of (bardellShape ℝ) Mean.integral)
      Witness.panel (1 / 3) (1 / 10) (7 / 100) 50 2 3 (1 / 4) 9 9)) c :=
  stiffness_nonneg (Tab.of_exact _ _) bardellShape_C2 Witness.panel (by simp [Witness.panel])
    (by simp [Witness.panel]) _ _ _ _ _ _ _ (by norm_num) (by norm_num) (by norm_num)
    (by norm_num) (by norm_num) 9 c

example (c : ℕ → ℝ) :
    Coo.quad (Coo.finalizeSym (fkGf (bardellShape ℝ) (Tab.of (bardellShape ℝ) Mean.integral)
      Witness.panel (1 / 3) (-100) 9 9)) c ≤ 0 :=
  (geometric_sign (Tab.of_exact _ _) bardellShape_C2 Witness.panel (by simp [Witness.panel])
    _ _ 9 c).2 (by norm_num)

end Verif.C48
