import Verif.Props.C21
import Verif.Proofs.StiffEnergy
import Verif.Proofs.Joint
import Verif.Spec.Beam

/-!
# C49: mass of the 1D blade stiffener — violated

The terms coupling the in-plane motion with the rotations carry a factor 2 too much
(`bladestiff1d_clt_donnell_bardell.pyx` lines 236, 244, 248, 252).
-/

namespace Verif.C49

open Spec Model Finset

/-- The kinetic energy integrated over the height of the blade. -/
theorem bladeKinetic_eq (len rho hf H bf : ℝ) (u v w rx ry : ℝ → ℝ) :
    bladeKinetic len rho hf H bf u v w rx ry = ∫ x in (0 : ℝ)..len, bf * hf * rho *
      (u x ^ 2 + v x ^ 2 + w x ^ 2 + 2 * (bf / 2 + H) * (u x * rx x + v x * ry x)
        + 1 / 12 * (4 * (bf * bf) + 12 * bf * H + 12 * H ^ 2) * (rx x ^ 2 + ry x ^ 2)) := by
  unfold bladeKinetic
  refine intervalIntegral.integral_congr fun x _ => ?_
  beta_reduce
  generalize u x = U
  generalize v x = V
  generalize w x = W
  generalize rx x = p
  generalize ry x = q
  have e : ∀ z : ℝ, rho * hf * ((U + z * p) ^ 2 + (V + z * q) ^ 2 + W ^ 2)
      = rho * hf * (U ^ 2 + V ^ 2 + W ^ 2) + (2 * rho * hf * (U * p + V * q)) * z
        + rho * hf * (p ^ 2 + q ^ 2) * z ^ 2 := fun z => by ring
  simp only [e]
  rw [intervalIntegral.integral_add, intervalIntegral.integral_add,
    intervalIntegral.integral_const, intervalIntegral.integral_const_mul,
    intervalIntegral.integral_const_mul, integral_id, integral_pow]
  · simp only [smul_eq_mul]; norm_num; ring
  all_goals apply Continuous.intervalIntegrable; fun_prop

theorem bladeKinetic_nonneg {len rho hf H bf : ℝ} (hl : 0 ≤ len) (hr : 0 ≤ rho) (hh : 0 ≤ hf)
    (hb : 0 ≤ bf) (u v w rx ry : ℝ → ℝ) : 0 ≤ bladeKinetic len rho hf H bf u v w rx ry :=
  intervalIntegral.integral_nonneg hl fun x _ =>
    intervalIntegral.integral_nonneg (by linarith) fun z _ => by positivity

/-- The quadratic form of the matrix the code builds. -/
theorem mass_form {I : Tab ℝ} {S : Shape ℝ} (hI : I.Exact S Mean.integral) (hS : S.C2)
    (P : Panel ℝ) (ha : P.a ≠ 0) (hb' : P.b ≠ 0) (ys rho h hb hf bf df : ℝ) (s : ℕ) (c : ℕ → ℝ) :
    Coo.quad (Coo.finalizeSym (fkMf S I P ys rho h hb hf bf df s s)) c
      = ∫ x in (0 : ℝ)..P.a, bf * hf * rho * (u S P s c 0 x ys ^ 2 + u S P s c 1 x ys ^ 2
        + 6 * sixth * u S P s c 2 x ys ^ 2
        + 4 * df * (u S P s c 0 x ys * dx (u S P s c 2) x ys
            + u S P s c 1 x ys * dy (u S P s c 2) x ys)
        + sixth / 2 * (4 * (bf * bf) + 6 * bf * (h + 2 * hb) + 3 * (h + 2 * hb) ^ 2)
            * (dx (u S P s c 2) x ys ^ 2 + dy (u S P s c 2) x ys ^ 2)) := by
  rw [fkMf_energy hI hS.inMean P ha hb', ← Mean.integral.smul, ← integral_line P.a ha]
  · refine intervalIntegral.integral_congr fun x _ => ?_
    simp only [u_disp, u_dx hS, u_dy hS, mul_div_right_comm]
  · have e : ∀ α p q, Continuous fun ξ => disp S P s c α p q ξ (2 * ys / P.b - 1) :=
      fun α p q => disp_memX (M := Mean.integral) hS.inMean P s c α p q _
    exact ((((((e _ _ _).pow 2).add ((e _ _ _).pow 2)).add
      (continuous_const.mul ((e _ _ _).pow 2))).add
      (continuous_const.mul (((e _ _ _).mul (e _ _ _)).add ((e _ _ _).mul (e _ _ _))))).add
      (continuous_const.mul (((e _ _ _).pow 2).add ((e _ _ _).pow 2))))

/-- The full claim, for a blade of thickness `hf`, height `bf`, under a base of thickness `hb` and
a skin of thickness `h`; `df` as computed by `BladeStiff1D._rebuild`
(`panels/stiffener/bladestiff1d.py` line 95). -/
def IsKineticEnergy (rho h hb hf bf : ℝ) : Prop :=
  ∀ (P : Panel ℝ), 0 < P.a → 0 < P.b → ∀ (ys : ℝ) (s : ℕ) (c : ℕ → ℝ),
    let S := bardellShape ℝ
    Coo.quad (Coo.finalizeSym (fkMf S (Tab.of S Mean.integral) P ys rho h hb hf bf
        (bf / 2 + hb + h / 2) s s)) c
      = bladeKinetic P.a rho hf (hb + h / 2) bf (fun x => u S P s c 0 x ys)
          (fun x => u S P s c 1 x ys) (fun x => u S P s c 2 x ys)
          (fun x => dx (u S P s c 2) x ys) (fun x => dy (u S P s c 2) x ys)

/-- A plate of length `a` with one term per direction. -/
def plate (a : ℝ) : Panel ℝ where
  a := a
  b := 2
  r := 1
  m := 1
  n := 1
  x1 := -1
  x2 := -1
  y1 := -1
  y2 := -1
  xu := ⟨1, 0, 0, 0⟩
  xv := ⟨1, 0, 0, 0⟩
  xw := ⟨1, 0, 0, 0⟩
  yu := ⟨1, 0, 0, 0⟩
  yv := ⟨1, 0, 0, 0⟩
  yw := ⟨1, 0, 0, 0⟩

/-- `u = k w`, `v = 0`. -/
def vec (k : ℝ) (i : ℕ) : ℝ := if i = 0 then k else if i = 1 then 0 else 1

theorem fpf0 : (Tab.of (bardellShape ℝ) Mean.integral).ffp 0 0 ⟨1, 0, 0, 0⟩ ⟨1, 0, 0, 0⟩
    = - 1 / 2 := C21.ffp0

theorem fpfp0 : (Tab.of (bardellShape ℝ) Mean.integral).fpfp 0 0 ⟨1, 0, 0, 0⟩ ⟨1, 0, 0, 0⟩
    = 3 / 5 := by
  simp only [Tab.of, Mean.integral, C21.fp0]
  have e : ∀ x : ℝ, (-3 / 4 + 3 / 4 * x ^ 2) * (-3 / 4 + 3 / 4 * x ^ 2)
      = 9 / 16 + (-9 / 8) * x ^ 2 + 9 / 16 * x ^ 4 := fun x => by ring
  simp only [e]
  rw [intervalIntegral.integral_add, intervalIntegral.integral_add]
  · simp only [intervalIntegral.integral_const, intervalIntegral.integral_const_mul,
      integral_pow, smul_eq_mul]
    norm_num
  all_goals apply Continuous.intervalIntegrable; fun_prop

theorem quad_plate (a k rho h hb hf bf df : ℝ) (ha : a ≠ 0) :
    Coo.quad (Coo.finalizeSym (fkMf (bardellShape ℝ) (Tab.of (bardellShape ℝ) Mean.integral)
      (plate a) 0 rho h hb hf bf df 0 0)) (vec k)
      = bf * hf * rho * (13 / 35 * a * k ^ 2 - 2 * df * k + sixth * (78 / 35 * a
        + 3 / 5 * (4 * (bf * bf) + 6 * bf * (h + 2 * hb) + 3 * (h + 2 * hb) ^ 2) / a)) := by
  have hI := Tab.of_exact (bardellShape ℝ) Mean.integral
  rw [fkMf, Coo.quad_finalizeSym_pad]
  unfold Coo.quad
  rw [finalize_symBuild_full (pat := Gen.Blade1D.fkMf_pat) 0 (plate a).m (plate a).n pat7_ok
    (fkMf_swap (sym_of_exact' hI) _ _ bf df h hb hf rho 0 _ _), bilin_cross_pair]
  have g0 : (bardellShape ℝ).f 0 (-1) ⟨1, 0, 0, 0⟩ = 1 := by rw [C21.f0]; norm_num
  have g1 : (bardellShape ℝ).fp 0 (-1) ⟨1, 0, 0, 0⟩ = 0 := by rw [C21.fp0]; norm_num
  simp only [pairSum, plate, Finset.range_one, Finset.singleton_product_singleton,
    Finset.sum_singleton, blk, Gen.Blade1D.fkMf_pat, Gen.Blade1D.fkMf, Gen.Blade1D.fkMf_00,
    Gen.Blade1D.fkMf_02, Gen.Blade1D.fkMf_11, Gen.Blade1D.fkMf_12, Gen.Blade1D.fkMf_20,
    Gen.Blade1D.fkMf_21, Gen.Blade1D.fkMf_22, List.map_cons, List.map_nil, List.sum_cons,
    List.sum_nil, dof, vec, mul_zero, zero_div, zero_sub, g0, g1, C21.ff0, fpf0, fpfp0, sixth]
  norm_num
  field_simp
  ring

/-- However the blade is dimensioned, there is a plate and a motion for which the "kinetic energy"
of the flange is negative. -/
theorem never_psd (rho h hb hf bf : ℝ) (hr : 0 < rho) (hh : 0 ≤ h) (hhb : 0 ≤ hb) (hhf : 0 < hf)
    (hbf : 0 < bf) :
    ∃ (P : Panel ℝ) (ys : ℝ) (c : ℕ → ℝ), 0 < P.a ∧ 0 < P.b ∧
      Coo.quad (Coo.finalizeSym (fkMf (bardellShape ℝ)
        (Tab.of (bardellShape ℝ) Mean.integral) P ys rho h hb hf bf (bf / 2 + hb + h / 2) 0 0)) c
        < 0 := by
  have hd : 0 < bf / 2 + hb + h / 2 := by positivity
  refine ⟨plate (bf / 2 + hb + h / 2), 0, vec (35 / 13), hd, by simp [plate], ?_⟩
  rw [quad_plate _ _ _ _ _ _ _ _ hd.ne']
  refine mul_neg_of_pos_of_neg (by positivity) ?_
  set d := bf / 2 + hb + h / 2 with hdef
  have hQ : 4 * (bf * bf) + 6 * bf * (h + 2 * hb) + 3 * (h + 2 * hb) ^ 2 ≤ 16 * d ^ 2 := by
    rw [hdef]
    have : 0 ≤ (h + 2 * hb) * (2 * bf + (h + 2 * hb)) := by positivity
    nlinarith
  have hQ' : 3 / 5 * (4 * (bf * bf) + 6 * bf * (h + 2 * hb) + 3 * (h + 2 * hb) ^ 2) / d
      ≤ 48 / 5 * d := by
    rw [div_le_iff₀ hd]; nlinarith
  have hs : (sixth : ℝ) = 166666666666667 / 1000000000000000 := rfl
  rw [hs]
  nlinarith

/-- Hence the matrix is no kinetic energy at all. -/
theorem not_kinetic_energy (rho h hb hf bf : ℝ) (hr : 0 < rho) (hh : 0 ≤ h) (hhb : 0 ≤ hb)
    (hhf : 0 < hf) (hbf : 0 < bf) : ¬ IsKineticEnergy rho h hb hf bf := by
  intro H
  obtain ⟨P, ys, c, ha, hb', hneg⟩ := never_psd rho h hb hf bf hr hh hhb hhf hbf
  rw [H P ha hb' ys 0 c] at hneg
  exact absurd (bladeKinetic_nonneg ha.le hr.le hhf.le hbf.le _ _ _ _ _) (not_le.2 hneg)

/-- What holds: for motions without in-plane displacements along the stiffener the matrix is the
kinetic energy, up to the printed decimal for `1/6`.  Missing: motions with `u` or `v` different
from zero on the line, for which the coupling terms are doubled. -/
theorem mass_kinetic_partial {I : Tab ℝ} {S : Shape ℝ} (hI : I.Exact S Mean.integral) (hS : S.C2)
    (P : Panel ℝ) (ha : 0 < P.a) (hb' : P.b ≠ 0) (ys rho h hb hf bf df : ℝ) (hr : 0 ≤ rho)
    (hhf : 0 ≤ hf) (hbf : 0 ≤ bf) (s : ℕ) (c : ℕ → ℝ)
    (h0 : ∀ x, u S P s c 0 x ys = 0) (h1 : ∀ x, u S P s c 1 x ys = 0) :
    Coo.quad (Coo.finalizeSym (fkMf S I P ys rho h hb hf bf df s s)) c
      = 6 * sixth * bladeKinetic P.a rho hf (hb + h / 2) bf (fun x => u S P s c 0 x ys)
          (fun x => u S P s c 1 x ys) (fun x => u S P s c 2 x ys)
          (fun x => dx (u S P s c 2) x ys) (fun x => dy (u S P s c 2) x ys) ∧
    0 ≤ Coo.quad (Coo.finalizeSym (fkMf S I P ys rho h hb hf bf df s s)) c := by
  have e : Coo.quad (Coo.finalizeSym (fkMf S I P ys rho h hb hf bf df s s)) c
      = 6 * sixth * bladeKinetic P.a rho hf (hb + h / 2) bf (fun x => u S P s c 0 x ys)
          (fun x => u S P s c 1 x ys) (fun x => u S P s c 2 x ys)
          (fun x => dx (u S P s c 2) x ys) (fun x => dy (u S P s c 2) x ys) := by
    rw [mass_form hI hS P ha.ne' hb', bladeKinetic_eq, ← intervalIntegral.integral_const_mul]
    refine intervalIntegral.integral_congr fun x _ => ?_
    simp only [h0, h1]
    ring
  refine ⟨e, ?_⟩
  rw [e]
  refine mul_nonneg (by unfold sixth; positivity) (bladeKinetic_nonneg ha.le hr hhf hbf _ _ _ _ _)

/-- With the coupling halved the code would be right: the exact deviation of the matrix. -/
theorem mass_deviation_partial {I : Tab ℝ} {S : Shape ℝ} (hI : I.Exact S Mean.integral) (hS : S.C2)
    (P : Panel ℝ) (ha : P.a ≠ 0) (hb' : P.b ≠ 0) (ys rho h hb hf bf : ℝ) (s : ℕ) (c : ℕ → ℝ) :
    Coo.quad (Coo.finalizeSym (fkMf S I P ys rho h hb hf bf ((bf / 2 + hb + h / 2) / 2) s s)) c
      = bladeKinetic P.a rho hf (hb + h / 2) bf (fun x => u S P s c 0 x ys)
          (fun x => u S P s c 1 x ys) (fun x => u S P s c 2 x ys)
          (fun x => dx (u S P s c 2) x ys) (fun x => dy (u S P s c 2) x ys)
        + (6 * sixth - 1) * ∫ x in (0 : ℝ)..P.a, bf * hf * rho * (u S P s c 2 x ys ^ 2
            + 1 / 12 * (4 * (bf * bf) + 12 * bf * (hb + h / 2) + 12 * (hb + h / 2) ^ 2)
              * (dx (u S P s c 2) x ys ^ 2 + dy (u S P s c 2) x ys ^ 2)) := by
  rw [mass_form hI hS P ha hb', bladeKinetic_eq, ← intervalIntegral.integral_const_mul,
    ← intervalIntegral.integral_add]
  · refine intervalIntegral.integral_congr fun x _ => ?_
    ring
  all_goals
    apply Continuous.intervalIntegrable
    have e : ∀ α, Continuous fun x : ℝ => u S P s c α x ys := fun α =>
      u_line hS P s c α continuous_id continuous_const
    have e1 : Continuous fun x : ℝ => dx (u S P s c 2) x ys :=
      dx_line hS P s c 2 continuous_id continuous_const
    have e2 : Continuous fun x : ℝ => dy (u S P s c 2) x ys :=
      dy_line hS P s c 2 continuous_id continuous_const
  · exact continuous_const.mul ((((((e 0).pow 2).add ((e 1).pow 2)).add ((e 2).pow 2)).add
      (continuous_const.mul (((e 0).mul e1).add ((e 1).mul e2)))).add
      (continuous_const.mul ((e1.pow 2).add (e2.pow 2))))
  · exact continuous_const.mul (continuous_const.mul (((e 2).pow 2).add
      (continuous_const.mul ((e1.pow 2).add (e2.pow 2)))))

/-- The hypotheses of `never_psd` are met by an ordinary blade. -/
example : ¬ IsKineticEnergy 2700 (2 / 1000) (1 / 1000) (3 / 1000) (25 / 1000) :=
  not_kinetic_energy _ _ _ _ _ (by norm_num) (by norm_num) (by norm_num) (by norm_num)
    (by norm_num)

/-- The hypotheses of `mass_kinetic_partial` are met by a motion in `w` only. -/
example :
    0 ≤ Coo.quad (Coo.finalizeSym (fkMf (bardellShape ℝ) (Tab.of (bardellShape ℝ) Mean.integral)
      (plate 3) (1 / 3) 2700 (2 / 1000) 0 (3 / 1000) (25 / 1000) (27 / 2000) 0 0)) (vec 0) :=
  (mass_kinetic_partial (Tab.of_exact _ _) bardellShape_C2 (plate 3) (by norm_num [plate])
    (by norm_num [plate]) _ _ _ _ _ _ _ (by norm_num) (by norm_num) (by norm_num) 0 _
    (fun x => by simp [u, plate, vec]) (fun x => by simp [u, plate, vec])).2

end Verif.C49
