import Verif.Proofs.FieldOut
import Verif.Proofs.RealField
import Verif.Proofs.ShearWitness
import Verif.Spec.VonKarman
import Verif.Spec.Witness

/-!
# C31: strain output equals the derivatives of the displacement output

Holds for the linear strains, and for five of the six components with `NLgeom`; the shear strain
with `NLgeom` has twice the product of the slopes.
-/

namespace Verif.C31

open Model Spec Finset

/-- Curvature of the panel: `r = 0` stands for a plate. -/
noncomputable def curv (P : Panel ℝ) : ℝ := if P.r = 0 then 0 else 1 / P.r

/-- The displacement output as functions of the point. -/
noncomputable def outU (S : Shape ℝ) (P : Panel ℝ) (c : ℕ → ℝ) (x y : ℝ) : ℝ := (uvwAt S P c x y).u

/-- See `outU`. -/
noncomputable def outV (S : Shape ℝ) (P : Panel ℝ) (c : ℕ → ℝ) (x y : ℝ) : ℝ := (uvwAt S P c x y).v

/-- See `outU`. -/
noncomputable def outW (S : Shape ℝ) (P : Panel ℝ) (c : ℕ → ℝ) (x y : ℝ) : ℝ := (uvwAt S P c x y).w

theorem out_eq (S : Shape ℝ) (P : Panel ℝ) (c : ℕ → ℝ) :
    outU S P c = phys S P 0 c 0 0 0 ∧ outV S P c = phys S P 0 c 1 0 0 ∧
      outW S P c = phys S P 0 c 2 0 0 := by
  refine ⟨?_, ?_, ?_⟩ <;> funext x y <;>
    simp only [outU, outV, outW, uvwAt_field, rowField, phys, mul_div_right_comm]

/-- The plain double sums behind all components. -/
def gs (S : Shape ℝ) (P : Panel ℝ) (c : ℕ → ℝ) (α p q : ℕ) (ξ η : ℝ) : ℝ :=
  ∑ i ∈ range P.m, ∑ j ∈ range P.n,
    c (dof P.m i j + α) * (S.D p i ξ (P.xf α) * S.D q j η (P.yf α))

theorem phys_gs (S : Shape ℝ) (P : Panel ℝ) (c : ℕ → ℝ) (α p q : ℕ) (x y : ℝ) :
    phys S P 0 c α p q x y
      = (2 / P.a) ^ p * (2 / P.b) ^ q * gs S P c α p q (2 / P.a * x - 1) (2 / P.b * y - 1) := by
  simp only [phys, disp, gs, dof, zero_add]

theorem gs_mul (S : Shape ℝ) (P : Panel ℝ) (c : ℕ → ℝ) (α p q : ℕ) (ξ η k : ℝ) :
    k * gs S P c α p q ξ η = ∑ i ∈ range P.m, ∑ j ∈ range P.n,
      k * (c (dof P.m i j + α) * (S.D p i ξ (P.xf α) * S.D q j η (P.yf α))) := by
  simp only [gs, mul_sum]

/-- What `strain` returns, for both values of the flag, every component and every radius. -/
theorem strain_eq {S : Shape ℝ} (hS : S.C2) (P : Panel ℝ) (c : ℕ → ℝ) (NL : ℕ) (s : ℕ) (x y : ℝ) :
    strainAt S P c NL s x y
      = donnell (curv P) (outU S P c) (outV S P c) (outW S P c) s x y
        + NL * (match s with
          | 0 => dx (outW S P c) x y ^ 2 / 2
          | 1 => dy (outW S P c) x y ^ 2 / 2
          | 2 => 2 * (dx (outW S P c) x y * dy (outW S P c) x y)
          | _ => 0) := by
  obtain ⟨hu, hv, hw⟩ := out_eq S P c
  rw [hu, hv, hw]
  have wx : acc P.m P.n (fun i j => c (dof P.m i j + 2) * S.fp i (2 * x / P.a - 1) P.xw
      * S.f j (2 * y / P.b - 1) P.yw) = gs S P c 2 1 0 (2 / P.a * x - 1) (2 / P.b * y - 1) := by
    simp only [acc_eq, gs, mul_div_right_comm, mul_assoc]; rfl
  have wy : acc P.m P.n (fun i j => c (dof P.m i j + 2) * S.f i (2 * x / P.a - 1) P.xw
      * S.fp j (2 * y / P.b - 1) P.yw) = gs S P c 2 0 1 (2 / P.a * x - 1) (2 / P.b * y - 1) := by
    simp only [acc_eq, gs, mul_div_right_comm, mul_assoc]; rfl
  match s with
  | 0 =>
    simp only [donnell, dx_phys hS _ _ _ _ _ _ zero_lt_two, phys_gs]
    simp only [strainAt, wx]
    generalize hW : gs S P c 2 1 0 (2 / P.a * x - 1) (2 / P.b * y - 1) = W
    have : (2 / P.a) ^ (0 + 1) * (2 / P.b) ^ 0 * gs S P c 0 (0 + 1) 0 (2 / P.a * x - 1)
        (2 / P.b * y - 1) + NL * (((2 / P.a) ^ (0 + 1) * (2 / P.b) ^ 0 * gs S P c 2 (0 + 1) 0
          (2 / P.a * x - 1) (2 / P.b * y - 1)) ^ 2 / 2)
        = (2 / P.a) * gs S P c 0 1 0 (2 / P.a * x - 1) (2 / P.b * y - 1)
          + (NL * 2 / (P.a * P.a) * W) * gs S P c 2 1 0 (2 / P.a * x - 1) (2 / P.b * y - 1) := by
      simp only [zero_add, hW]; ring
    refine Eq.trans ?_ (this.symm.trans (by simp only [zero_add, hW]))
    rw [gs_mul, gs_mul, acc_eq, ← sum_add_distrib]
    refine sum_congr rfl fun i _ => ?_
    rw [← sum_add_distrib]
    refine sum_congr rfl fun j _ => ?_
    simp only [Shape.D, Panel.xf, Panel.yf, mul_div_right_comm 2 x, mul_div_right_comm 2 y]
    ring
  | 1 =>
    simp only [donnell, dy_phys hS _ _ _ _ _ _ zero_lt_two, phys_gs]
    simp only [strainAt, wy]
    generalize hW : gs S P c 2 0 1 (2 / P.a * x - 1) (2 / P.b * y - 1) = W
    have : (2 / P.a) ^ 0 * (2 / P.b) ^ (0 + 1) * gs S P c 1 0 (0 + 1) (2 / P.a * x - 1)
        (2 / P.b * y - 1) + curv P * ((2 / P.a) ^ 0 * (2 / P.b) ^ 0 * gs S P c 2 0 0
          (2 / P.a * x - 1) (2 / P.b * y - 1))
        + NL * (((2 / P.a) ^ 0 * (2 / P.b) ^ (0 + 1) * gs S P c 2 0 (0 + 1)
          (2 / P.a * x - 1) (2 / P.b * y - 1)) ^ 2 / 2)
        = (2 / P.b) * gs S P c 1 0 1 (2 / P.a * x - 1) (2 / P.b * y - 1)
          + curv P * gs S P c 2 0 0 (2 / P.a * x - 1) (2 / P.b * y - 1)
          + (NL * 2 / (P.b * P.b) * W) * gs S P c 2 0 1 (2 / P.a * x - 1) (2 / P.b * y - 1) := by
      simp only [zero_add, hW]; ring
    refine Eq.trans ?_ (this.symm.trans (by simp only [zero_add, hW]))
    rw [gs_mul, gs_mul, gs_mul, acc_eq, ← sum_add_distrib, ← sum_add_distrib]
    refine sum_congr rfl fun i _ => ?_
    rw [← sum_add_distrib, ← sum_add_distrib]
    refine sum_congr rfl fun j _ => ?_
    simp only [Shape.D, Panel.xf, Panel.yf, mul_div_right_comm 2 x, mul_div_right_comm 2 y, curv]
    by_cases hr : P.r = 0
    · simp only [hr, ne_eq, not_true_eq_false, if_false, if_true]; ring
    · simp only [hr, ne_eq, not_false_eq_true, if_false, if_true]; ring
  | 2 =>
    simp only [donnell, dx_phys hS _ _ _ _ _ _ zero_lt_two, dy_phys hS _ _ _ _ _ _ zero_lt_two,
      phys_gs]
    simp only [strainAt, wx, wy]
    generalize hW : gs S P c 2 1 0 (2 / P.a * x - 1) (2 / P.b * y - 1) = W
    generalize hV : gs S P c 2 0 1 (2 / P.a * x - 1) (2 / P.b * y - 1) = V
    have : (2 / P.a) ^ 0 * (2 / P.b) ^ (0 + 1) * gs S P c 0 0 (0 + 1) (2 / P.a * x - 1)
        (2 / P.b * y - 1) + (2 / P.a) ^ (0 + 1) * (2 / P.b) ^ 0 * gs S P c 1 (0 + 1) 0
          (2 / P.a * x - 1) (2 / P.b * y - 1)
        + NL * (2 * (((2 / P.a) ^ (0 + 1) * (2 / P.b) ^ 0 * gs S P c 2 (0 + 1) 0
          (2 / P.a * x - 1) (2 / P.b * y - 1)) * ((2 / P.a) ^ 0 * (2 / P.b) ^ (0 + 1)
            * gs S P c 2 0 (0 + 1) (2 / P.a * x - 1) (2 / P.b * y - 1))))
        = (2 / P.b) * gs S P c 0 0 1 (2 / P.a * x - 1) (2 / P.b * y - 1)
          + (2 / P.a) * gs S P c 1 1 0 (2 / P.a * x - 1) (2 / P.b * y - 1)
          + (NL * 4 / (P.a * P.b) * V) * gs S P c 2 1 0 (2 / P.a * x - 1) (2 / P.b * y - 1)
          + (NL * 4 / (P.a * P.b) * W) * gs S P c 2 0 1 (2 / P.a * x - 1) (2 / P.b * y - 1) := by
      simp only [zero_add, hW, hV]; ring
    refine Eq.trans ?_ (this.symm.trans (by simp only [zero_add, hW, hV]))
    rw [gs_mul, gs_mul, gs_mul, gs_mul, acc_eq, ← sum_add_distrib, ← sum_add_distrib,
      ← sum_add_distrib]
    refine sum_congr rfl fun i _ => ?_
    rw [← sum_add_distrib, ← sum_add_distrib, ← sum_add_distrib]
    refine sum_congr rfl fun j _ => ?_
    simp only [Shape.D, Panel.xf, Panel.yf, mul_div_right_comm 2 x, mul_div_right_comm 2 y]
    ring
  | 3 =>
    simp only [donnell, dx_phys hS _ _ _ _ _ _ zero_lt_two,
      dx_phys hS _ _ _ _ (0 + 1) _ one_lt_two, phys_gs, mul_zero, add_zero]
    rw [← neg_mul, gs_mul, strainAt, acc_eq]
    refine sum_congr rfl fun i _ => sum_congr rfl fun j _ => ?_
    simp only [Shape.D, Panel.xf, Panel.yf, mul_div_right_comm 2 x, mul_div_right_comm 2 y]
    ring
  | 4 =>
    simp only [donnell, dy_phys hS _ _ _ _ _ _ zero_lt_two,
      dy_phys hS _ _ _ _ _ (0 + 1) one_lt_two, phys_gs, mul_zero, add_zero]
    rw [← neg_mul, gs_mul, strainAt, acc_eq]
    refine sum_congr rfl fun i _ => sum_congr rfl fun j _ => ?_
    simp only [Shape.D, Panel.xf, Panel.yf, mul_div_right_comm 2 x, mul_div_right_comm 2 y]
    ring
  | n + 5 =>
    simp only [donnell, dx_phys hS _ _ _ _ _ _ zero_lt_two,
      dy_phys hS _ _ _ _ _ _ zero_lt_two, phys_gs, mul_zero, add_zero]
    rw [← mul_assoc, gs_mul, strainAt, acc_eq]
    refine sum_congr rfl fun i _ => sum_congr rfl fun j _ => ?_
    simp only [Shape.D, Panel.xf, Panel.yf, mul_div_right_comm 2 x, mul_div_right_comm 2 y]
    ring
    all_goals simp

/-- Without `NLgeom` the output is the linear Donnell strain of the displacement output. -/
theorem strain_linear {S : Shape ℝ} (hS : S.C2) (P : Panel ℝ) (c : ℕ → ℝ) (s : ℕ) (x y : ℝ) :
    strainAt S P c 0 s x y
      = donnell (curv P) (outU S P c) (outV S P c) (outW S P c) s x y := by
  rw [strain_eq hS, Nat.cast_zero, zero_mul, add_zero]

example : strainAt (bardellShape ℝ) Witness.panel (fun k => k) 0 1 1 (1 / 2)
    = dy (outV (bardellShape ℝ) Witness.panel (fun k => k)) 1 (1 / 2)
      + curv Witness.panel * outW (bardellShape ℝ) Witness.panel (fun k => k) 1 (1 / 2) :=
  strain_linear bardellShape_C2 _ _ 1 _ _

/-- The full claim for `NLgeom`: the output is the von Karman strain of the displacement output. -/
def StrainClaim (S : Shape ℝ) (P : Panel ℝ) (c : ℕ → ℝ) : Prop :=
  ∀ s x y, strainAt S P c 1 s x y
    = vonKarman (curv P) (outU S P c) (outV S P c) (outW S P c) s x y

/-- Holds for every component except the shear strain.  Missing: component 2, see
`strain_shear_violated`. -/
theorem strain_nonlinear_partial {S : Shape ℝ} (hS : S.C2) (P : Panel ℝ) (c : ℕ → ℝ) (s : ℕ)
    (hs : s ≠ 2) (x y : ℝ) :
    strainAt S P c 1 s x y
      = vonKarman (curv P) (outU S P c) (outV S P c) (outW S P c) s x y := by
  rw [strain_eq hS, Nat.cast_one, one_mul]
  match s with
  | 0 => rfl
  | 1 => rfl
  | 2 => exact absurd rfl hs
  | n + 3 => rfl

/-- The shear strain exceeds the von Karman value by the product of the slopes. -/
theorem strain_shear_excess {S : Shape ℝ} (hS : S.C2) (P : Panel ℝ) (c : ℕ → ℝ) (x y : ℝ) :
    strainAt S P c 1 2 x y
      = vonKarman (curv P) (outU S P c) (outV S P c) (outW S P c) 2 x y
        + dx (outW S P c) x y * dy (outW S P c) x y := by
  rw [strain_eq hS, Nat.cast_one, one_mul, vonKarman]
  ring

/-- So the claim holds exactly for the states in which one slope vanishes at every point. -/
theorem strain_claim_iff {S : Shape ℝ} (hS : S.C2) (P : Panel ℝ) (c : ℕ → ℝ) :
    StrainClaim S P c ↔ ∀ x y, dx (outW S P c) x y * dy (outW S P c) x y = 0 := by
  constructor
  · intro h x y
    have := h 2 x y
    rw [strain_shear_excess hS] at this
    linarith
  · intro h s x y
    by_cases hs : s = 2
    · rw [hs, strain_shear_excess hS, h, add_zero]
    · exact strain_nonlinear_partial hS P c s hs x y

/-- The claim fails for a one-term plate. -/
theorem strain_shear_violated :
    ¬ StrainClaim (bardellShape ℝ) ShearWitness.plate ShearWitness.c := by
  rw [strain_claim_iff bardellShape_C2]
  intro h
  have h1 := h 1 1
  rw [(out_eq _ _ _).2.2, dx_phys bardellShape_C2 _ _ _ _ _ _ zero_lt_two,
    dy_phys bardellShape_C2 _ _ _ _ _ _ zero_lt_two] at h1
  have h2 := ShearWitness.slopes_eq 1 1
  unfold ShearWitness.slopes at h2
  unfold phys at h1
  simp only [zero_add] at h1
  rw [h1] at h2
  norm_num at h2

end Verif.C31
