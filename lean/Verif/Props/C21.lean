import Verif.Props.C20
import Mathlib.Analysis.SpecialFunctions.Integrals.Basic

/-!
# C21: mass and stiffness use the same offset convention — violated

The stiffness is built on `exx = u,x - z w,xx` (C08: `kxx = -w,xx`), i.e. on the kinematics
`u - z w,x`, with `z` running through the offset laminate `[d - h/2, d + h/2]`.  The mass
matrices use `u + z w,x` instead.
-/

namespace Verif.C21

open Spec Model Finset

/-- Twice the kinetic energy per unit area of the kinematics `u - z w,x`, `v - z w,y`, `w` over the
thickness of the laminate with offset `d`. -/
noncomputable def thickness (rho h d : ℝ) (u v w : ℝ → ℝ → ℝ) (x y : ℝ) : ℝ :=
  ∫ z in (d - h / 2)..(d + h / 2),
    rho * ((u x y - z * dx w x y) ^ 2 + (v x y - z * dy w x y) ^ 2 + w x y ^ 2)

theorem thickness_eq (rho h d : ℝ) (u v w : ℝ → ℝ → ℝ) (x y : ℝ) :
    thickness rho h d u v w x y = rho * h * ((u x y - d * dx w x y) ^ 2
      + (v x y - d * dy w x y) ^ 2 + w x y ^ 2 + 1 / 12 * h ^ 2 * (dx w x y ^ 2 + dy w x y ^ 2)) := by
  unfold thickness
  generalize u x y = U
  generalize v x y = V
  generalize w x y = W
  generalize dx w x y = p
  generalize dy w x y = q
  have e : ∀ z : ℝ, rho * ((U - z * p) ^ 2 + (V - z * q) ^ 2 + W ^ 2)
      = rho * (U ^ 2 + V ^ 2 + W ^ 2) + (-2 * rho * (U * p + V * q)) * z
        + rho * (p ^ 2 + q ^ 2) * z ^ 2 := fun z => by ring
  simp only [e]
  rw [intervalIntegral.integral_add, intervalIntegral.integral_add,
    intervalIntegral.integral_const, intervalIntegral.integral_const_mul,
    intervalIntegral.integral_const_mul, integral_id, integral_pow]
  · simp only [smul_eq_mul]; norm_num; ring
  all_goals apply Continuous.intervalIntegrable; fun_prop

/-- Up to the printed decimal for `1/12`, the code's energy density with offset `-d` is that of the
kinematics `u - z w,x` through the laminate with offset `d`. -/
theorem kinetic_thickness (rho h d : ℝ) (hr : 0 ≤ rho) (hh : 0 ≤ h) (u v w : ℝ → ℝ → ℝ) (x y : ℝ) :
    C20.kinetic rho h (-d) u v w x y ≤ thickness rho h d u v w x y ∧
    thickness rho h d u v w x y ≤ (1 + 5 / 10 ^ 16) * C20.kinetic rho h (-d) u v w x y := by
  rw [thickness_eq, C20.kinetic]
  generalize u x y = U
  generalize v x y = V
  generalize w x y = W
  generalize dx w x y = p
  generalize dy w x y = q
  have h0 : 0 ≤ rho * h * (h ^ 2 * (p ^ 2 + q ^ 2)) := by positivity
  have h1 : 0 ≤ rho * h * ((U - d * p) ^ 2 + (V - d * q) ^ 2 + W ^ 2) := by positivity
  constructor
  · nlinarith [h0]
  · nlinarith [h0, h1]

/-- The claim for a given offset: the mass matrix is the kinetic energy of the stiffness kinematics
through the offset laminate (with the printed decimal for `1/12`, cf. `kinetic_thickness`), for every
plate. -/
def SameOffset (d : ℝ) : Prop :=
  ∀ (P : Panel ℝ), 0 < P.a → 0 < P.b → ∀ (h rho : ℝ), 0 < h → 0 < rho → ∀ (s0 : ℕ) (c : ℕ → ℝ),
    let S := bardellShape ℝ
    Coo.quad (Coo.finalizeSym (plateFkM (Tab.of S Mean.integral) P d h rho s0 s0)) c
      = ∫ x in (0 : ℝ)..P.a, ∫ y in (0 : ℝ)..P.b,
          C20.kinetic rho h (-d) (u S P s0 c 0) (u S P s0 c 1) (u S P s0 c 2) x y

/-- What does hold, for every offset: the matrix is the energy of the laminate at the *opposite*
offset, for plates and cylinders. -/
theorem opposite_offset {I : Tab ℝ} {S : Shape ℝ} (hI : I.Exact S Mean.integral) (hS : S.C2)
    (P : Panel ℝ) (ha : P.a ≠ 0) (hb : P.b ≠ 0) (d h rho : ℝ) (s0 : ℕ) (c : ℕ → ℝ) :
    let T := ∫ x in (0 : ℝ)..P.a, ∫ y in (0 : ℝ)..P.b,
      C20.kinetic rho h (-d) (u S P s0 c 0) (u S P s0 c 1) (u S P s0 c 2) x y
    Coo.quad (Coo.finalizeSym (plateFkM I P (-d) h rho s0 s0)) c = T ∧
    Coo.quad (Coo.finalizeSym (cylFkM I P (-d) h rho s0 s0)) c = T :=
  C20.fkM_kinetic hI hS P ha hb (-d) h rho s0 c

/-- A plate with one term per direction, clamped at the second edges. -/
def plate1 : Panel ℝ where
  a := 2
  b := 2
  r := 1
  m := 1
  n := 1
  x1 := -1
  x2 := -1
  y1 := -1
  y2 := -1
  xu := ⟨1, 0, 0, 0⟩
  xv := ⟨1, 0, 0, 0⟩
  xw := ⟨1, 0, 0, 0⟩
  yu := ⟨1, 0, 0, 0⟩
  yv := ⟨1, 0, 0, 0⟩
  yw := ⟨1, 0, 0, 0⟩

/-- `u = w`, `v = 0`. -/
def c1 (k : ℕ) : ℝ := if k = 1 then 0 else 1

theorem f0 (x : ℝ) : (bardellShape ℝ).f 0 x ⟨1, 0, 0, 0⟩ = 1 / 2 - 3 / 4 * x + 1 / 4 * x ^ 3 := by
  simp [bardellShape, flag, bardell, pev]; ring

theorem fp0 (x : ℝ) : (bardellShape ℝ).fp 0 x ⟨1, 0, 0, 0⟩ = - 3 / 4 + 3 / 4 * x ^ 2 := by
  simp [bardellShape, flag, bardell, pev, pder, pderFrom]; ring

theorem ff0 : (Tab.of (bardellShape ℝ) Mean.integral).ff 0 0 ⟨1, 0, 0, 0⟩ ⟨1, 0, 0, 0⟩ = 26 / 35 := by
  simp only [Tab.of, Mean.integral, f0]
  have e : ∀ x : ℝ, (1 / 2 - 3 / 4 * x + 1 / 4 * x ^ 3) * (1 / 2 - 3 / 4 * x + 1 / 4 * x ^ 3)
      = 1 / 4 + (- 3 / 4) * x ^ 1 + 9 / 16 * x ^ 2 + 1 / 4 * x ^ 3 + (- 3 / 8) * x ^ 4
        + 1 / 16 * x ^ 6 := fun x => by ring
  simp only [e]
  rw [intervalIntegral.integral_add, intervalIntegral.integral_add, intervalIntegral.integral_add,
    intervalIntegral.integral_add, intervalIntegral.integral_add]
  · simp only [intervalIntegral.integral_const, intervalIntegral.integral_const_mul,
      integral_pow, smul_eq_mul]
    norm_num
  all_goals apply Continuous.intervalIntegrable; fun_prop

theorem ffp0 : (Tab.of (bardellShape ℝ) Mean.integral).ffp 0 0 ⟨1, 0, 0, 0⟩ ⟨1, 0, 0, 0⟩
    = - 1 / 2 := by
  simp only [Tab.of, Mean.integral, f0, fp0]
  have e : ∀ x : ℝ, (1 / 2 - 3 / 4 * x + 1 / 4 * x ^ 3) * (- 3 / 4 + 3 / 4 * x ^ 2)
      = - 3 / 8 + 9 / 16 * x ^ 1 + 3 / 8 * x ^ 2 + (- 3 / 4) * x ^ 3
        + 3 / 16 * x ^ 5 := fun x => by ring
  simp only [e]
  rw [intervalIntegral.integral_add, intervalIntegral.integral_add, intervalIntegral.integral_add,
    intervalIntegral.integral_add]
  · simp only [intervalIntegral.integral_const, intervalIntegral.integral_const_mul,
      integral_pow, smul_eq_mul]
    norm_num
  all_goals apply Continuous.intervalIntegrable; fun_prop

/-- The dependence on the sign of the offset, on the witness. -/
theorem quad_diff (d : ℝ) :
    Coo.quad (Coo.finalizeSym (plateFkM (Tab.of (bardellShape ℝ) Mean.integral) plate1 d 1 1 0 0)) c1
      - Coo.quad (Coo.finalizeSym (plateFkM (Tab.of (bardellShape ℝ) Mean.integral) plate1
          (-d) 1 1 0 0)) c1 = - 52 / 35 * d := by
  rw [plateFkM, plateFkM, Coo.quad_finalizeSym_pad, Coo.quad_finalizeSym_pad,
    Coo.quad_finalizeSym, Coo.quad_finalizeSym]
  simp [symBuild, symBlock, dof, plate1, Gen.PlateAna.fkM_pat, Coo.symW, Gen.PlateAna.fkM, c1,
    Gen.PlateAna.fkM_00, Gen.PlateAna.fkM_02, Gen.PlateAna.fkM_22, ff0, ffp0]
  ring

/-- The claim holds exactly for laminates without offset. -/
theorem same_offset_iff (d : ℝ) : SameOffset d ↔ d = 0 := by
  constructor
  · intro h
    have h1 := h plate1 (by norm_num [plate1]) (by norm_num [plate1]) 1 1 one_pos one_pos 0 c1
    have h2 := (opposite_offset (Tab.of_exact _ _) bardellShape_C2 plate1 (by norm_num [plate1])
      (by norm_num [plate1]) d 1 1 0 c1).1
    have h3 := quad_diff d
    simp only at h1
    rw [h1, ← h2, sub_self] at h3
    linarith
  · rintro rfl
    intro P ha hb h rho _ _ s0 c S
    have := (C20.fkM_kinetic (Tab.of_exact S _) bardellShape_C2 P ha.ne' hb.ne' 0 h rho s0 c).1
    simpa using this

/-- Violation: with an offset the mass matrix does not belong to the kinematics of the stiffness. -/
theorem same_offset_violated : ¬ ∀ d, SameOffset d :=
  fun h => one_ne_zero ((same_offset_iff 1).1 (h 1))

/-- Full claim: `∀ d, SameOffset d`.  Proved part: laminates without offset (plates and
cylinders, analytical and numerical).  Missing part: false, see `same_offset_violated`. -/
theorem same_offset_partial {I : Tab ℝ} {S : Shape ℝ} (hI : I.Exact S Mean.integral) (hS : S.C2)
    (P : Panel ℝ) (ha : P.a ≠ 0) (hb : P.b ≠ 0) (h rho : ℝ) (s0 : ℕ) (c : ℕ → ℝ)
    (G : GaussTab ℝ) (nx ny : ℕ) :
    let k := C20.kinetic rho h (-0) (u S P s0 c 0) (u S P s0 c 1) (u S P s0 c 2)
    let T := ∫ x in (0 : ℝ)..P.a, ∫ y in (0 : ℝ)..P.b, k x y
    Coo.quad (Coo.finalizeSym (plateFkM I P 0 h rho s0 s0)) c = T ∧
    Coo.quad (Coo.finalizeSym (cylFkM I P 0 h rho s0 s0)) c = T ∧
    Coo.quad (Coo.finalizeSym (fkMnumF S G P 0 (fun _ _ => h) (fun _ _ => rho) s0 s0 nx ny)) c
      = gaussP G nx ny P fun _ _ x y => k x y := by
  intro k T
  obtain ⟨h1, h2⟩ := C20.fkM_kinetic hI hS P ha hb 0 h rho s0 c
  refine ⟨?_, ?_, ?_⟩
  · rw [h1]; simp [T, k]
  · rw [h2]; simp [T, k]
  · rw [fkMnum_quad S G P ha hb]; simp only [k, C20.kinetic_disp hS, neg_zero]

example (c : ℕ → ℝ) : let S := Spec.bardellShape ℝ
    Coo.quad (Coo.finalizeSym (plateFkM (Tab.of S Mean.integral) Witness.panel 0 (1/10) 7 12 12)) c
      = ∫ x in (0 : ℝ)..3, ∫ y in (0 : ℝ)..1, C20.kinetic 7 (1/10) (-0) (u S Witness.panel 12 c 0)
          (u S Witness.panel 12 c 1) (u S Witness.panel 12 c 2) x y :=
  (same_offset_partial (Tab.of_exact _ _) bardellShape_C2 Witness.panel (by simp [Witness.panel])
    (by simp [Witness.panel]) (1/10) 7 12 c ⟨fun _ _ => 0, fun _ _ => 0⟩ 0 0).1

end Verif.C21
