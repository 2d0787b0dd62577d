import Verif.Proofs.Joint
import Verif.Proofs.Bardell
import Verif.Spec.Witness

/-!
# C41: skin-skin connections penalise exactly the displacement and slope jumps

`P1` is the panel that comes first in the global vector.  The two edges are
run through with the same natural coordinate, so that the point `y` of the first panel meets the
point `(b2 / b1) y` of the second one (the same point when the edges have the same length).
The printed expressions divide by `kt`, hence `kt ≠ 0`.
-/

namespace Verif.C41

open Spec Model

/-- Energy of the `SSxcte` connection. -/
theorem SSxcte_joint {I : Tab ℝ} {S : Shape ℝ} (hI : I.Exact S Mean.integral) (hS : S.C2)
    (P1 P2 : Panel ℝ) (hP1 : P1.a ≠ 0) (hbP1 : P1.b ≠ 0) (hP2 : P2.a ≠ 0) (hbP2 : P2.b ≠ 0)
    (kt kr x1 x2 : ℝ) (hkt : kt ≠ 0) (s1 s2 : ℕ) (hs : s1 + 3 * (P1.m * P1.n) ≤ s2) (c : ℕ → ℝ) :
    Coo.quad (Coo.finalizeSym (connSSxcte S I P1 P2 kt kr x1 x2 s1 s2)) c
      = jointEnergy P1.b kt kr
          (fun y => u S P1 s1 c 0 x1 y - u S P2 s2 c 0 x2 (P2.b / P1.b * y))
          (fun y => u S P1 s1 c 1 x1 y - u S P2 s2 c 1 x2 (P2.b / P1.b * y))
          (fun y => u S P1 s1 c 2 x1 y - u S P2 s2 c 2 x2 (P2.b / P1.b * y))
          (fun y => dx (u S P1 s1 c 2) x1 y - dx (u S P2 s2 c 2) x2 (P2.b / P1.b * y)) := by
  rw [SSxcte_energy hI hS.inMean P1 P2 hP1 hbP1 hP2 hbP2 kt kr x1 x2 hkt s1 s2 hs c,
    ← integral_line P1.b hbP1, jointEnergy]
  refine intervalIntegral.integral_congr fun y _ => ?_
  simp only [u_disp, u_dx hS, line_point _ _ _ hbP1 hbP2, mul_div_right_comm]
  ring

/-- It is non-negative, and zero exactly when the two sides fit along the whole joint. -/
theorem SSxcte_kernel {I : Tab ℝ} {S : Shape ℝ} (hI : I.Exact S Mean.integral) (hS : S.C2)
    (P1 P2 : Panel ℝ) (hP1 : 0 < P1.a) (hbP1 : 0 < P1.b) (hP2 : 0 < P2.a) (hbP2 : 0 < P2.b)
    (kt kr x1 x2 : ℝ) (hkt : 0 < kt) (hkr : 0 < kr) (s1 s2 : ℕ)
    (hs : s1 + 3 * (P1.m * P1.n) ≤ s2) (c : ℕ → ℝ) :
    let E := Coo.quad (Coo.finalizeSym (connSSxcte S I P1 P2 kt kr x1 x2 s1 s2)) c
    0 ≤ E ∧ (E = 0 ↔ ∀ y ∈ Set.Icc 0 P1.b,
        u S P1 s1 c 0 x1 y = u S P2 s2 c 0 x2 (P2.b / P1.b * y) ∧
        u S P1 s1 c 1 x1 y = u S P2 s2 c 1 x2 (P2.b / P1.b * y) ∧
        u S P1 s1 c 2 x1 y = u S P2 s2 c 2 x2 (P2.b / P1.b * y) ∧
        dx (u S P1 s1 c 2) x1 y = dx (u S P2 s2 c 2) x2 (P2.b / P1.b * y)) := by
  intro E
  have hE : E = _ := SSxcte_joint hI hS P1 P2 hP1.ne' hbP1.ne' hP2.ne' hbP2.ne' kt kr x1 x2 hkt.ne'
    s1 s2 hs c
  rw [hE]
  refine ⟨jointEnergy_nonneg hbP1.le hkt.le hkr.le _ _ _ _, ?_⟩
  have c1 : ∀ α, Continuous fun y : ℝ => u S P1 s1 c α x1 y := fun α =>
    u_line hS P1 s1 c α continuous_const continuous_id
  have c2 : ∀ α, Continuous fun y : ℝ => u S P2 s2 c α x2 (P2.b / P1.b * y) := fun α =>
    u_line hS P2 s2 c α continuous_const (continuous_const_mul _)
  have d1 : Continuous fun y : ℝ => dx (u S P1 s1 c 2) x1 y :=
    dx_line hS P1 s1 c 2 continuous_const continuous_id
  have d2 : Continuous fun y : ℝ => dx (u S P2 s2 c 2) x2 (P2.b / P1.b * y) :=
    dx_line hS P2 s2 c 2 continuous_const (continuous_const_mul _)
  rw [jointEnergy_zero hbP1 hkt hkr ((c1 0).fun_sub (c2 0)) ((c1 1).fun_sub (c2 1)) ((c1 2).fun_sub (c2 2)) (d1.fun_sub d2)]
  refine forall₂_congr fun y _ => ?_
  rw [sub_eq_zero, sub_eq_zero, sub_eq_zero, sub_eq_zero]

/-- Concrete case: panels of 5 × 7 and 4 × 6 terms, exact tables of the Bardell functions. -/
example (c : ℕ → ℝ) :
    0 ≤ Coo.quad (Coo.finalizeSym (connSSxcte (bardellShape ℝ) (Tab.of (bardellShape ℝ) Mean.integral)
      Witness.panel Witness.panel2 1000 7 3 0 12 120)) c :=
  (SSxcte_kernel (Tab.of_exact _ _) bardellShape_C2 Witness.panel Witness.panel2
    (by simp [Witness.panel]) (by simp [Witness.panel]) (by simp [Witness.panel2])
    (by simp [Witness.panel2]) 1000 7 _ _ (by norm_num) (by norm_num) 12 120
    (by simp [Witness.panel]) c).1

/-- Energy of the `SSycte` connection. -/
theorem SSycte_joint {I : Tab ℝ} {S : Shape ℝ} (hI : I.Exact S Mean.integral) (hS : S.C2)
    (P1 P2 : Panel ℝ) (hP1 : P1.a ≠ 0) (hbP1 : P1.b ≠ 0) (hP2 : P2.a ≠ 0) (hbP2 : P2.b ≠ 0)
    (kt kr y1 y2 : ℝ) (hkt : kt ≠ 0) (s1 s2 : ℕ) (hs : s1 + 3 * (P1.m * P1.n) ≤ s2) (c : ℕ → ℝ) :
    Coo.quad (Coo.finalizeSym (connSSycte S I P1 P2 kt kr y1 y2 s1 s2)) c
      = jointEnergy P1.a kt kr
          (fun x => u S P1 s1 c 0 x y1 - u S P2 s2 c 0 (P2.a / P1.a * x) y2)
          (fun x => u S P1 s1 c 1 x y1 - u S P2 s2 c 1 (P2.a / P1.a * x) y2)
          (fun x => u S P1 s1 c 2 x y1 - u S P2 s2 c 2 (P2.a / P1.a * x) y2)
          (fun x => dy (u S P1 s1 c 2) x y1 - dy (u S P2 s2 c 2) (P2.a / P1.a * x) y2) := by
  rw [SSycte_energy hI hS.inMean P1 P2 hP1 hbP1 hP2 hbP2 kt kr y1 y2 hkt s1 s2 hs c,
    ← integral_line P1.a hP1, jointEnergy]
  refine intervalIntegral.integral_congr fun x _ => ?_
  simp only [u_disp, u_dy hS, line_point _ _ _ hP1 hP2, mul_div_right_comm]
  ring

/-- It is non-negative, and zero exactly when the two sides fit along the whole joint. -/
theorem SSycte_kernel {I : Tab ℝ} {S : Shape ℝ} (hI : I.Exact S Mean.integral) (hS : S.C2)
    (P1 P2 : Panel ℝ) (hP1 : 0 < P1.a) (hbP1 : 0 < P1.b) (hP2 : 0 < P2.a) (hbP2 : 0 < P2.b)
    (kt kr y1 y2 : ℝ) (hkt : 0 < kt) (hkr : 0 < kr) (s1 s2 : ℕ)
    (hs : s1 + 3 * (P1.m * P1.n) ≤ s2) (c : ℕ → ℝ) :
    let E := Coo.quad (Coo.finalizeSym (connSSycte S I P1 P2 kt kr y1 y2 s1 s2)) c
    0 ≤ E ∧ (E = 0 ↔ ∀ x ∈ Set.Icc 0 P1.a,
        u S P1 s1 c 0 x y1 = u S P2 s2 c 0 (P2.a / P1.a * x) y2 ∧
        u S P1 s1 c 1 x y1 = u S P2 s2 c 1 (P2.a / P1.a * x) y2 ∧
        u S P1 s1 c 2 x y1 = u S P2 s2 c 2 (P2.a / P1.a * x) y2 ∧
        dy (u S P1 s1 c 2) x y1 = dy (u S P2 s2 c 2) (P2.a / P1.a * x) y2) := by
  intro E
  have hE : E = _ := SSycte_joint hI hS P1 P2 hP1.ne' hbP1.ne' hP2.ne' hbP2.ne' kt kr y1 y2 hkt.ne'
    s1 s2 hs c
  rw [hE]
  refine ⟨jointEnergy_nonneg hP1.le hkt.le hkr.le _ _ _ _, ?_⟩
  have c1 : ∀ α, Continuous fun x : ℝ => u S P1 s1 c α x y1 := fun α =>
    u_line hS P1 s1 c α continuous_id continuous_const
  have c2 : ∀ α, Continuous fun x : ℝ => u S P2 s2 c α (P2.a / P1.a * x) y2 := fun α =>
    u_line hS P2 s2 c α (continuous_const_mul _) continuous_const
  have d1 : Continuous fun x : ℝ => dy (u S P1 s1 c 2) x y1 :=
    dy_line hS P1 s1 c 2 continuous_id continuous_const
  have d2 : Continuous fun x : ℝ => dy (u S P2 s2 c 2) (P2.a / P1.a * x) y2 :=
    dy_line hS P2 s2 c 2 (continuous_const_mul _) continuous_const
  rw [jointEnergy_zero hP1 hkt hkr ((c1 0).fun_sub (c2 0)) ((c1 1).fun_sub (c2 1)) ((c1 2).fun_sub (c2 2)) (d1.fun_sub d2)]
  refine forall₂_congr fun x _ => ?_
  rw [sub_eq_zero, sub_eq_zero, sub_eq_zero, sub_eq_zero]

/-- Concrete case: panels of 5 × 7 and 4 × 6 terms, exact tables of the Bardell functions. -/
example (c : ℕ → ℝ) :
    0 ≤ Coo.quad (Coo.finalizeSym (connSSycte (bardellShape ℝ) (Tab.of (bardellShape ℝ) Mean.integral)
      Witness.panel Witness.panel2 1000 7 1 0 12 120)) c :=
  (SSycte_kernel (Tab.of_exact _ _) bardellShape_C2 Witness.panel Witness.panel2
    (by simp [Witness.panel]) (by simp [Witness.panel]) (by simp [Witness.panel2])
    (by simp [Witness.panel2]) 1000 7 _ _ (by norm_num) (by norm_num) 12 120
    (by simp [Witness.panel]) c).1

/-- Edges of equal length: the ordinary jumps at the same point. -/
theorem SSxcte_joint_same_length {I : Tab ℝ} {S : Shape ℝ} (hI : I.Exact S Mean.integral) (hS : S.C2)
    (P1 P2 : Panel ℝ) (hP1 : P1.a ≠ 0) (hbP1 : P1.b ≠ 0) (hP2 : P2.a ≠ 0) (hb : P2.b = P1.b)
    (kt kr x1 x2 : ℝ) (hkt : kt ≠ 0) (s1 s2 : ℕ) (hs : s1 + 3 * (P1.m * P1.n) ≤ s2) (c : ℕ → ℝ) :
    Coo.quad (Coo.finalizeSym (connSSxcte S I P1 P2 kt kr x1 x2 s1 s2)) c
      = jointEnergy P1.b kt kr
          (fun y => u S P1 s1 c 0 x1 y - u S P2 s2 c 0 x2 y)
          (fun y => u S P1 s1 c 1 x1 y - u S P2 s2 c 1 x2 y)
          (fun y => u S P1 s1 c 2 x1 y - u S P2 s2 c 2 x2 y)
          (fun y => dx (u S P1 s1 c 2) x1 y - dx (u S P2 s2 c 2) x2 y) := by
  have := SSxcte_joint hI hS P1 P2 hP1 hbP1 hP2 (hb ▸ hbP1) kt kr x1 x2 hkt s1 s2 hs c
  simpa only [hb, div_self hbP1, one_mul] using this

end Verif.C41
