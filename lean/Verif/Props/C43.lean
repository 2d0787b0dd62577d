import Verif.Proofs.Joint
import Verif.Proofs.Bardell
import Verif.Spec.Witness

/-!
# C43: stacked-panel connections penalise exactly the interface slip and separation

`P1` is the panel that comes first in the global vector.  The point `(x, y)` of the first panel
meets the point of the second one that has the same natural coordinates; this is the same point
when the panels have the same size.
-/

namespace Verif.C43

open Spec Model

theorem SB_joint {I : Tab ℝ} {S : Shape ℝ} (hI : I.Exact S Mean.integral) (hS : S.C2)
    (P1 P2 : Panel ℝ) (hP1 : P1.a ≠ 0) (hbP1 : P1.b ≠ 0) (hP2 : P2.a ≠ 0) (hbP2 : P2.b ≠ 0)
    (kt d : ℝ) (s1 s2 : ℕ) (hs : s1 + 3 * (P1.m * P1.n) ≤ s2) (c : ℕ → ℝ) :
    Coo.quad (Coo.finalizeSym (connSB I P1 P2 kt d s1 s2)) c
      = areaEnergy P1.a P1.b kt
          (fun x y => u S P1 s1 c 0 x y + d * dx (u S P1 s1 c 2) x y
            - u S P2 s2 c 0 (P2.a / P1.a * x) (P2.b / P1.b * y))
          (fun x y => u S P1 s1 c 1 x y + d * dy (u S P1 s1 c 2) x y
            - u S P2 s2 c 1 (P2.a / P1.a * x) (P2.b / P1.b * y))
          (fun x y => u S P1 s1 c 2 x y - u S P2 s2 c 2 (P2.a / P1.a * x) (P2.b / P1.b * y)) := by
  rw [SB_energy hI hS.inMean P1 P2 hP1 hbP1 hP2 hbP2 kt d s1 s2 hs c, mul_assoc, areaEnergy]
  simp only [u_disp, u_dx hS, u_dy hS, line_point _ _ _ hbP1 hbP2, line_point _ _ _ hP1 hP2]
  rw [integral_rect P1.a P1.b hP1 hbP1 (fun ξ η => kt *
    ((disp S P1 s1 c 0 0 0 ξ η + d * disp S P1 s1 c 2 1 0 ξ η - disp S P2 s2 c 0 0 0 ξ η) ^ 2 +
     (disp S P1 s1 c 1 0 0 ξ η + d * disp S P1 s1 c 2 0 1 ξ η - disp S P2 s2 c 1 0 0 ξ η) ^ 2 +
     (disp S P1 s1 c 2 0 0 ξ η - disp S P2 s2 c 2 0 0 ξ η) ^ 2))]
  simp only [Mean.integral, intervalIntegral.integral_const_mul]

/-- Panels of the same size: ordinary slip and separation. -/
theorem SB_joint_same_size {I : Tab ℝ} {S : Shape ℝ} (hI : I.Exact S Mean.integral) (hS : S.C2)
    (P1 P2 : Panel ℝ) (hP1 : P1.a ≠ 0) (hbP1 : P1.b ≠ 0) (ha : P2.a = P1.a) (hb : P2.b = P1.b)
    (kt d : ℝ) (s1 s2 : ℕ) (hs : s1 + 3 * (P1.m * P1.n) ≤ s2) (c : ℕ → ℝ) :
    Coo.quad (Coo.finalizeSym (connSB I P1 P2 kt d s1 s2)) c
      = areaEnergy P1.a P1.b kt
          (fun x y => u S P1 s1 c 0 x y + d * dx (u S P1 s1 c 2) x y - u S P2 s2 c 0 x y)
          (fun x y => u S P1 s1 c 1 x y + d * dy (u S P1 s1 c 2) x y - u S P2 s2 c 1 x y)
          (fun x y => u S P1 s1 c 2 x y - u S P2 s2 c 2 x y) := by
  have := SB_joint hI hS P1 P2 hP1 hbP1 (ha ▸ hP1) (hb ▸ hbP1) kt d s1 s2 hs c
  simpa only [ha, hb, div_self hP1, div_self hbP1, one_mul] using this

/-- Non-negative for `kt ≥ 0`; for `kt > 0` zero exactly when the interface neither slips nor
opens. -/
theorem SB_kernel {I : Tab ℝ} {S : Shape ℝ} (hI : I.Exact S Mean.integral) (hS : S.C2)
    (P1 P2 : Panel ℝ) (hP1 : 0 < P1.a) (hbP1 : 0 < P1.b) (hP2 : 0 < P2.a) (hbP2 : 0 < P2.b)
    (kt d : ℝ) (hkt : 0 ≤ kt) (s1 s2 : ℕ) (hs : s1 + 3 * (P1.m * P1.n) ≤ s2) (c : ℕ → ℝ) :
    let E := Coo.quad (Coo.finalizeSym (connSB I P1 P2 kt d s1 s2)) c
    0 ≤ E ∧ (0 < kt → (E = 0 ↔ ∀ x ∈ Set.Icc 0 P1.a, ∀ y ∈ Set.Icc 0 P1.b,
      u S P1 s1 c 0 x y + d * dx (u S P1 s1 c 2) x y
          = u S P2 s2 c 0 (P2.a / P1.a * x) (P2.b / P1.b * y) ∧
      u S P1 s1 c 1 x y + d * dy (u S P1 s1 c 2) x y
          = u S P2 s2 c 1 (P2.a / P1.a * x) (P2.b / P1.b * y) ∧
      u S P1 s1 c 2 x y = u S P2 s2 c 2 (P2.a / P1.a * x) (P2.b / P1.b * y))) := by
  intro E
  have hE : E = _ := SB_joint hI hS P1 P2 hP1.ne' hbP1.ne' hP2.ne' hbP2.ne' kt d s1 s2 hs c
  rw [hE]
  refine ⟨areaEnergy_nonneg hP1.le hbP1.le hkt _ _ _, fun hk => ?_⟩
  have cu : ∀ α, Continuous fun p : ℝ × ℝ => u S P1 s1 c α p.1 p.2 := u_continuous hS P1 s1 c
  have cx : Continuous fun p : ℝ × ℝ => d * dx (u S P1 s1 c 2) p.1 p.2 :=
    continuous_const.mul (dx_continuous hS P1 s1 c 2)
  have cy : Continuous fun p : ℝ × ℝ => d * dy (u S P1 s1 c 2) p.1 p.2 :=
    continuous_const.mul (dy_continuous hS P1 s1 c 2)
  have c2 : ∀ α, Continuous fun p : ℝ × ℝ => u S P2 s2 c α (P2.a / P1.a * p.1) (P2.b / P1.b * p.2) := by
    intro α
    exact cont_scale (F := u S P2 s2 c α) (u_continuous hS P2 s2 c α) _ _
  rw [areaEnergy_zero hP1 hbP1 hk (((cu 0).fun_add cx).fun_sub (c2 0))
    (((cu 1).fun_add cy).fun_sub (c2 1)) ((cu 2).fun_sub (c2 2))]
  refine forall₂_congr fun x _ => forall₂_congr fun y _ => ?_
  rw [sub_eq_zero, sub_eq_zero, sub_eq_zero]

/-- Concrete case: a stack with interface distance 0.02. -/
example (c : ℕ → ℝ) :
    0 ≤ Coo.quad (Coo.finalizeSym (connSB (Tab.of (bardellShape ℝ) Mean.integral)
      Witness.panel Witness.panel2 1000 0.02 12 120)) c :=
  (SB_kernel (Tab.of_exact _ _) bardellShape_C2 Witness.panel Witness.panel2
    (by simp [Witness.panel]) (by simp [Witness.panel]) (by simp [Witness.panel2])
    (by simp [Witness.panel2]) 1000 0.02 (by norm_num) 12 120 (by simp [Witness.panel]) c).1

end Verif.C43
