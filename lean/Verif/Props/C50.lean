import Verif.Proofs.StiffEnergy
import Verif.Proofs.Joint
import Verif.Proofs.Bardell
import Verif.Spec.Witness

/-!
# C50: the 2D blade stiffener penalises the jumps between skin and flange

The flange is a panel `Pf` of its own, joined with its edge `y = 0` to the line `y = ys` of the
skin.  The flange of `BladeStiff2D` has the length of the bay (`bladestiff2d.py` line 68), so both
sides meet at the same `x`; for a flange of another length `x` is scaled by `Pf.a / P.a`.
-/

namespace Verif.C50

open Spec Model

/-- Energy of the connection. -/
theorem blade_joint {I : Tab ℝ} {S : Shape ℝ} (hI : I.Exact S Mean.integral) (hS : S.C2)
    (P Pf : Panel ℝ) (ha : P.a ≠ 0) (hb : P.b ≠ 0) (haf : Pf.a ≠ 0) (hbf : Pf.b ≠ 0)
    (kt kr ys : ℝ) (s sf : ℕ) (hs : s + 3 * (P.m * P.n) ≤ sf) (c : ℕ → ℝ) :
    Coo.quad (Coo.finalizeSym (bladeConn S I P Pf kt kr ys s sf)) c
      = jointEnergy P.a kt kr
          (fun x => u S P s c 0 x ys - u S Pf sf c 0 (Pf.a / P.a * x) 0)
          (fun x => u S P s c 1 x ys - u S Pf sf c 2 (Pf.a / P.a * x) 0)
          (fun x => u S P s c 2 x ys + u S Pf sf c 1 (Pf.a / P.a * x) 0)
          (fun x => dy (u S P s c 2) x ys - dy (u S Pf sf c 2) (Pf.a / P.a * x) 0) := by
  rw [bladeConn_energy hI hS.inMean P Pf ha hb hbf kt kr ys s sf hs c,
    ← integral_line P.a ha, jointEnergy]
  refine intervalIntegral.integral_congr fun x _ => ?_
  simp only [u_disp, u_dy hS, line_point _ _ _ ha haf, mul_div_right_comm, mul_zero, zero_sub]
  ring

/-- Flange and bay of the same length, as `BladeStiff2D` builds them. -/
theorem blade_joint_same_length {I : Tab ℝ} {S : Shape ℝ} (hI : I.Exact S Mean.integral)
    (hS : S.C2) (P Pf : Panel ℝ) (ha : P.a ≠ 0) (hb : P.b ≠ 0) (haf : Pf.a = P.a) (hbf : Pf.b ≠ 0)
    (kt kr ys : ℝ) (s sf : ℕ) (hs : s + 3 * (P.m * P.n) ≤ sf) (c : ℕ → ℝ) :
    Coo.quad (Coo.finalizeSym (bladeConn S I P Pf kt kr ys s sf)) c
      = jointEnergy P.a kt kr
          (fun x => u S P s c 0 x ys - u S Pf sf c 0 x 0)
          (fun x => u S P s c 1 x ys - u S Pf sf c 2 x 0)
          (fun x => u S P s c 2 x ys + u S Pf sf c 1 x 0)
          (fun x => dy (u S P s c 2) x ys - dy (u S Pf sf c 2) x 0) := by
  have := blade_joint hI hS P Pf ha hb (haf ▸ ha) hbf kt kr ys s sf hs c
  simpa only [haf, div_self ha, one_mul] using this

/-- Non-negative, and zero exactly when flange and skin move together: equal axial displacements,
`v = wf`, `w = -vf` and equal rotations. -/
theorem blade_kernel {I : Tab ℝ} {S : Shape ℝ} (hI : I.Exact S Mean.integral) (hS : S.C2)
    (P Pf : Panel ℝ) (ha : 0 < P.a) (hb : P.b ≠ 0) (haf : Pf.a = P.a) (hbf : Pf.b ≠ 0)
    (kt kr ys : ℝ) (hkt : 0 < kt) (hkr : 0 < kr) (s sf : ℕ) (hs : s + 3 * (P.m * P.n) ≤ sf)
    (c : ℕ → ℝ) :
    let E := Coo.quad (Coo.finalizeSym (bladeConn S I P Pf kt kr ys s sf)) c
    0 ≤ E ∧ (E = 0 ↔ ∀ x ∈ Set.Icc 0 P.a,
        u S P s c 0 x ys = u S Pf sf c 0 x 0 ∧
        u S P s c 1 x ys = u S Pf sf c 2 x 0 ∧
        u S P s c 2 x ys = - u S Pf sf c 1 x 0 ∧
        dy (u S P s c 2) x ys = dy (u S Pf sf c 2) x 0) := by
  intro E
  have hE : E = _ := blade_joint_same_length hI hS P Pf ha.ne' hb haf hbf kt kr ys s sf hs c
  rw [hE]
  refine ⟨jointEnergy_nonneg ha.le hkt.le hkr.le _ _ _ _, ?_⟩
  have c1 : ∀ α, Continuous fun x : ℝ => u S P s c α x ys := fun α =>
    u_line hS P s c α continuous_id continuous_const
  have c2 : ∀ α, Continuous fun x : ℝ => u S Pf sf c α x 0 := fun α =>
    u_line hS Pf sf c α continuous_id continuous_const
  have d1 : Continuous fun x : ℝ => dy (u S P s c 2) x ys :=
    dy_line hS P s c 2 continuous_id continuous_const
  have d2 : Continuous fun x : ℝ => dy (u S Pf sf c 2) x 0 :=
    dy_line hS Pf sf c 2 continuous_id continuous_const
  rw [jointEnergy_zero ha hkt hkr ((c1 0).fun_sub (c2 0)) ((c1 1).fun_sub (c2 2))
    ((c1 2).fun_add (c2 1)) (d1.fun_sub d2)]
  refine forall₂_congr fun x _ => ?_
  rw [sub_eq_zero, sub_eq_zero, add_eq_zero_iff_eq_neg, sub_eq_zero]

/-- Concrete case: skin of 5 × 7 terms, flange of 4 × 6 terms, both of length 3. -/
example (c : ℕ → ℝ) :
    0 ≤ Coo.quad (Coo.finalizeSym (bladeConn (bardellShape ℝ)
      (Tab.of (bardellShape ℝ) Mean.integral) Witness.panel Witness.panel2 1000 7 (1 / 3) 0 105)) c :=
  (blade_kernel (Tab.of_exact _ _) bardellShape_C2 Witness.panel Witness.panel2
    (by simp [Witness.panel]) (by simp [Witness.panel]) (by simp [Witness.panel, Witness.panel2])
    (by simp [Witness.panel2]) 1000 7 _ (by norm_num) (by norm_num) 0 105
    (by simp [Witness.panel]) c).1

end Verif.C50
