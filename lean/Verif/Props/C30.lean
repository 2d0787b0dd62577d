import Verif.Proofs.FieldOut
import Verif.Proofs.RealField
import Verif.Proofs.Bardell
import Verif.Spec.Witness

/-!
# C30: the displacement field is linear in the Ritz constants and matches the load interpolation
-/

namespace Verif.C30

open Model Spec Finset

variable {K : Type*} [Field K]

theorem rowField_linear (S : Shape K) (P : Panel K) (s0 : ℕ) (p q : K) (c d : ℕ → K) (r : ℕ)
    (x y : K) : rowField S P s0 (fun k => p * c k + q * d k) r x y
      = p * rowField S P s0 c r x y + q * rowField S P s0 d r x y := by
  have h : ∀ α i j ξ η, disp S P s0 (fun k => p * c k + q * d k) α i j ξ η
      = p * disp S P s0 c α i j ξ η + q * disp S P s0 d α i j ξ η := by
    intro α i j ξ η
    simp only [disp, mul_sum, ← sum_add_distrib]
    exact sum_congr rfl fun i _ => sum_congr rfl fun j _ => by ring
  match r with
  | 0 => exact h ..
  | 1 => exact h ..
  | 2 => exact h ..
  | 3 => simp only [rowField, h]; ring
  | _ + 4 => simp only [rowField, h]; ring

/-- All five outputs are linear in the constants. -/
theorem linear (S : Shape K) (P : Panel K) (p q : K) (c d : ℕ → K) (x y : K) :
    let o := uvwAt S P (fun k => p * c k + q * d k) x y
    let oc := uvwAt S P c x y
    let od := uvwAt S P d x y
    o.u = p * oc.u + q * od.u ∧ o.v = p * oc.v + q * od.v ∧ o.w = p * oc.w + q * od.w ∧
      o.phix = p * oc.phix + q * od.phix ∧ o.phiy = p * oc.phiy + q * od.phiy := by
  simp only [uvwAt_field, rowField_linear, and_self]

/-- The outputs are the rows of the interpolation matrix used for loads and constraints times the
constants, and only the first `3 m n` constants matter. -/
theorem interpolation (S : Shape K) (P : Panel K) (c : ℕ → K) (x y : K) :
    let o := uvwAt S P c x y
    let g := fg S P (fun _ _ => 0) x y
    o.u = ∑ k ∈ range (3 * P.m * P.n), g 0 k * c k ∧
    o.v = ∑ k ∈ range (3 * P.m * P.n), g 1 k * c k ∧
    o.w = ∑ k ∈ range (3 * P.m * P.n), g 2 k * c k ∧
    o.phix = ∑ k ∈ range (3 * P.m * P.n), g 3 k * c k ∧
    o.phiy = ∑ k ∈ range (3 * P.m * P.n), g 4 k * c k := by
  have h : ∀ r < 5, ∑ k ∈ range (3 * P.m * P.n), fg S P (fun _ _ => 0) x y r k * c k
      = rowField S P 0 c r x y := fun r hr => by
    have := fg_dot_field S P _ (cleanG_zero P) x y r hr 0 c
    simpa only [zero_add, getSize] using this
  simp only [uvwAt_field]
  exact ⟨(h 0 (by omega)).symm, (h 1 (by omega)).symm, (h 2 (by omega)).symm,
    (h 3 (by omega)).symm, (h 4 (by omega)).symm⟩

/-- The matrix may be reused from point to point, as `shell_fext` does: what it held before does
not matter. -/
theorem interpolation_reused (S : Shape K) (P : Panel K) (x' y' x y : K) (r i j : ℕ) (hr : r < 5)
    (hi : i < P.m) (hj : j < P.n) (α : ℕ) (hα : α < 3) :
    fg S P (fg S P (fun _ _ => 0) x' y') x y r (dof P.m i j + α)
      = fg S P (fun _ _ => 0) x y r (dof P.m i j + α) := by
  by_cases h : α = gcomp r
  · rw [h, fg_dof S P _ x y hr hi hj, fg_dof S P _ x y hr hi hj]
  · rw [((cleanG_zero P).fg x' y').fg x y r i j α hα h, (cleanG_zero P).fg x y r i j α hα h]

/-- The rotations are the negative derivatives of the deflection output. -/
theorem rotations {S : Shape ℝ} (hS : S.C2) (P : Panel ℝ) (c : ℕ → ℝ) (x y : ℝ) :
    (uvwAt S P c x y).phix = - dx (fun x y => (uvwAt S P c x y).w) x y ∧
    (uvwAt S P c x y).phiy = - dy (fun x y => (uvwAt S P c x y).w) x y := by
  have hw : (fun x y => (uvwAt S P c x y).w) = phys S P 0 c 2 0 0 := by
    funext x y
    rw [uvwAt_field]
    simp only [rowField, phys, mul_div_right_comm]
  rw [hw, dx_phys hS _ _ _ _ _ _ zero_lt_two, dy_phys hS _ _ _ _ _ _ zero_lt_two, uvwAt_field]
  simp only [rowField, phys, mul_div_right_comm, and_self]

/-- The displacements are those of the Ritz series. -/
theorem series (S : Shape ℝ) (P : Panel ℝ) (c : ℕ → ℝ) (x y : ℝ) :
    (uvwAt S P c x y).u = u S P 0 c 0 x y ∧ (uvwAt S P c x y).v = u S P 0 c 1 x y ∧
      (uvwAt S P c x y).w = u S P 0 c 2 x y := by
  simp only [← phys_zero, uvwAt_field, rowField, phys, mul_div_right_comm, and_self]

example : (uvwAt (bardellShape ℝ) Witness.panel (fun k => k) 1 (1 / 2)).phix
    = - dx (fun x y => (uvwAt (bardellShape ℝ) Witness.panel (fun k => k) x y).w) 1 (1 / 2) :=
  (rotations bardellShape_C2 _ _ _ _).1

/-- One term per direction. -/
def one : Panel ℚ where
  a := 2
  b := 2
  r := 1
  m := 1
  n := 1
  x1 := -1
  x2 := -1
  y1 := -1
  y2 := -1
  xu := ⟨1, 0, 0, 0⟩
  xv := ⟨1, 0, 0, 0⟩
  xw := ⟨1, 0, 0, 0⟩
  yu := ⟨1, 0, 0, 0⟩
  yv := ⟨1, 0, 0, 0⟩
  yw := ⟨1, 0, 0, 0⟩

example : (uvwAt (bardellShape ℚ) one (fun _ => 1) 0 0).w = 1 := by
  rw [(interpolation _ _ _ _ _).2.2.1]
  norm_num [sum_range_succ, fg, cfgWrites, put2, one, dof, bardellShape, flag, bardell, pev]

end Verif.C30
