import Verif.Proofs.Tangent
import Verif.Proofs.GaussTab
import Verif.Proofs.Bardell
import Verif.Model.Tables

/-!
# A state with a non-zero product of slopes at every integration point

One term per direction: `w = f(x) f(y)`, `f` the first Hermite function.
-/

namespace Verif.ShearWitness

open Spec Finset Model

/-- A 2 x 2 plate with one term per direction, clamped at the second edges. -/
def plate : Panel ℝ where
  a := 2
  b := 2
  r := 1
  m := 1
  n := 1
  x1 := -1
  x2 := -1
  y1 := -1
  y2 := -1
  xu := ⟨1, 0, 0, 0⟩
  xv := ⟨1, 0, 0, 0⟩
  xw := ⟨1, 0, 0, 0⟩
  yu := ⟨1, 0, 0, 0⟩
  yv := ⟨1, 0, 0, 0⟩
  yw := ⟨1, 0, 0, 0⟩

/-- Pure deflection. -/
def c (k : ℕ) : ℝ := if k = 2 then 1 else 0

/-- Orthotropic laminate without coupling. -/
def lam (s t : ℕ) : ℝ := if s = t then 1 else 0

theorem lam_sym : ABDSym lam := by
  constructor <;> (try intro s t) <;> simp [lam, eq_comm]

theorem f0 (x : ℝ) : (bardellShape ℝ).f 0 x ⟨1, 0, 0, 0⟩ = (x - 1) ^ 2 * (x + 2) / 4 := by
  simp [bardellShape, flag, bardell, pev]; ring

theorem fp0 (x : ℝ) : (bardellShape ℝ).fp 0 x ⟨1, 0, 0, 0⟩ = 3 / 4 * ((x - 1) * (x + 1)) := by
  simp [bardellShape, flag, bardell, pev, pder, pderFrom]; ring

/-- Product of the slopes. -/
noncomputable def slopes (x y : ℝ) : ℝ :=
  disp (bardellShape ℝ) plate 0 c 2 1 0 (2 / plate.a * x - 1) (2 / plate.b * y - 1)
    * disp (bardellShape ℝ) plate 0 c 2 0 1 (2 / plate.a * x - 1) (2 / plate.b * y - 1)

theorem slopes_eq (x y : ℝ) : slopes x y
    = (3 / 16) ^ 2 * ((x - 2) ^ 3 * (x + 1) * x * ((y - 2) ^ 3 * (y + 1) * y)) := by
  simp [slopes, disp, plate, c, Shape.D, Panel.xf, Panel.yf, f0, fp0]
  ring

theorem membrane_zero (α p q : ℕ) (hα : α < 2) (ξ η : ℝ) :
    disp (bardellShape ℝ) plate 0 c α p q ξ η = 0 := by
  have : α ≠ 2 := by omega
  simp [disp, plate, c, this]

theorem pos (nx ny : ℕ) (hx : 2 ≤ nx ∧ nx ≤ 64) (hy : 2 ≤ ny ∧ ny ≤ 64) :
    0 < gaussP (gaussTab ℝ) nx ny plate fun _ _ x y => slopes x y ^ 2 := by
  unfold gaussP gauss
  have hdx : xdom plate = (0, 2) := by simp [xdom, plate]
  have hdy : ydom plate = (0, 2) := by simp [ydom, plate]
  rw [hdx, hdy]
  have key : ∀ p < nx, ∀ q < ny, 0 <
      (gaussTab ℝ).wt nx p * ((2 - 0) / 2) * ((gaussTab ℝ).wt ny q * ((2 - 0) / 2)) *
        slopes (node (gaussTab ℝ) nx 0 2 p) (node (gaussTab ℝ) ny 0 2 q) ^ 2 := by
    intro p hp q hq
    have w1 := GaussCheck.wt_pos (K := ℝ) nx hx.1 hx.2 p hp
    have w2 := GaussCheck.wt_pos (K := ℝ) ny hy.1 hy.2 q hq
    have i1 := GaussCheck.pt_inside (K := ℝ) nx hx.1 hx.2 p hp
    have i2 := GaussCheck.pt_inside (K := ℝ) ny hy.1 hy.2 q hq
    have h : slopes (node (gaussTab ℝ) nx 0 2 p) (node (gaussTab ℝ) ny 0 2 q) ≠ 0 := by
      have nz : ∀ t : ℝ, -1 < t → t < 1 → ((0 + 2) / 2 + (2 - 0) / 2 * t - 2) ^ 3
          * ((0 + 2) / 2 + (2 - 0) / 2 * t + 1) * ((0 + 2) / 2 + (2 - 0) / 2 * t) ≠ 0 := by
        intro t h1 h2
        refine mul_ne_zero (mul_ne_zero (pow_ne_zero _ ?_) ?_) ?_
        · intro h; linarith
        · intro h; linarith
        · intro h; linarith
      rw [slopes_eq]
      exact mul_ne_zero (by norm_num) (mul_ne_zero (nz _ i1.1 i1.2) (nz _ i2.1 i2.2))
    have := sq_pos_of_ne_zero h
    positivity
  refine Finset.sum_pos (fun p hp => Finset.sum_pos (fun q hq => ?_) ?_) ?_
  · exact key p (mem_range.1 hp) q (mem_range.1 hq)
  · exact ⟨0, mem_range.2 (by omega)⟩
  · exact ⟨0, mem_range.2 (by omega)⟩

end Verif.ShearWitness
