import Verif.Spec.Field
import Verif.Basic.MeanReal
import Mathlib.Analysis.Calculus.Deriv.Basic

/-!
# Specification over the real numbers: actual functions of `x`, `y` and actual derivatives
-/

namespace Verif

open Finset

/-- `fp` and `fpp` are the derivatives of `f` and `fp`, and everything is continuous. -/
structure Shape.C2 (S : Shape ℝ) : Prop where
  d1 : ∀ i x fl, HasDerivAt (fun t => S.f i t fl) (S.fp i x fl) x
  d2 : ∀ i x fl, HasDerivAt (fun t => S.fp i t fl) (S.fpp i x fl) x
  cont : ∀ i fl, Continuous fun t => S.fpp i t fl

namespace Spec

/-- Displacement component `α` at the physical point `(x, y)`, `0 ≤ x ≤ a`, `0 ≤ y ≤ b`. -/
noncomputable def u (S : Shape ℝ) (P : Panel ℝ) (s0 : ℕ) (c : ℕ → ℝ) (α : ℕ) (x y : ℝ) : ℝ :=
  ∑ i ∈ range P.m, ∑ j ∈ range P.n, c (s0 + 3 * (j * P.m + i) + α) *
    (S.f i (2 / P.a * x - 1) (P.xf α) * S.f j (2 / P.b * y - 1) (P.yf α))

/-- `∂g/∂x`. -/
noncomputable def dx (g : ℝ → ℝ → ℝ) (x y : ℝ) : ℝ := deriv (fun t => g t y) x

/-- `∂g/∂y`. -/
noncomputable def dy (g : ℝ → ℝ → ℝ) (x y : ℝ) : ℝ := deriv (fun t => g x t) y

/-- Linear Donnell strains of a displacement field `(u, v, w)` on a surface with curvature
`kappa = 1/r` along `y` (`kappa = 0`: plate). -/
noncomputable def donnell (kappa : ℝ) (u v w : ℝ → ℝ → ℝ) (s : ℕ) (x y : ℝ) : ℝ :=
  match s with
  | 0 => dx u x y
  | 1 => dy v x y + kappa * w x y
  | 2 => dy u x y + dx v x y
  | 3 => - dx (dx w) x y
  | 4 => - dy (dy w) x y
  | _ => - 2 * dy (dx w) x y

end Spec
end Verif
