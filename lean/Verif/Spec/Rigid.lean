import Verif.Spec.Field
import Verif.Spec.RealField

/-!
# Motions without strain and the edges that prevent them
-/

namespace Verif.Spec

/-- A small motion without strain of a shallow surface: two translations and the rotation in the
tangent plane, and an affine deflection. -/
@[ext] structure Motion where
  p : ℝ
  q : ℝ
  θ : ℝ
  α : ℝ
  β : ℝ
  γ : ℝ

/-- The displacements of a motion; on a curved surface the deflection is compensated by membrane
displacements. -/
noncomputable def Motion.field (κ : ℝ) (M : Motion) (c : ℕ) (x y : ℝ) : ℝ :=
  match c with
  | 0 => M.p + M.θ * y + κ * M.β / 2 * y ^ 2
  | 1 => M.q - M.θ * x - κ * (M.α * y + M.β * (x * y) + M.γ / 2 * y ^ 2)
  | _ => M.α + M.β * x + M.γ * y

/-- The field `g` vanishes where the flags of component `c` say so: flag `t` of an edge fixes the value
there and flag `r` the derivative across the edge. -/
def EdgeFits (P : Panel ℝ) (c : ℕ) (g : ℝ → ℝ → ℝ) : Prop :=
  ((P.xf c).t1 = 0 → ∀ y, g 0 y = 0) ∧ ((P.xf c).r1 = 0 → ∀ y, dx g 0 y = 0) ∧
  ((P.xf c).t2 = 0 → ∀ y, g P.a y = 0) ∧ ((P.xf c).r2 = 0 → ∀ y, dx g P.a y = 0) ∧
  ((P.yf c).t1 = 0 → ∀ x, g x 0 = 0) ∧ ((P.yf c).r1 = 0 → ∀ x, dy g x 0 = 0) ∧
  ((P.yf c).t2 = 0 → ∀ x, g x P.b = 0) ∧ ((P.yf c).r2 = 0 → ∀ x, dy g x P.b = 0)

/-- The edges leave no motion without strain but rest. -/
def Restrained (κ : ℝ) (P : Panel ℝ) : Prop :=
  ∀ M : Motion, (∀ c < 3, EdgeFits P c (M.field κ c)) → ∀ c < 3, ∀ x y, M.field κ c x y = 0

end Verif.Spec
