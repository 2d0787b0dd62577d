import Verif.Spec.RealField
import Verif.Spec.Gauss

/-!
# Von Karman strains of an actual displacement field
-/

namespace Verif.Spec

/-- Von Karman strains of the field `(u, v, w)` on a surface of curvature `kappa` along `y`:
`½ w,x²`, `½ w,y²`, `w,x w,y` added to the linear Donnell strains. -/
noncomputable def vonKarman (kappa : ℝ) (u v w : ℝ → ℝ → ℝ) (s : ℕ) (x y : ℝ) : ℝ :=
  donnell kappa u v w s x y +
    match s with
    | 0 => dx w x y ^ 2 / 2
    | 1 => dy w x y ^ 2 / 2
    | 2 => dx w x y * dy w x y
    | _ => 0

/-- Linear strains of the Ritz vector `c`. -/
noncomputable def linStrain (kappa : ℝ) (S : Shape ℝ) (P : Panel ℝ) (s0 : ℕ) (c : ℕ → ℝ) (s : ℕ)
    (x y : ℝ) : ℝ := donnell kappa (u S P s0 c 0) (u S P s0 c 1) (u S P s0 c 2) s x y

/-- Von Karman strains of the Ritz vector `c`. -/
noncomputable def vkStrain (kappa : ℝ) (S : Shape ℝ) (P : Panel ℝ) (s0 : ℕ) (c : ℕ → ℝ) (s : ℕ)
    (x y : ℝ) : ℝ := vonKarman kappa (u S P s0 c 0) (u S P s0 c 1) (u S P s0 c 2) s x y

/-- Directional derivative at `c` in direction `d` of a functional of the Ritz vector. -/
noncomputable def dirDeriv (g : (ℕ → ℝ) → ℝ) (c d : ℕ → ℝ) : ℝ :=
  deriv (fun t : ℝ => g fun k => c k + t * d k) 0

end Verif.Spec
