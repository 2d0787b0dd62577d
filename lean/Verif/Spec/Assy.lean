import Verif.Spec.Joint
import Verif.Spec.VonKarman
import Verif.Spec.Work

/-!
# Energies of ready-made assemblies
-/

namespace Verif.Spec

/-- Twice the membrane and bending energy of a panel of curvature `1/r` (flat for `r = 0`). -/
noncomputable def strainWork (S : Shape ℝ) (P : Panel ℝ) (F : ℕ → ℕ → ℝ) (c : ℕ → ℝ) : ℝ :=
  ∫ x in (0 : ℝ)..P.a, ∫ y in (0 : ℝ)..P.b, dens 6 F fun s => linStrain (1 / P.r) S P 0 c s x y

/-- Work of the membrane forces through the slopes of the deflection. -/
noncomputable def slopeWork (S : Shape ℝ) (P : Panel ℝ) (Nxx Nyy Nxy : ℝ) (c : ℕ → ℝ) : ℝ :=
  ∫ x in (0 : ℝ)..P.a, ∫ y in (0 : ℝ)..P.b,
    (Nxx * dx (u S P 0 c 2) x y ^ 2 + 2 * Nxy * (dx (u S P 0 c 2) x y * dy (u S P 0 c 2) x y)
      + Nyy * dy (u S P 0 c 2) x y ^ 2)

/-- Jump of a displacement across the edge between the panel whose unknowns start at `s` and the next
one, whose unknowns start at `t`. -/
noncomputable def edgeJump (S : Shape ℝ) (P : Panel ℝ) (s t : ℕ) (v : ℕ → ℝ) (i : ℕ) (x : ℝ) : ℝ :=
  u S P s v i x P.b - u S P t v i x 0

/-- Jump of the slope across that edge. -/
noncomputable def slopeJump (S : Shape ℝ) (P : Panel ℝ) (s t : ℕ) (v : ℕ → ℝ) (x : ℝ) : ℝ :=
  dy (u S P s v 2) x P.b - dy (u S P t v 2) x 0

/-- Twice the energy of the springs along that edge. -/
noncomputable def edgeEnergy (S : Shape ℝ) (P : Panel ℝ) (kt kr : ℝ) (s t : ℕ) (v : ℕ → ℝ) : ℝ :=
  ∫ x in (0 : ℝ)..P.a, (kt * (edgeJump S P s t v 0 x ^ 2 + edgeJump S P s t v 1 x ^ 2
    + edgeJump S P s t v 2 x ^ 2) + kr * slopeJump S P s t v x ^ 2)

/-- Springs between the edge `y = 0` of a skin panel and the edge `y = 0` of the blade standing on it:
`u` to `u`, `v` of the skin to `w` of the blade, `w` of the skin to minus `v` of the blade, slope to
slope. -/
noncomputable def standEnergy (S : Shape ℝ) (P B : Panel ℝ) (kt kr : ℝ) (s t : ℕ) (v : ℕ → ℝ) : ℝ :=
  ∫ x in (0 : ℝ)..P.a, (kt * ((u S P s v 0 x 0 - u S B t v 0 x 0) ^ 2
      + (u S P s v 1 x 0 - u S B t v 2 x 0) ^ 2 + (u S P s v 2 x 0 + u S B t v 1 x 0) ^ 2)
    + kr * (dy (u S P s v 2) x 0 - dy (u S B t v 2) x 0) ^ 2)

/-- Work of the axial force `N` per unit length of the edge `x = a`, by the quadrature rule of as many
points as the panel has terms along `y`. -/
def axialWork {K : Type*} [Field K] (G : GaussTab K) (S : Shape K) (P : Panel K) (N : K) (s : ℕ)
    (c : ℕ → K) : K :=
  lineQuad G P.n P.b fun y => N * Spec.field S P s c 0 P.a y

end Verif.Spec
