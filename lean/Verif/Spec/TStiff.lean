import Verif.Spec.Assy

/-!
# Energies of the panel with a T stiffener
-/

namespace Verif.Spec

/-- Springs between the edge `x = 0` of a panel and the edge `x = a` of the one before it. -/
noncomputable def seamX (S : Shape ℝ) (P Q : Panel ℝ) (kt kr : ℝ) (s t : ℕ) (v : ℕ → ℝ) : ℝ :=
  ∫ y in (0 : ℝ)..P.b, (kt * ((u S P s v 0 0 y - u S Q t v 0 Q.a y) ^ 2
      + (u S P s v 1 0 y - u S Q t v 1 Q.a y) ^ 2 + (u S P s v 2 0 y - u S Q t v 2 Q.a y) ^ 2)
    + kr * (dx (u S P s v 2) 0 y - dx (u S Q t v 2) Q.a y) ^ 2)

/-- Springs between the edge `y = 0` of a panel and the edge `y = b` of the one before it. -/
noncomputable def seamY (S : Shape ℝ) (P Q : Panel ℝ) (kt kr : ℝ) (s t : ℕ) (v : ℕ → ℝ) : ℝ :=
  ∫ x in (0 : ℝ)..P.a, (kt * ((u S P s v 0 x 0 - u S Q t v 0 x Q.b) ^ 2
      + (u S P s v 1 x 0 - u S Q t v 1 x Q.b) ^ 2 + (u S P s v 2 x 0 - u S Q t v 2 x Q.b) ^ 2)
    + kr * (dy (u S P s v 2) x 0 - dy (u S Q t v 2) x Q.b) ^ 2)

/-- Springs between a skin `P` and a base `Q` glued on it, whose mid-surfaces are `z` apart. -/
noncomputable def bondEnergy (S : Shape ℝ) (P Q : Panel ℝ) (kt z : ℝ) (s t : ℕ) (v : ℕ → ℝ) : ℝ :=
  ∫ x in (0 : ℝ)..P.a, ∫ y in (0 : ℝ)..P.b,
    kt * ((u S P s v 0 x y + z * dx (u S P s v 2) x y - u S Q t v 0 x y) ^ 2
      + (u S P s v 1 x y + z * dy (u S P s v 2) x y - u S Q t v 1 x y) ^ 2
      + (u S P s v 2 x y - u S Q t v 2 x y) ^ 2)

/-- Springs between the centre line of a base `P` and the foot of the flange `Q` standing on it: `u` to
`u`, `v` of the base to `w` of the flange, `w` of the base to minus `v` of the flange, slope to slope. -/
noncomputable def footEnergy (S : Shape ℝ) (P Q : Panel ℝ) (kt kr : ℝ) (s t : ℕ) (v : ℕ → ℝ) : ℝ :=
  ∫ x in (0 : ℝ)..P.a, (kt * ((u S P s v 0 x (P.b / 2) - u S Q t v 0 x 0) ^ 2
      + (u S P s v 1 x (P.b / 2) - u S Q t v 2 x 0) ^ 2
      + (u S P s v 2 x (P.b / 2) + u S Q t v 1 x 0) ^ 2)
    + kr * (dy (u S P s v 2) x (P.b / 2) - dy (u S Q t v 2) x 0) ^ 2)

/-- The joint of each kind. -/
noncomputable def tJoint (S : Shape ℝ) (P Q : Panel ℝ) (func : String) (kt kr z : ℝ) (s t : ℕ)
    (v : ℕ → ℝ) : ℝ :=
  if func = "SSxcte" then seamX S P Q kt kr s t v
  else if func = "SSycte" then seamY S P Q kt kr s t v
  else if func = "SB" then bondEnergy S P Q kt z s t v
  else footEnergy S P Q kt kr s t v

/-- Work of a membrane force `N` on the edge `x = 0`, whose outward normal is `-x`, by the quadrature
rule of as many points as the panel has terms along `y`. -/
def endWork {K : Type*} [Field K] (G : GaussTab K) (S : Shape K) (P : Panel K) (N : K) (s : ℕ)
    (c : ℕ → K) : K :=
  lineQuad G P.n P.b fun y => -N * Spec.field S P s c 0 0 y

end Verif.Spec
