import Verif.Spec.Added
import Verif.Props.C51

/-!
# When the description of a stiffener is complete
-/

namespace Verif.Spec

open Model

variable {K : Type} [Field K] [LinearOrder K]

/-- A stack comes with the thickness and the properties of its plies. -/
def Told (A : LamArgs K) : Prop :=
  A.stack ≠ none → (A.plyts ≠ none ∨ A.plyt ≠ none) ∧ (A.laminaprops ≠ none ∨ A.laminaprop ≠ none)

/-- A stack comes with a width. -/
def Wide (A : LamArgs K) (w : Option K) : Prop := A.stack ≠ none → w ≠ none

/-- The panels of the skin at a station: the last one that ends there and the last one that begins there,
where a panel at the edge of the bay counts as both for a station at that edge. -/
def Place (B : Bay K) (ys : K) (p q : Shell K) : Prop :=
  ∃ i j, C51.Last B (fun p => p.pan.y2 = ys ∨ C51.AtEdge B ys p) i ∧
    C51.Last B (fun p => p.pan.y1 = ys ∨ C51.AtEdge B ys p) j ∧
    B.panels[i]? = some p ∧ B.panels[j]? = some q

/-- Two panels of the same kind. -/
def Akin (p q : Shell K) : Prop := p.model = q.model ∧ p.pan.m = q.pan.m ∧ p.pan.n = q.pan.n ∧ p.r = q.r

/-- The description of a stiffener at `ys` with a base of width `bb` and a flange of width `bf`: one of
the two has plies, whatever has plies has a width, and it stands between panels of the same kind. -/
structure Complete (B : Bay K) (ys : K) (bb bf : Option K) (b f : LamArgs K) : Prop where
  any : b.stack ≠ none ∨ f.stack ≠ none
  base : Told b ∧ Wide b bb
  flange : Told f ∧ Wide f bf
  place : ∃ p q, Place B ys p q ∧ Akin p q

/-- The plies of an argument can be made into the flange of a beam. -/
def Made (E : BayEnv K) (A : LamArgs K) : Prop :=
  ∀ st ts ps, Layers A st ts ps → ∃ l, E.plies st ts ps = .ok l ∧ l ≠ []

/-- The plies of an argument can be made into a laminate, wherever it is. -/
def Laminable (E : BayEnv K) (A : LamArgs K) : Prop :=
  ∀ st ts ps o, Layers A st ts ps → ∃ l, E.mkLam st ts ps [] o = .ok l

end Verif.Spec
