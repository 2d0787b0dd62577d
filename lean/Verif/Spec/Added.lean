import Verif.Model.Bay
import Verif.Spec.RealField

/-!
# What the arguments of a new stiffener mean
-/

namespace Verif.Spec

open Model

variable {K : Type}

/-- The plies that the arguments mean: a list for each ply, or one value for all of them. -/
def Layers (A : LamArgs K) (st ts : List K) (ps : List (List K)) : Prop :=
  A.stack = some st ∧
    (A.plyts = some ts ∨ A.plyts = none ∧ ∃ t, A.plyt = some t ∧ ts = List.replicate st.length t) ∧
    (A.laminaprops = some ps ∨
      A.laminaprops = none ∧ ∃ p, A.laminaprop = some p ∧ ps = List.replicate st.length p)

/-- A shell has these plies. -/
def Plied (A : LamArgs K) (f : Shell K) : Prop := Layers A f.stack f.plyts f.laminaprops

/-- A stack is given without the thickness or the properties of its plies. -/
def Unspecified (A : LamArgs K) : Prop :=
  A.stack ≠ none ∧ (A.plyts = none ∧ A.plyt = none ∨ A.laminaprops = none ∧ A.laminaprop = none)

/-- The strip of width `bb` about `ys`. -/
def Strip [Field K] (P : Panel K) (ys bb : K) : Prop := P.y2 - P.y1 = bb ∧ P.y1 + P.y2 = 2 * ys

/-- A function takes values different from zero somewhere. -/
def Moves (g : ℝ → ℝ) : Prop := ∃ t, g t ≠ 0

/-- The supports of a flange: both ends are held but may turn about the edge; the edges along the skin and
opposite to it are free to move and to turn, one without the other. -/
structure Edges (S : Shape ℝ) (P : Panel ℝ) : Prop where
  held : ∀ s0 c α y, u S P s0 c α 0 y = 0 ∧ u S P s0 c α P.a y = 0
  hinge1 : ∀ s0, ∃ c, Moves (fun y => dx (u S P s0 c 2) 0 y) ∧ ∀ y, dx (u S P s0 c 2) P.a y = 0
  hinge2 : ∀ s0, ∃ c, Moves (fun y => dx (u S P s0 c 2) P.a y) ∧ ∀ y, dx (u S P s0 c 2) 0 y = 0
  free1 : ∀ s0, ∀ α < 3, ∃ c, Moves (fun x => u S P s0 c α x 0) ∧ ∀ x, u S P s0 c α x P.b = 0
  free2 : ∀ s0, ∀ α < 3, ∃ c, Moves (fun x => u S P s0 c α x P.b) ∧ ∀ x, u S P s0 c α x 0 = 0
  turns1 : ∀ s0, ∃ c, Moves (fun x => dy (u S P s0 c 2) x 0) ∧ ∀ x, dy (u S P s0 c 2) x P.b = 0
  turns2 : ∀ s0, ∃ c, Moves (fun x => dy (u S P s0 c 2) x P.b) ∧ ∀ x, dy (u S P s0 c 2) x 0 = 0

end Verif.Spec
