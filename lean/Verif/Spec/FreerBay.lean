import Verif.Spec.BayPlan
import Verif.Spec.Freer

/-!
# A stiffened bay that admits more motions

More terms in skin, bases and flanges, and fewer of their edges held.
-/

namespace Verif.Spec

open Model

/-- The same shell with more terms and fewer edges held.  The numbers of integration points and of
amplitudes, which nothing depends on once the shell is built, may differ. -/
def FreerShell (s s' : Shell ℝ) : Prop :=
  ∃ P nx ny size, Freer s.pan P ∧ s' = { s with pan := P, nx := nx, ny := ny, size := size }

/-- The same 1D stiffener, on a base that admits more motions. -/
def FreerBlade1 (s s' : Blade1 ℝ) : Prop :=
  ∃ o, Option.Rel FreerShell s.base o ∧ s' = { s with base := o }

/-- The same 2D stiffener, whose base and flange admit more motions. -/
def FreerBlade2 (s s' : Blade2 ℝ) : Prop :=
  ∃ o o', Option.Rel FreerShell s.base o ∧ Option.Rel FreerShell s.flange o' ∧ s' = { s with base := o, flange := o' }

/-- The same bay, as rebuilt, with parts that admit more motions. -/
structure FreerBay (R R' : Bay ℝ) : Prop where
  skin : Freer (bayPanel R 0) (bayPanel R' 0)
  panels : List.Forall₂ FreerShell R.panels R'.panels
  blade1 : List.Forall₂ FreerBlade1 R.blade1 R'.blade1
  blade2 : List.Forall₂ FreerBlade2 R.blade2 R'.blade2

end Verif.Spec
