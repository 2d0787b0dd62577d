import Verif.Basic.Accum

/-!
# Further loop nests: two panels, repeated writes
-/

namespace Verif

open Finset

variable {K : Type*} [Field K]

/-- Same with loop order `j, l, i, k` (`panels/multidomain/connections/kCSSxcte.pyx`
lines 228-262). -/
def crossBuildJL (row0 col0 m1 n1 m2 n2 : ℕ) (pat : List (ℕ × ℕ))
    (val : ℕ → ℕ → ℕ → ℕ → ℕ → ℕ → K) : Coo K :=
  (List.range n1).flatMap fun j => (List.range n2).flatMap fun l =>
  (List.range m1).flatMap fun i => (List.range m2).flatMap fun k =>
    pat.map fun ab =>
      ⟨row0 + dof m1 i j + ab.1, col0 + dof m2 k l + ab.2, val i k j l ab.1 ab.2⟩

/-- Body that writes several values to the same `(α, β)`
(`panels/multidomain/connections/kCpd.pyx` lines 258-269). -/
def symBlockW (row0 col0 m : ℕ) (ws : List ((ℕ × ℕ) × (ℕ → ℕ → ℕ → ℕ → K)))
    (i k j l : ℕ) : Coo K :=
  if row0 + dof m i j > col0 + dof m k l then []
  else ws.map fun w => ⟨row0 + dof m i j + w.1.1, col0 + dof m k l + w.1.2, w.2 i k j l⟩

/-- Loop order `i, k, j, l`. -/
def symBuildW (row0 col0 m n : ℕ) (ws : List ((ℕ × ℕ) × (ℕ → ℕ → ℕ → ℕ → K))) : Coo K :=
  (List.range m).flatMap fun i => (List.range m).flatMap fun k =>
  (List.range n).flatMap fun j => (List.range n).flatMap fun l =>
    symBlockW row0 col0 m ws i k j l

/-- Loop order `j, l, i, k`. -/
def symBuildWJL (row0 col0 m n : ℕ) (ws : List ((ℕ × ℕ) × (ℕ → ℕ → ℕ → ℕ → K))) : Coo K :=
  (List.range n).flatMap fun j => (List.range n).flatMap fun l =>
  (List.range m).flatMap fun i => (List.range m).flatMap fun k =>
    symBlockW row0 col0 m ws i k j l


end Verif
