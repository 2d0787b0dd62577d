import Verif.Gen.PlateAna
import Verif.Gen.CylAna

/-!
# The analytical builders

Loop nests around the generated entry expressions.  Buffers are allocated with `np.zeros(fdim)`,
so positions that are not written stay `(0, 0, 0)` (`Coo.pad`).
-/

namespace Verif.Model

variable {K : Type*} [Field K]

/-- `fk0` (`panels/models/plate_clpt_donnell_bardell.pyx` lines 31-269). -/
def plateFk0 (I : Tab K) (P : Panel K) (F : ℕ → ℕ → K) (row0 col0 : ℕ) : Coo K :=
  Coo.pad (9 * P.m * P.m * P.n * P.n)
    (symBuild row0 col0 P.m P.n Gen.PlateAna.fk0_pat (Gen.PlateAna.fk0 I P (Lam.ofABD F)))

/-- `fkG0` (`panels/models/plate_clpt_donnell_bardell.pyx` lines 272-335). -/
def plateFkG0 (I : Tab K) (P : Panel K) (Nxx Nyy Nxy : K) (row0 col0 : ℕ) : Coo K :=
  Coo.pad (1 * P.m * P.m * P.n * P.n)
    (symBuild row0 col0 P.m P.n Gen.PlateAna.fkG0_pat (Gen.PlateAna.fkG0 I P Nxx Nxy Nyy))

/-- `fkM` (`panels/models/plate_clpt_donnell_bardell.pyx` lines 338-442); `d` is the offset,
`h = sum(plyts)`, `rho = shell.rho`. -/
def plateFkM (I : Tab K) (P : Panel K) (d h rho : K) (row0 col0 : ℕ) : Coo K :=
  Coo.pad (7 * P.m * P.m * P.n * P.n)
    (symBuild row0 col0 P.m P.n Gen.PlateAna.fkM_pat (Gen.PlateAna.fkM I P d h rho))

/-- `fk0` (`panels/models/cylshell_clpt_donnell_bardell.pyx` lines 31-270). -/
def cylFk0 (I : Tab K) (P : Panel K) (F : ℕ → ℕ → K) (row0 col0 : ℕ) : Coo K :=
  Coo.pad (9 * P.m * P.m * P.n * P.n)
    (symBuild row0 col0 P.m P.n Gen.CylAna.fk0_pat (Gen.CylAna.fk0 I P (Lam.ofABD F)))

/-- `fkG0` (`panels/models/cylshell_clpt_donnell_bardell.pyx` lines 273-337). -/
def cylFkG0 (I : Tab K) (P : Panel K) (Nxx Nyy Nxy : K) (row0 col0 : ℕ) : Coo K :=
  Coo.pad (1 * P.m * P.m * P.n * P.n)
    (symBuild row0 col0 P.m P.n Gen.CylAna.fkG0_pat (Gen.CylAna.fkG0 I P Nxx Nxy Nyy))

/-- `fkM` (`panels/models/cylshell_clpt_donnell_bardell.pyx` lines 340-444). -/
def cylFkM (I : Tab K) (P : Panel K) (d h rho : K) (row0 col0 : ℕ) : Coo K :=
  Coo.pad (7 * P.m * P.m * P.n * P.n)
    (symBuild row0 col0 P.m P.n Gen.CylAna.fkM_pat (Gen.CylAna.fkM I P d h rho))

/-- `fkAx` (`panels/models/plate_clpt_donnell_bardell.pyx` lines 445-500); not called by
`Shell`, only by `StiffPanelBay`-like user code. -/
def plateFkAx (I : Tab K) (P : Panel K) (beta : K) (row0 col0 : ℕ) : Coo K :=
  Coo.pad (1 * P.m * P.n * P.m * P.n)
    (symBuild row0 col0 P.m P.n Gen.PlateAna.fkAx_pat (Gen.PlateAna.fkAx I P beta))

/-- `fkAy` (`panels/models/plate_clpt_donnell_bardell.pyx` lines 503-557). -/
def plateFkAy (I : Tab K) (P : Panel K) (beta : K) (row0 col0 : ℕ) : Coo K :=
  Coo.pad (1 * P.m * P.n * P.m * P.n)
    (symBuild row0 col0 P.m P.n Gen.PlateAna.fkAy_pat (Gen.PlateAna.fkAy I P beta))

/-- `fcA` (`panels/models/plate_clpt_donnell_bardell.pyx` lines 560-614). -/
def plateFcA (I : Tab K) (P : Panel K) (aeromu : K) (row0 col0 : ℕ) : Coo K :=
  Coo.pad (1 * P.m * P.n * P.m * P.n)
    (symBuild row0 col0 P.m P.n Gen.PlateAna.fcA_pat (Gen.PlateAna.fcA I P aeromu))

/-- `fkAx` (`panels/models/cylshell_clpt_donnell_bardell.pyx` lines 447-503). -/
def cylFkAx (I : Tab K) (P : Panel K) (beta gamma : K) (row0 col0 : ℕ) : Coo K :=
  Coo.pad (1 * P.m * P.n * P.m * P.n)
    (symBuild row0 col0 P.m P.n Gen.CylAna.fkAx_pat (Gen.CylAna.fkAx I P beta gamma))

/-- `fkAy` (`panels/models/cylshell_clpt_donnell_bardell.pyx` lines 506-560). -/
def cylFkAy (I : Tab K) (P : Panel K) (beta : K) (row0 col0 : ℕ) : Coo K :=
  Coo.pad (1 * P.m * P.n * P.m * P.n)
    (symBuild row0 col0 P.m P.n Gen.CylAna.fkAy_pat (Gen.CylAna.fkAy I P beta))

/-- `fcA` (`panels/models/cylshell_clpt_donnell_bardell.pyx` lines 563-617). -/
def cylFcA (I : Tab K) (P : Panel K) (aeromu : K) (row0 col0 : ℕ) : Coo K :=
  Coo.pad (1 * P.m * P.n * P.m * P.n)
    (symBuild row0 col0 P.m P.n Gen.CylAna.fcA_pat (Gen.CylAna.fcA I P aeromu))

end Verif.Model
