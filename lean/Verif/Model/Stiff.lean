import Verif.Basic.Cross
import Verif.Gen.Blade1D
import Verif.Gen.Blade2D

/-!
# Builders of the stiffeners

`panels/stiffener/models/bladestiff1d_clt_donnell_bardell.pyx` and
`panels/stiffener/models/bladestiff2d_clt_donnell_bardell.pyx`.
-/

namespace Verif.Model

variable {K : Type*} [Field K]

/-- `fkCf` (`bladestiff1d_clt_donnell_bardell.pyx` lines 34-112). -/
def fkCf (S : Shape K) (I : Tab K) (P : Panel K) (ys bf df E1 F1 S1 Jxx : K) (row0 col0 : ℕ) :
    Coo K :=
  Coo.pad (4 * P.m * P.n * P.m * P.n)
    (symBuild row0 col0 P.m P.n Gen.Blade1D.fkCf_pat (Gen.Blade1D.fkCf S I P E1 F1 Jxx S1 bf df ys))

/-- `fkGf` (`bladestiff1d_clt_donnell_bardell.pyx` lines 115-162). -/
def fkGf (S : Shape K) (I : Tab K) (P : Panel K) (ys Fx : K) (row0 col0 : ℕ) : Coo K :=
  Coo.pad (1 * P.m * P.n * P.m * P.n)
    (symBuild row0 col0 P.m P.n Gen.Blade1D.fkGf_pat (Gen.Blade1D.fkGf S I P Fx ys))

/-- `fkMf` (`bladestiff1d_clt_donnell_bardell.pyx` lines 165-260). -/
def fkMf (S : Shape K) (I : Tab K) (P : Panel K) (ys rho h hb hf bf df : K) (row0 col0 : ℕ) :
    Coo K :=
  Coo.pad (7 * P.m * P.n * P.m * P.n)
    (symBuild row0 col0 P.m P.n Gen.Blade1D.fkMf_pat
      (Gen.Blade1D.fkMf S I P bf df h hb hf rho ys))

/-- `fkCss` (`bladestiff2d_clt_donnell_bardell.pyx` lines 25-93). -/
def fkCss (S : Shape K) (I : Tab K) (P : Panel K) (kt kr ys : K) (row0 col0 : ℕ) : Coo K :=
  Coo.pad (3 * P.m * P.n * P.m * P.n)
    (symBuild row0 col0 P.m P.n Gen.Blade2D.fkCss_pat (Gen.Blade2D.fkCss S I P kr kt ys))

/-- `fkCsf` (`bladestiff2d_clt_donnell_bardell.pyx` lines 96-176); `Pf` is the flange. -/
def fkCsf (S : Shape K) (I : Tab K) (P Pf : Panel K) (kt kr ys bf : K) (row0 col0 : ℕ) : Coo K :=
  Coo.pad (4 * P.m * P.n * Pf.m * Pf.n)
    (crossBuild row0 col0 P.m P.n Pf.m Pf.n Gen.Blade2D.fkCsf_pat
      (Gen.Blade2D.fkCsf S I P Pf bf kr kt ys))

/-- `fkCff` (`bladestiff2d_clt_donnell_bardell.pyx` lines 179-245). -/
def fkCff (S : Shape K) (I : Tab K) (P Pf : Panel K) (kt kr bf : K) (row0 col0 : ℕ) : Coo K :=
  Coo.pad (3 * Pf.m * Pf.n * Pf.m * Pf.n)
    (symBuild row0 col0 Pf.m Pf.n Gen.Blade2D.fkCff_pat (Gen.Blade2D.fkCff S I P Pf bf kr kt))

/-- The three blocks of the skin-flange connection added by `BladeStiff2D.calc_kC`
(`panels/stiffener/bladestiff2d.py` lines 128-158). -/
def bladeConn (S : Shape K) (I : Tab K) (P Pf : Panel K) (kt kr ys : K) (s sf : ℕ) : Coo K :=
  fkCss S I P kt kr ys s s ++ fkCsf S I P Pf kt kr ys Pf.b s sf ++ fkCff S I P Pf kt kr Pf.b sf sf

end Verif.Model
