import Verif.Model.Types

/-!
Generated by `/verif/tools/translate.py` from the sources named in the comments; the
expressions are verbatim, decimals are kept as the printed rationals.
-/

set_option linter.unusedVariables false

namespace Verif.Gen.Blade2D

variable {K : Type*} [Field K]

/-- `panels/stiffener/models/bladestiff2d_clt_donnell_bardell.pyx` (`fkCss`), line 81; names
from lines 42, 55, 60, 73. -/
def fkCss_00 (S : Shape K) (I : Tab K) (P : Panel K) (kr kt ys : K) (i k j l : ℕ) : K :=
  let fAufBu := I.ff i k P.xu P.xu;
  let eta := 2*ys/P.b - 1;
  let gAu := S.f j eta P.yu;
  let gBu := S.f l eta P.yu;
  (1/2)*P.a*fAufBu*gAu*gBu*kt

/-- `panels/stiffener/models/bladestiff2d_clt_donnell_bardell.pyx` (`fkCss`), line 85; names
from lines 42, 56, 61, 74. -/
def fkCss_11 (S : Shape K) (I : Tab K) (P : Panel K) (kr kt ys : K) (i k j l : ℕ) : K :=
  let fAvfBv := I.ff i k P.xv P.xv;
  let eta := 2*ys/P.b - 1;
  let gAv := S.f j eta P.yv;
  let gBv := S.f l eta P.yv;
  (1/2)*P.a*fAvfBv*gAv*gBv*kt

/-- `panels/stiffener/models/bladestiff2d_clt_donnell_bardell.pyx` (`fkCss`), line 89; names
from lines 42, 57, 62-63, 75-76. -/
def fkCss_22 (S : Shape K) (I : Tab K) (P : Panel K) (kr kt ys : K) (i k j l : ℕ) : K :=
  let fAwfBw := I.ff i k P.xw P.xw;
  let eta := 2*ys/P.b - 1;
  let gAw := S.f j eta P.yw;
  let gBw := S.f l eta P.yw;
  let gAweta := S.fp j eta P.yw;
  let gBweta := S.fp l eta P.yw;
  (1/2)*P.a*(fAwfBw*gAw*gBw*kt + 4*fAwfBw*gAweta*gBweta*kr/(P.b*P.b))

/-- The `(α, β)` written by `fkCss` (`panels/stiffener/models/bladestiff2d_clt_donnell_bardell.pyx`), in program order. -/
def fkCss_pat : List (ℕ × ℕ) := [(0,0), (1,1), (2,2)]

/-- Value written by `fkCss` at `(row+α, col+β)`. -/
def fkCss (S : Shape K) (I : Tab K) (P : Panel K) (kr kt ys : K) (i k j l : ℕ) (α β : ℕ) : K :=
  match α, β with
  | 0, 0 => fkCss_00 S I P kr kt ys i k j l
  | 1, 1 => fkCss_11 S I P kr kt ys i k j l
  | 2, 2 => fkCss_22 S I P kr kt ys i k j l
  | _, _ => 0

/-- `panels/stiffener/models/bladestiff2d_clt_donnell_bardell.pyx` (`fkCsf`), line 160; names
from lines 120, 133, 139, 152. -/
def fkCsf_00 (S : Shape K) (I : Tab K) (P Pf : Panel K) (bf kr kt ys : K) (i k1 j l1 : ℕ) : K :=
  let fAurBu := I.ff i k1 P.xu Pf.xu;
  let eta := 2*ys/P.b - 1;
  let gAu := S.f j eta P.yu;
  let sBu := S.f l1 (-1) Pf.yu;
  -(1/2)*P.a*fAurBu*gAu*kt*sBu

/-- `panels/stiffener/models/bladestiff2d_clt_donnell_bardell.pyx` (`fkCsf`), line 164; names
from lines 120, 134, 140, 154. -/
def fkCsf_12 (S : Shape K) (I : Tab K) (P Pf : Panel K) (bf kr kt ys : K) (i k1 j l1 : ℕ) : K :=
  let fAvrBw := I.ff i k1 P.xv Pf.xw;
  let eta := 2*ys/P.b - 1;
  let gAv := S.f j eta P.yv;
  let sBw := S.f l1 (-1) Pf.yw;
  -(1/2)*P.a*fAvrBw*gAv*kt*sBw

/-- `panels/stiffener/models/bladestiff2d_clt_donnell_bardell.pyx` (`fkCsf`), line 168; names
from lines 120, 135, 141, 153. -/
def fkCsf_21 (S : Shape K) (I : Tab K) (P Pf : Panel K) (bf kr kt ys : K) (i k1 j l1 : ℕ) : K :=
  let fAwrBv := I.ff i k1 P.xw Pf.xv;
  let eta := 2*ys/P.b - 1;
  let gAw := S.f j eta P.yw;
  let sBv := S.f l1 (-1) Pf.yv;
  (1/2)*P.a*fAwrBv*gAw*kt*sBv

/-- `panels/stiffener/models/bladestiff2d_clt_donnell_bardell.pyx` (`fkCsf`), line 172; names
from lines 120, 136, 142, 155. -/
def fkCsf_22 (S : Shape K) (I : Tab K) (P Pf : Panel K) (bf kr kt ys : K) (i k1 j l1 : ℕ) : K :=
  let fAwrBw := I.ff i k1 P.xw Pf.xw;
  let eta := 2*ys/P.b - 1;
  let gAweta := S.fp j eta P.yw;
  let sBweta := S.fp l1 (-1) Pf.yw;
  -2*P.a*fAwrBw*gAweta*kr*sBweta/(P.b*bf)

/-- The `(α, β)` written by `fkCsf` (`panels/stiffener/models/bladestiff2d_clt_donnell_bardell.pyx`), in program order. -/
def fkCsf_pat : List (ℕ × ℕ) := [(0,0), (1,2), (2,1), (2,2)]

/-- Value written by `fkCsf` at `(row+α, col+β)`. -/
def fkCsf (S : Shape K) (I : Tab K) (P Pf : Panel K) (bf kr kt ys : K) (i k1 j l1 : ℕ) (α β : ℕ) : K :=
  match α, β with
  | 0, 0 => fkCsf_00 S I P Pf bf kr kt ys i k1 j l1
  | 1, 2 => fkCsf_12 S I P Pf bf kr kt ys i k1 j l1
  | 2, 1 => fkCsf_21 S I P Pf bf kr kt ys i k1 j l1
  | 2, 2 => fkCsf_22 S I P Pf bf kr kt ys i k1 j l1
  | _, _ => 0

/-- `panels/stiffener/models/bladestiff2d_clt_donnell_bardell.pyx` (`fkCff`), line 233; names
from lines 207, 212, 225. -/
def fkCff_00 (S : Shape K) (I : Tab K) (P Pf : Panel K) (bf kr kt : K) (i1 k1 j1 l1 : ℕ) : K :=
  let rAurBu := I.ff i1 k1 Pf.xu Pf.xu;
  let sAu := S.f j1 (-1) Pf.yu;
  let sBu := S.f l1 (-1) Pf.yu;
  (1/2)*P.a*kt*rAurBu*sAu*sBu

/-- `panels/stiffener/models/bladestiff2d_clt_donnell_bardell.pyx` (`fkCff`), line 237; names
from lines 208, 213, 226. -/
def fkCff_11 (S : Shape K) (I : Tab K) (P Pf : Panel K) (bf kr kt : K) (i1 k1 j1 l1 : ℕ) : K :=
  let rAvrBv := I.ff i1 k1 Pf.xv Pf.xv;
  let sAv := S.f j1 (-1) Pf.yv;
  let sBv := S.f l1 (-1) Pf.yv;
  (1/2)*P.a*kt*rAvrBv*sAv*sBv

/-- `panels/stiffener/models/bladestiff2d_clt_donnell_bardell.pyx` (`fkCff`), line 241; names
from lines 209, 214-215, 227-228. -/
def fkCff_22 (S : Shape K) (I : Tab K) (P Pf : Panel K) (bf kr kt : K) (i1 k1 j1 l1 : ℕ) : K :=
  let rAwrBw := I.ff i1 k1 Pf.xw Pf.xw;
  let sAw := S.f j1 (-1) Pf.yw;
  let sBw := S.f l1 (-1) Pf.yw;
  let sAweta := S.fp j1 (-1) Pf.yw;
  let sBweta := S.fp l1 (-1) Pf.yw;
  (1/2)*P.a*(kt*rAwrBw*sAw*sBw + 4*kr*rAwrBw*sAweta*sBweta/(bf*bf))

/-- The `(α, β)` written by `fkCff` (`panels/stiffener/models/bladestiff2d_clt_donnell_bardell.pyx`), in program order. -/
def fkCff_pat : List (ℕ × ℕ) := [(0,0), (1,1), (2,2)]

/-- Value written by `fkCff` at `(row+α, col+β)`. -/
def fkCff (S : Shape K) (I : Tab K) (P Pf : Panel K) (bf kr kt : K) (i1 k1 j1 l1 : ℕ) (α β : ℕ) : K :=
  match α, β with
  | 0, 0 => fkCff_00 S I P Pf bf kr kt i1 k1 j1 l1
  | 1, 1 => fkCff_11 S I P Pf bf kr kt i1 k1 j1 l1
  | 2, 2 => fkCff_22 S I P Pf bf kr kt i1 k1 j1 l1
  | _, _ => 0

end Verif.Gen.Blade2D
