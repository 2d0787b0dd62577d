import Verif.Model.Types

/-!
Generated by `/verif/tools/translate.py` from the sources named in the comments; the
expressions are verbatim, decimals are kept as the printed rationals.
-/

set_option linter.unusedVariables false

namespace Verif.Gen.Blade1D

variable {K : Type*} [Field K]

/-- `panels/stiffener/models/bladestiff1d_clt_donnell_bardell.pyx` (`fkCf`), line 96; names from
lines 52, 65, 76, 89. -/
def fkCf_00 (S : Shape K) (I : Tab K) (P : Panel K) (E1 F1 Jxx S1 bf df ys : K) (i k j l : ℕ) : K :=
  let fAuxifBuxi := I.fpfp i k P.xu P.xu;
  let eta := 2*ys/P.b - 1;
  let gAu := S.f j eta P.yu;
  let gBu := S.f l eta P.yu;
  2*E1*bf*fAuxifBuxi*gAu*gBu/P.a

/-- `panels/stiffener/models/bladestiff1d_clt_donnell_bardell.pyx` (`fkCf`), line 100; names
from lines 52, 66-67, 76, 90-91. -/
def fkCf_02 (S : Shape K) (I : Tab K) (P : Panel K) (E1 F1 Jxx S1 bf df ys : K) (i k j l : ℕ) : K :=
  let fAuxifBwxixi := I.fpfpp i k P.xu P.xw;
  let eta := 2*ys/P.b - 1;
  let gAu := S.f j eta P.yu;
  let gBw := S.f l eta P.yw;
  let fAuxifBwxi := I.fpfp i k P.xu P.xw;
  let gBweta := S.fp l eta P.yw;
  (1/2)*P.a*bf*(8*E1*df*fAuxifBwxixi*gAu*gBw/(P.a*P.a*P.a) -
  8*S1*fAuxifBwxi*gAu*gBweta/((P.a*P.a)*P.b))

/-- `panels/stiffener/models/bladestiff1d_clt_donnell_bardell.pyx` (`fkCf`), line 104; names
from lines 52, 68-69, 77-78, 89. -/
def fkCf_20 (S : Shape K) (I : Tab K) (P : Panel K) (E1 F1 Jxx S1 bf df ys : K) (i k j l : ℕ) : K :=
  let eta := 2*ys/P.b - 1;
  let gBu := S.f l eta P.yu;
  let fAwxixifBuxi := I.fpfpp k i P.xu P.xw;
  let gAw := S.f j eta P.yw;
  let fAwxifBuxi := I.fpfp i k P.xw P.xu;
  let gAweta := S.fp j eta P.yw;
  bf*gBu*(4*E1*df*fAwxixifBuxi*gAw/(P.a*P.a) - 4*S1*fAwxifBuxi*gAweta/(P.a*P.b))

/-- `panels/stiffener/models/bladestiff1d_clt_donnell_bardell.pyx` (`fkCf`), line 108; names
from lines 52, 70-73, 77-78, 90-91. -/
def fkCf_22 (S : Shape K) (I : Tab K) (P : Panel K) (E1 F1 Jxx S1 bf df ys : K) (i k j l : ℕ) : K :=
  let eta := 2*ys/P.b - 1;
  let gBweta := S.fp l eta P.yw;
  let fAwxifBwxi := I.fpfp i k P.xw P.xw;
  let gAweta := S.fp j eta P.yw;
  let fAwxixifBwxi := I.fpfpp k i P.xw P.xw;
  let gAw := S.f j eta P.yw;
  let gBw := S.f l eta P.yw;
  let fAwxifBwxixi := I.fpfpp i k P.xw P.xw;
  let fAwxixifBwxixi := I.fppfpp i k P.xw P.xw;
  (1/2)*P.a*bf*(-4*gBweta*(-4*Jxx*fAwxifBwxi*gAweta/(P.a*P.b) +
  4*S1*df*fAwxixifBwxi*gAw/(P.a*P.a))/(P.a*P.b) - 4*gBw*(4*S1*df*fAwxifBwxixi*gAweta/(P.a*P.b) +
  fAwxixifBwxixi*gAw*(-4*E1*(df*df) - 4*F1)/(P.a*P.a))/(P.a*P.a))

/-- The `(α, β)` written by `fkCf` (`panels/stiffener/models/bladestiff1d_clt_donnell_bardell.pyx`), in program order. -/
def fkCf_pat : List (ℕ × ℕ) := [(0,0), (0,2), (2,0), (2,2)]

/-- Value written by `fkCf` at `(row+α, col+β)`. -/
def fkCf (S : Shape K) (I : Tab K) (P : Panel K) (E1 F1 Jxx S1 bf df ys : K) (i k j l : ℕ) (α β : ℕ) : K :=
  match α, β with
  | 0, 0 => fkCf_00 S I P E1 F1 Jxx S1 bf df ys i k j l
  | 0, 2 => fkCf_02 S I P E1 F1 Jxx S1 bf df ys i k j l
  | 2, 0 => fkCf_20 S I P E1 F1 Jxx S1 bf df ys i k j l
  | 2, 2 => fkCf_22 S I P E1 F1 Jxx S1 bf df ys i k j l
  | _, _ => 0

/-- `panels/stiffener/models/bladestiff1d_clt_donnell_bardell.pyx` (`fkGf`), line 158; names
from lines 127, 140, 143, 153. -/
def fkGf_22 (S : Shape K) (I : Tab K) (P : Panel K) (Fx ys : K) (i k j l : ℕ) : K :=
  let fAwxifBwxi := I.fpfp i k P.xw P.xw;
  let eta := 2*ys/P.b - 1;
  let gAw := S.f j eta P.yw;
  let gBw := S.f l eta P.yw;
  2*Fx*fAwxifBwxi*gAw*gBw/P.a

/-- The `(α, β)` written by `fkGf` (`panels/stiffener/models/bladestiff1d_clt_donnell_bardell.pyx`), in program order. -/
def fkGf_pat : List (ℕ × ℕ) := [(2,2)]

/-- Value written by `fkGf` at `(row+α, col+β)`. -/
def fkGf (S : Shape K) (I : Tab K) (P : Panel K) (Fx ys : K) (i k j l : ℕ) (α β : ℕ) : K :=
  match α, β with
  | 2, 2 => fkGf_22 S I P Fx ys i k j l
  | _, _ => 0

/-- `panels/stiffener/models/bladestiff1d_clt_donnell_bardell.pyx` (`fkMf`), line 232; names
from lines 185, 199, 210, 224. -/
def fkMf_00 (S : Shape K) (I : Tab K) (P : Panel K) (bf df h hb hf rho ys : K) (i k j l : ℕ) : K :=
  let fAufBu := I.ff i k P.xu P.xu;
  let eta := 2*ys/P.b - 1;
  let gAu := S.f j eta P.yu;
  let gBu := S.f l eta P.yu;
  (1/2)*P.a*bf*fAufBu*gAu*gBu*hf*rho

/-- `panels/stiffener/models/bladestiff1d_clt_donnell_bardell.pyx` (`fkMf`), line 236; names
from lines 185, 200, 210, 226. -/
def fkMf_02 (S : Shape K) (I : Tab K) (P : Panel K) (bf df h hb hf rho ys : K) (i k j l : ℕ) : K :=
  let fAufBwxi := I.ffp i k P.xu P.xw;
  let eta := 2*ys/P.b - 1;
  let gAu := S.f j eta P.yu;
  let gBw := S.f l eta P.yw;
  2*bf*df*fAufBwxi*gAu*gBw*hf*rho

/-- `panels/stiffener/models/bladestiff1d_clt_donnell_bardell.pyx` (`fkMf`), line 240; names
from lines 185, 201, 211, 225. -/
def fkMf_11 (S : Shape K) (I : Tab K) (P : Panel K) (bf df h hb hf rho ys : K) (i k j l : ℕ) : K :=
  let fAvfBv := I.ff i k P.xv P.xv;
  let eta := 2*ys/P.b - 1;
  let gAv := S.f j eta P.yv;
  let gBv := S.f l eta P.yv;
  (1/2)*P.a*bf*fAvfBv*gAv*gBv*hf*rho

/-- `panels/stiffener/models/bladestiff1d_clt_donnell_bardell.pyx` (`fkMf`), line 244; names
from lines 185, 202, 211, 227. -/
def fkMf_12 (S : Shape K) (I : Tab K) (P : Panel K) (bf df h hb hf rho ys : K) (i k j l : ℕ) : K :=
  let fAvfBw := I.ff i k P.xv P.xw;
  let eta := 2*ys/P.b - 1;
  let gAv := S.f j eta P.yv;
  let gBweta := S.fp l eta P.yw;
  2*P.a*bf*df*fAvfBw*gAv*gBweta*hf*rho/P.b

/-- `panels/stiffener/models/bladestiff1d_clt_donnell_bardell.pyx` (`fkMf`), line 248; names
from lines 185, 203, 212, 224. -/
def fkMf_20 (S : Shape K) (I : Tab K) (P : Panel K) (bf df h hb hf rho ys : K) (i k j l : ℕ) : K :=
  let fAwxifBu := I.ffp k i P.xu P.xw;
  let eta := 2*ys/P.b - 1;
  let gAw := S.f j eta P.yw;
  let gBu := S.f l eta P.yu;
  2*bf*df*fAwxifBu*gAw*gBu*hf*rho

/-- `panels/stiffener/models/bladestiff1d_clt_donnell_bardell.pyx` (`fkMf`), line 252; names
from lines 185, 204, 213, 225. -/
def fkMf_21 (S : Shape K) (I : Tab K) (P : Panel K) (bf df h hb hf rho ys : K) (i k j l : ℕ) : K :=
  let fAwfBv := I.ff i k P.xw P.xv;
  let eta := 2*ys/P.b - 1;
  let gAweta := S.fp j eta P.yw;
  let gBv := S.f l eta P.yv;
  2*P.a*bf*df*fAwfBv*gAweta*gBv*hf*rho/P.b

/-- `panels/stiffener/models/bladestiff1d_clt_donnell_bardell.pyx` (`fkMf`), line 256; names
from lines 185, 205-206, 212-213, 226-227. -/
def fkMf_22 (S : Shape K) (I : Tab K) (P : Panel K) (bf df h hb hf rho ys : K) (i k j l : ℕ) : K :=
  let fAwfBw := I.ff i k P.xw P.xw;
  let eta := 2*ys/P.b - 1;
  let gAw := S.f j eta P.yw;
  let gBw := S.f l eta P.yw;
  let gAweta := S.fp j eta P.yw;
  let gBweta := S.fp l eta P.yw;
  let fAwxifBwxi := I.fpfp i k P.xw P.xw;
  (166666666666667/1000000000000000)*bf*hf*rho*((P.a*P.a)*fAwfBw*(3*(P.b*P.b)*gAw*gBw +
  gAweta*gBweta*(4*(bf*bf) + 6*bf*(h + 2*hb) + 3*(h + 2*hb)^2)) +
  (P.b*P.b)*fAwxifBwxi*gAw*gBw*(4*(bf*bf) + 6*bf*(h + 2*hb) + 3*(h + 2*hb)^2))/(P.a*(P.b*P.b))

/-- The `(α, β)` written by `fkMf` (`panels/stiffener/models/bladestiff1d_clt_donnell_bardell.pyx`), in program order. -/
def fkMf_pat : List (ℕ × ℕ) := [(0,0), (0,2), (1,1), (1,2), (2,0), (2,1), (2,2)]

/-- Value written by `fkMf` at `(row+α, col+β)`. -/
def fkMf (S : Shape K) (I : Tab K) (P : Panel K) (bf df h hb hf rho ys : K) (i k j l : ℕ) (α β : ℕ) : K :=
  match α, β with
  | 0, 0 => fkMf_00 S I P bf df h hb hf rho ys i k j l
  | 0, 2 => fkMf_02 S I P bf df h hb hf rho ys i k j l
  | 1, 1 => fkMf_11 S I P bf df h hb hf rho ys i k j l
  | 1, 2 => fkMf_12 S I P bf df h hb hf rho ys i k j l
  | 2, 0 => fkMf_20 S I P bf df h hb hf rho ys i k j l
  | 2, 1 => fkMf_21 S I P bf df h hb hf rho ys i k j l
  | 2, 2 => fkMf_22 S I P bf df h hb hf rho ys i k j l
  | _, _ => 0

end Verif.Gen.Blade1D
