import Verif.Model.Types

/-!
Generated by `/verif/tools/translate.py` from the sources named in the comments; the
expressions are verbatim, decimals are kept as the printed rationals.
-/

set_option linter.unusedVariables false

namespace Verif.Gen.CylAna

variable {K : Type*} [Field K]

/-- `panels/models/cylshell_clpt_donnell_bardell.pyx` (`fk0`), line 234; names from lines
121-124, 181-184. -/
def fk0_00 (I : Tab K) (P : Panel K) (F : Lam K) (i k j l : ℕ) : K :=
  let fAuxifBuxi := I.fpfp i k P.xu P.xu;
  let gAugBu := I.ff j l P.yu P.yu;
  let fAufBuxi := I.ffp i k P.xu P.xu;
  let gAuetagBu := I.ffp l j P.yu P.yu;
  let fAuxifBu := I.ffp k i P.xu P.xu;
  let gAugBueta := I.ffp j l P.yu P.yu;
  let fAufBu := I.ff i k P.xu P.xu;
  let gAuetagBueta := I.fpfp j l P.yu P.yu;
  F.A11*P.b*fAuxifBuxi*gAugBu/P.a + F.A16*(fAufBuxi*gAuetagBu + fAuxifBu*gAugBueta) +
  F.A66*P.a*fAufBu*gAuetagBueta/P.b

/-- `panels/models/cylshell_clpt_donnell_bardell.pyx` (`fk0`), line 238; names from lines
125-128, 185-188. -/
def fk0_01 (I : Tab K) (P : Panel K) (F : Lam K) (i k j l : ℕ) : K :=
  let fAuxifBv := I.ffp k i P.xv P.xu;
  let gAugBveta := I.ffp j l P.yu P.yv;
  let fAuxifBvxi := I.fpfp i k P.xu P.xv;
  let gAugBv := I.ff j l P.yu P.yv;
  let fAufBv := I.ff i k P.xu P.xv;
  let gAuetagBveta := I.fpfp j l P.yu P.yv;
  let fAufBvxi := I.ffp i k P.xu P.xv;
  let gAuetagBv := I.ffp l j P.yv P.yu;
  F.A12*fAuxifBv*gAugBveta + F.A16*P.b*fAuxifBvxi*gAugBv/P.a + F.A26*P.a*fAufBv*gAuetagBveta/P.b
  + F.A66*fAufBvxi*gAuetagBv

/-- `panels/models/cylshell_clpt_donnell_bardell.pyx` (`fk0`), line 242; names from lines
129-134, 189-194. -/
def fk0_02 (I : Tab K) (P : Panel K) (F : Lam K) (i k j l : ℕ) : K :=
  let fAuxifBw := I.ffp k i P.xw P.xu;
  let gAugBw := I.ff j l P.yu P.yw;
  let fAufBw := I.ff i k P.xu P.xw;
  let gAuetagBw := I.ffp l j P.yw P.yu;
  let fAuxifBwxixi := I.fpfpp i k P.xu P.xw;
  let gAugBwetaeta := I.ffpp j l P.yu P.yw;
  let fAufBwxixi := I.ffpp i k P.xu P.xw;
  let fAuxifBwxi := I.fpfp i k P.xu P.xw;
  let gAugBweta := I.ffp j l P.yu P.yw;
  let gAuetagBwetaeta := I.fpfpp j l P.yu P.yw;
  let fAufBwxi := I.ffp i k P.xu P.xw;
  let gAuetagBweta := I.fpfp j l P.yu P.yw;
  (1/2)*F.A12*P.b*fAuxifBw*gAugBw/P.r + (1/2)*F.A26*P.a*fAufBw*gAuetagBw/P.r -
  2*F.B11*P.b*fAuxifBwxixi*gAugBw/(P.a*P.a) - 2*F.B12*fAuxifBw*gAugBwetaeta/P.b -
  2*F.B16*(fAufBwxixi*gAuetagBw + 2*fAuxifBwxi*gAugBweta)/P.a -
  2*F.B26*P.a*fAufBw*gAuetagBwetaeta/(P.b*P.b) - 4*F.B66*fAufBwxi*gAuetagBweta/P.b

/-- `panels/models/cylshell_clpt_donnell_bardell.pyx` (`fk0`), line 246; names from lines
135-138, 195-198. -/
def fk0_10 (I : Tab K) (P : Panel K) (F : Lam K) (i k j l : ℕ) : K :=
  let fAvfBuxi := I.ffp i k P.xv P.xu;
  let gAvetagBu := I.ffp l j P.yu P.yv;
  let fAvxifBuxi := I.fpfp i k P.xv P.xu;
  let gAvgBu := I.ff j l P.yv P.yu;
  let fAvfBu := I.ff i k P.xv P.xu;
  let gAvetagBueta := I.fpfp j l P.yv P.yu;
  let fAvxifBu := I.ffp k i P.xu P.xv;
  let gAvgBueta := I.ffp j l P.yv P.yu;
  F.A12*fAvfBuxi*gAvetagBu + F.A16*P.b*fAvxifBuxi*gAvgBu/P.a + F.A26*P.a*fAvfBu*gAvetagBueta/P.b
  + F.A66*fAvxifBu*gAvgBueta

/-- `panels/models/cylshell_clpt_donnell_bardell.pyx` (`fk0`), line 250; names from lines
139-142, 199-202. -/
def fk0_11 (I : Tab K) (P : Panel K) (F : Lam K) (i k j l : ℕ) : K :=
  let fAvfBv := I.ff i k P.xv P.xv;
  let gAvetagBveta := I.fpfp j l P.yv P.yv;
  let fAvfBvxi := I.ffp i k P.xv P.xv;
  let gAvetagBv := I.ffp l j P.yv P.yv;
  let fAvxifBv := I.ffp k i P.xv P.xv;
  let gAvgBveta := I.ffp j l P.yv P.yv;
  let fAvxifBvxi := I.fpfp i k P.xv P.xv;
  let gAvgBv := I.ff j l P.yv P.yv;
  F.A22*P.a*fAvfBv*gAvetagBveta/P.b + F.A26*(fAvfBvxi*gAvetagBv + fAvxifBv*gAvgBveta) +
  F.A66*P.b*fAvxifBvxi*gAvgBv/P.a

/-- `panels/models/cylshell_clpt_donnell_bardell.pyx` (`fk0`), line 254; names from lines
143-148, 203-208. -/
def fk0_12 (I : Tab K) (P : Panel K) (F : Lam K) (i k j l : ℕ) : K :=
  let fAvfBw := I.ff i k P.xv P.xw;
  let gAvetagBw := I.ffp l j P.yw P.yv;
  let fAvxifBw := I.ffp k i P.xw P.xv;
  let gAvgBw := I.ff j l P.yv P.yw;
  let fAvfBwxixi := I.ffpp i k P.xv P.xw;
  let fAvxifBwxixi := I.fpfpp i k P.xv P.xw;
  let gAvetagBwetaeta := I.fpfpp j l P.yv P.yw;
  let fAvfBwxi := I.ffp i k P.xv P.xw;
  let gAvetagBweta := I.fpfp j l P.yv P.yw;
  let gAvgBwetaeta := I.ffpp j l P.yv P.yw;
  let fAvxifBwxi := I.fpfp i k P.xv P.xw;
  let gAvgBweta := I.ffp j l P.yv P.yw;
  (1/2)*F.A22*P.a*fAvfBw*gAvetagBw/P.r + (1/2)*F.A26*P.b*fAvxifBw*gAvgBw/P.r -
  2*F.B12*fAvfBwxixi*gAvetagBw/P.a - 2*F.B16*P.b*fAvxifBwxixi*gAvgBw/(P.a*P.a) -
  2*F.B22*P.a*fAvfBw*gAvetagBwetaeta/(P.b*P.b) - 2*F.B26*(2*fAvfBwxi*gAvetagBweta +
  fAvxifBw*gAvgBwetaeta)/P.b - 4*F.B66*fAvxifBwxi*gAvgBweta/P.a

/-- `panels/models/cylshell_clpt_donnell_bardell.pyx` (`fk0`), line 258; names from lines
149-154, 209-214. -/
def fk0_20 (I : Tab K) (P : Panel K) (F : Lam K) (i k j l : ℕ) : K :=
  let fAwfBuxi := I.ffp i k P.xw P.xu;
  let gAwgBu := I.ff j l P.yw P.yu;
  let fAwfBu := I.ff i k P.xw P.xu;
  let gAwgBueta := I.ffp j l P.yw P.yu;
  let fAwxixifBuxi := I.fpfpp k i P.xu P.xw;
  let gAwetaetagBu := I.ffpp l j P.yu P.yw;
  let fAwxifBuxi := I.fpfp i k P.xw P.xu;
  let gAwetagBu := I.ffp l j P.yu P.yw;
  let fAwxixifBu := I.ffpp k i P.xu P.xw;
  let gAwetaetagBueta := I.fpfpp l j P.yu P.yw;
  let fAwxifBu := I.ffp k i P.xu P.xw;
  let gAwetagBueta := I.fpfp j l P.yw P.yu;
  (1/2)*F.A12*P.b*fAwfBuxi*gAwgBu/P.r + (1/2)*F.A26*P.a*fAwfBu*gAwgBueta/P.r -
  2*F.B11*P.b*fAwxixifBuxi*gAwgBu/(P.a*P.a) - 2*F.B12*fAwfBuxi*gAwetaetagBu/P.b -
  2*F.B16*(2*fAwxifBuxi*gAwetagBu + fAwxixifBu*gAwgBueta)/P.a -
  2*F.B26*P.a*fAwfBu*gAwetaetagBueta/(P.b*P.b) - 4*F.B66*fAwxifBu*gAwetagBueta/P.b

/-- `panels/models/cylshell_clpt_donnell_bardell.pyx` (`fk0`), line 262; names from lines
155-160, 215-220. -/
def fk0_21 (I : Tab K) (P : Panel K) (F : Lam K) (i k j l : ℕ) : K :=
  let fAwfBv := I.ff i k P.xw P.xv;
  let gAwgBveta := I.ffp j l P.yw P.yv;
  let fAwfBvxi := I.ffp i k P.xw P.xv;
  let gAwgBv := I.ff j l P.yw P.yv;
  let fAwxixifBv := I.ffpp k i P.xv P.xw;
  let fAwxixifBvxi := I.fpfpp k i P.xv P.xw;
  let gAwetaetagBveta := I.fpfpp l j P.yv P.yw;
  let gAwetaetagBv := I.ffpp l j P.yv P.yw;
  let fAwxifBv := I.ffp k i P.xv P.xw;
  let gAwetagBveta := I.fpfp j l P.yw P.yv;
  let fAwxifBvxi := I.fpfp i k P.xw P.xv;
  let gAwetagBv := I.ffp l j P.yv P.yw;
  (1/2)*F.A22*P.a*fAwfBv*gAwgBveta/P.r + (1/2)*F.A26*P.b*fAwfBvxi*gAwgBv/P.r -
  2*F.B12*fAwxixifBv*gAwgBveta/P.a - 2*F.B16*P.b*fAwxixifBvxi*gAwgBv/(P.a*P.a) -
  2*F.B22*P.a*fAwfBv*gAwetaetagBveta/(P.b*P.b) - 2*F.B26*(fAwfBvxi*gAwetaetagBv +
  2*fAwxifBv*gAwetagBveta)/P.b - 4*F.B66*fAwxifBvxi*gAwetagBv/P.a

/-- `panels/models/cylshell_clpt_donnell_bardell.pyx` (`fk0`), line 266; names from lines
161-169, 221-229. -/
def fk0_22 (I : Tab K) (P : Panel K) (F : Lam K) (i k j l : ℕ) : K :=
  let fAwfBw := I.ff i k P.xw P.xw;
  let gAwgBw := I.ff j l P.yw P.yw;
  let fAwfBwxixi := I.ffpp i k P.xw P.xw;
  let fAwxixifBw := I.ffpp k i P.xw P.xw;
  let gAwgBwetaeta := I.ffpp j l P.yw P.yw;
  let gAwetaetagBw := I.ffpp l j P.yw P.yw;
  let fAwfBwxi := I.ffp i k P.xw P.xw;
  let gAwgBweta := I.ffp j l P.yw P.yw;
  let fAwxifBw := I.ffp k i P.xw P.xw;
  let gAwetagBw := I.ffp l j P.yw P.yw;
  let fAwxixifBwxixi := I.fppfpp i k P.xw P.xw;
  let fAwxifBwxixi := I.fpfpp i k P.xw P.xw;
  let fAwxixifBwxi := I.fpfpp k i P.xw P.xw;
  let gAwetaetagBwetaeta := I.fppfpp j l P.yw P.yw;
  let gAwetaetagBweta := I.fpfpp l j P.yw P.yw;
  let gAwetagBwetaeta := I.fpfpp j l P.yw P.yw;
  let fAwxifBwxi := I.fpfp i k P.xw P.xw;
  let gAwetagBweta := I.fpfp j l P.yw P.yw;
  (1/4)*F.A22*P.a*P.b*fAwfBw*gAwgBw/(P.r*P.r) - F.B12*P.b*gAwgBw*(fAwfBwxixi +
  fAwxixifBw)/(P.a*P.r) - F.B22*P.a*fAwfBw*(gAwgBwetaeta + gAwetaetagBw)/(P.b*P.r) -
  2*F.B26*(fAwfBwxi*gAwgBweta + fAwxifBw*gAwetagBw)/P.r +
  4*F.D11*P.b*fAwxixifBwxixi*gAwgBw/(P.a*P.a*P.a) + 4*F.D12*(fAwfBwxixi*gAwetaetagBw +
  fAwxixifBw*gAwgBwetaeta)/(P.a*P.b) + 8*F.D16*(fAwxifBwxixi*gAwetagBw +
  fAwxixifBwxi*gAwgBweta)/(P.a*P.a) + 4*F.D22*P.a*fAwfBw*gAwetaetagBwetaeta/(P.b*P.b*P.b) +
  8*F.D26*(fAwfBwxi*gAwetaetagBweta + fAwxifBw*gAwetagBwetaeta)/(P.b*P.b) +
  16*F.D66*fAwxifBwxi*gAwetagBweta/(P.a*P.b)

/-- The `(α, β)` written by `fk0` (`panels/models/cylshell_clpt_donnell_bardell.pyx`), in program order. -/
def fk0_pat : List (ℕ × ℕ) := [(0,0), (0,1), (0,2), (1,0), (1,1), (1,2), (2,0), (2,1), (2,2)]

/-- Value written by `fk0` at `(row+α, col+β)`. -/
def fk0 (I : Tab K) (P : Panel K) (F : Lam K) (i k j l : ℕ) (α β : ℕ) : K :=
  match α, β with
  | 0, 0 => fk0_00 I P F i k j l
  | 0, 1 => fk0_01 I P F i k j l
  | 0, 2 => fk0_02 I P F i k j l
  | 1, 0 => fk0_10 I P F i k j l
  | 1, 1 => fk0_11 I P F i k j l
  | 1, 2 => fk0_12 I P F i k j l
  | 2, 0 => fk0_20 I P F i k j l
  | 2, 1 => fk0_21 I P F i k j l
  | 2, 2 => fk0_22 I P F i k j l
  | _, _ => 0

/-- `panels/models/cylshell_clpt_donnell_bardell.pyx` (`fkG0`), line 333; names from lines
310-313, 325-328. -/
def fkG0_22 (I : Tab K) (P : Panel K) (Nxx Nxy Nyy : K) (i k j l : ℕ) : K :=
  let fAwxifBwxi := I.fpfp i k P.xw P.xw;
  let gAwgBw := I.ff j l P.yw P.yw;
  let fAwfBwxi := I.ffp i k P.xw P.xw;
  let gAwetagBw := I.ffp l j P.yw P.yw;
  let fAwxifBw := I.ffp k i P.xw P.xw;
  let gAwgBweta := I.ffp j l P.yw P.yw;
  let fAwfBw := I.ff i k P.xw P.xw;
  let gAwetagBweta := I.fpfp j l P.yw P.yw;
  Nxx*P.b*fAwxifBwxi*gAwgBw/P.a + Nxy*(fAwfBwxi*gAwetagBw + fAwxifBw*gAwgBweta) +
  Nyy*P.a*fAwfBw*gAwetagBweta/P.b

/-- The `(α, β)` written by `fkG0` (`panels/models/cylshell_clpt_donnell_bardell.pyx`), in program order. -/
def fkG0_pat : List (ℕ × ℕ) := [(2,2)]

/-- Value written by `fkG0` at `(row+α, col+β)`. -/
def fkG0 (I : Tab K) (P : Panel K) (Nxx Nxy Nyy : K) (i k j l : ℕ) (α β : ℕ) : K :=
  match α, β with
  | 2, 2 => fkG0_22 I P Nxx Nxy Nyy i k j l
  | _, _ => 0

/-- `panels/models/cylshell_clpt_donnell_bardell.pyx` (`fkM`), line 416; names from lines 385,
404. -/
def fkM_00 (I : Tab K) (P : Panel K) (d h rho : K) (i k j l : ℕ) : K :=
  let fAufBu := I.ff i k P.xu P.xu;
  let gAugBu := I.ff j l P.yu P.yu;
  (1/4)*P.a*P.b*fAufBu*gAugBu*h*rho

/-- `panels/models/cylshell_clpt_donnell_bardell.pyx` (`fkM`), line 420; names from lines 386,
405. -/
def fkM_02 (I : Tab K) (P : Panel K) (d h rho : K) (i k j l : ℕ) : K :=
  let fAufBwxi := I.ffp i k P.xu P.xw;
  let gAugBw := I.ff j l P.yu P.yw;
  (1/2)*P.b*d*fAufBwxi*gAugBw*h*rho

/-- `panels/models/cylshell_clpt_donnell_bardell.pyx` (`fkM`), line 424; names from lines 387,
406. -/
def fkM_11 (I : Tab K) (P : Panel K) (d h rho : K) (i k j l : ℕ) : K :=
  let fAvfBv := I.ff i k P.xv P.xv;
  let gAvgBv := I.ff j l P.yv P.yv;
  (1/4)*P.a*P.b*fAvfBv*gAvgBv*h*rho

/-- `panels/models/cylshell_clpt_donnell_bardell.pyx` (`fkM`), line 428; names from lines 388,
407. -/
def fkM_12 (I : Tab K) (P : Panel K) (d h rho : K) (i k j l : ℕ) : K :=
  let fAvfBw := I.ff i k P.xv P.xw;
  let gAvgBweta := I.ffp j l P.yv P.yw;
  (1/2)*P.a*d*fAvfBw*gAvgBweta*h*rho

/-- `panels/models/cylshell_clpt_donnell_bardell.pyx` (`fkM`), line 432; names from lines 389,
408. -/
def fkM_20 (I : Tab K) (P : Panel K) (d h rho : K) (i k j l : ℕ) : K :=
  let fAwxifBu := I.ffp k i P.xu P.xw;
  let gAwgBu := I.ff j l P.yw P.yu;
  (1/2)*P.b*d*fAwxifBu*gAwgBu*h*rho

/-- `panels/models/cylshell_clpt_donnell_bardell.pyx` (`fkM`), line 436; names from lines 390,
409. -/
def fkM_21 (I : Tab K) (P : Panel K) (d h rho : K) (i k j l : ℕ) : K :=
  let fAwfBv := I.ff i k P.xw P.xv;
  let gAwetagBv := I.ffp l j P.yv P.yw;
  (1/2)*P.a*d*fAwfBv*gAwetagBv*h*rho

/-- `panels/models/cylshell_clpt_donnell_bardell.pyx` (`fkM`), line 440; names from lines
391-392, 410-411. -/
def fkM_22 (I : Tab K) (P : Panel K) (d h rho : K) (i k j l : ℕ) : K :=
  let fAwfBw := I.ff i k P.xw P.xw;
  let gAwgBw := I.ff j l P.yw P.yw;
  let gAwetagBweta := I.fpfp j l P.yw P.yw;
  let fAwxifBwxi := I.fpfp i k P.xw P.xw;
  (1/4)*P.a*P.b*h*rho*(fAwfBw*gAwgBw + 4*fAwfBw*gAwetagBweta*((d*d) +
  (833333333333333/10000000000000000)*(h*h))/(P.b*P.b) + 4*fAwxifBwxi*gAwgBw*((d*d) +
  (833333333333333/10000000000000000)*(h*h))/(P.a*P.a))

/-- The `(α, β)` written by `fkM` (`panels/models/cylshell_clpt_donnell_bardell.pyx`), in program order. -/
def fkM_pat : List (ℕ × ℕ) := [(0,0), (0,2), (1,1), (1,2), (2,0), (2,1), (2,2)]

/-- Value written by `fkM` at `(row+α, col+β)`. -/
def fkM (I : Tab K) (P : Panel K) (d h rho : K) (i k j l : ℕ) (α β : ℕ) : K :=
  match α, β with
  | 0, 0 => fkM_00 I P d h rho i k j l
  | 0, 2 => fkM_02 I P d h rho i k j l
  | 1, 1 => fkM_11 I P d h rho i k j l
  | 1, 2 => fkM_12 I P d h rho i k j l
  | 2, 0 => fkM_20 I P d h rho i k j l
  | 2, 1 => fkM_21 I P d h rho i k j l
  | 2, 2 => fkM_22 I P d h rho i k j l
  | _, _ => 0

/-- `panels/models/cylshell_clpt_donnell_bardell.pyx` (`fkAx`), line 499; names from lines
481-482, 494. -/
def fkAx_22 (I : Tab K) (P : Panel K) (beta gamma : K) (i k j l : ℕ) : K :=
  let fAwfBw := I.ff i k P.xw P.xw;
  let gAwgBw := I.ff j l P.yw P.yw;
  let fAwxifBw := I.ffp k i P.xw P.xw;
  -(1/4)*P.a*P.b*(fAwfBw*gAwgBw*gamma + 2*beta*fAwxifBw*gAwgBw/P.a)

/-- The `(α, β)` written by `fkAx` (`panels/models/cylshell_clpt_donnell_bardell.pyx`), in program order. -/
def fkAx_pat : List (ℕ × ℕ) := [(2,2)]

/-- Value written by `fkAx` at `(row+α, col+β)`. -/
def fkAx (I : Tab K) (P : Panel K) (beta gamma : K) (i k j l : ℕ) (α β : ℕ) : K :=
  match α, β with
  | 2, 2 => fkAx_22 I P beta gamma i k j l
  | _, _ => 0

/-- `panels/models/cylshell_clpt_donnell_bardell.pyx` (`fkAy`), line 556; names from lines 539,
551. -/
def fkAy_22 (I : Tab K) (P : Panel K) (beta : K) (i k j l : ℕ) : K :=
  let fAwfBw := I.ff i k P.xw P.xw;
  let gAwetagBw := I.ffp l j P.yw P.yw;
  -(1/2)*P.a*beta*fAwfBw*gAwetagBw

/-- The `(α, β)` written by `fkAy` (`panels/models/cylshell_clpt_donnell_bardell.pyx`), in program order. -/
def fkAy_pat : List (ℕ × ℕ) := [(2,2)]

/-- Value written by `fkAy` at `(row+α, col+β)`. -/
def fkAy (I : Tab K) (P : Panel K) (beta : K) (i k j l : ℕ) (α β : ℕ) : K :=
  match α, β with
  | 2, 2 => fkAy_22 I P beta i k j l
  | _, _ => 0

/-- `panels/models/cylshell_clpt_donnell_bardell.pyx` (`fcA`), line 613; names from lines 596,
608. -/
def fcA_22 (I : Tab K) (P : Panel K) (aeromu : K) (i k j l : ℕ) : K :=
  let fAwfBw := I.ff i k P.xw P.xw;
  let gAwgBw := I.ff j l P.yw P.yw;
  -(1/4)*P.a*aeromu*P.b*fAwfBw*gAwgBw

/-- The `(α, β)` written by `fcA` (`panels/models/cylshell_clpt_donnell_bardell.pyx`), in program order. -/
def fcA_pat : List (ℕ × ℕ) := [(2,2)]

/-- Value written by `fcA` at `(row+α, col+β)`. -/
def fcA (I : Tab K) (P : Panel K) (aeromu : K) (i k j l : ℕ) (α β : ℕ) : K :=
  match α, β with
  | 2, 2 => fcA_22 I P aeromu i k j l
  | _, _ => 0

end Verif.Gen.CylAna
