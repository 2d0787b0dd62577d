import Verif.Model.Types

/-!
Generated by `/verif/tools/translate.py` from the sources named in the comments; the
expressions are verbatim, decimals are kept as the printed rationals.
-/

set_option linter.unusedVariables false

namespace Verif.Gen.PlateAna

variable {K : Type*} [Field K]

/-- `panels/models/plate_clpt_donnell_bardell.pyx` (`fk0`), line 233; names from lines 120-123,
180-183. -/
def fk0_00 (I : Tab K) (P : Panel K) (F : Lam K) (i k j l : ℕ) : K :=
  let fAuxifBuxi := I.fpfp i k P.xu P.xu;
  let gAugBu := I.ff j l P.yu P.yu;
  let fAufBuxi := I.ffp i k P.xu P.xu;
  let gAuetagBu := I.ffp l j P.yu P.yu;
  let fAuxifBu := I.ffp k i P.xu P.xu;
  let gAugBueta := I.ffp j l P.yu P.yu;
  let fAufBu := I.ff i k P.xu P.xu;
  let gAuetagBueta := I.fpfp j l P.yu P.yu;
  F.A11*P.b*fAuxifBuxi*gAugBu/P.a + F.A16*(fAufBuxi*gAuetagBu + fAuxifBu*gAugBueta) +
  F.A66*P.a*fAufBu*gAuetagBueta/P.b

/-- `panels/models/plate_clpt_donnell_bardell.pyx` (`fk0`), line 237; names from lines 124-127,
184-187. -/
def fk0_01 (I : Tab K) (P : Panel K) (F : Lam K) (i k j l : ℕ) : K :=
  let fAuxifBv := I.ffp k i P.xv P.xu;
  let gAugBveta := I.ffp j l P.yu P.yv;
  let fAuxifBvxi := I.fpfp i k P.xu P.xv;
  let gAugBv := I.ff j l P.yu P.yv;
  let fAufBv := I.ff i k P.xu P.xv;
  let gAuetagBveta := I.fpfp j l P.yu P.yv;
  let fAufBvxi := I.ffp i k P.xu P.xv;
  let gAuetagBv := I.ffp l j P.yv P.yu;
  F.A12*fAuxifBv*gAugBveta + F.A16*P.b*fAuxifBvxi*gAugBv/P.a + F.A26*P.a*fAufBv*gAuetagBveta/P.b
  + F.A66*fAufBvxi*gAuetagBv

/-- `panels/models/plate_clpt_donnell_bardell.pyx` (`fk0`), line 241; names from lines 128-133,
188-193. -/
def fk0_02 (I : Tab K) (P : Panel K) (F : Lam K) (i k j l : ℕ) : K :=
  let fAuxifBwxixi := I.fpfpp i k P.xu P.xw;
  let gAugBw := I.ff j l P.yu P.yw;
  let fAuxifBw := I.ffp k i P.xw P.xu;
  let gAugBwetaeta := I.ffpp j l P.yu P.yw;
  let fAufBwxixi := I.ffpp i k P.xu P.xw;
  let gAuetagBw := I.ffp l j P.yw P.yu;
  let fAuxifBwxi := I.fpfp i k P.xu P.xw;
  let gAugBweta := I.ffp j l P.yu P.yw;
  let fAufBw := I.ff i k P.xu P.xw;
  let gAuetagBwetaeta := I.fpfpp j l P.yu P.yw;
  let fAufBwxi := I.ffp i k P.xu P.xw;
  let gAuetagBweta := I.fpfp j l P.yu P.yw;
  -2*F.B11*P.b*fAuxifBwxixi*gAugBw/(P.a*P.a) - 2*F.B12*fAuxifBw*gAugBwetaeta/P.b -
  2*F.B16*(fAufBwxixi*gAuetagBw + 2*fAuxifBwxi*gAugBweta)/P.a -
  2*F.B26*P.a*fAufBw*gAuetagBwetaeta/(P.b*P.b) - 4*F.B66*fAufBwxi*gAuetagBweta/P.b

/-- `panels/models/plate_clpt_donnell_bardell.pyx` (`fk0`), line 245; names from lines 134-137,
194-197. -/
def fk0_10 (I : Tab K) (P : Panel K) (F : Lam K) (i k j l : ℕ) : K :=
  let fAvfBuxi := I.ffp i k P.xv P.xu;
  let gAvetagBu := I.ffp l j P.yu P.yv;
  let fAvxifBuxi := I.fpfp i k P.xv P.xu;
  let gAvgBu := I.ff j l P.yv P.yu;
  let fAvfBu := I.ff i k P.xv P.xu;
  let gAvetagBueta := I.fpfp j l P.yv P.yu;
  let fAvxifBu := I.ffp k i P.xu P.xv;
  let gAvgBueta := I.ffp j l P.yv P.yu;
  F.A12*fAvfBuxi*gAvetagBu + F.A16*P.b*fAvxifBuxi*gAvgBu/P.a + F.A26*P.a*fAvfBu*gAvetagBueta/P.b
  + F.A66*fAvxifBu*gAvgBueta

/-- `panels/models/plate_clpt_donnell_bardell.pyx` (`fk0`), line 249; names from lines 138-141,
198-201. -/
def fk0_11 (I : Tab K) (P : Panel K) (F : Lam K) (i k j l : ℕ) : K :=
  let fAvfBv := I.ff i k P.xv P.xv;
  let gAvetagBveta := I.fpfp j l P.yv P.yv;
  let fAvfBvxi := I.ffp i k P.xv P.xv;
  let gAvetagBv := I.ffp l j P.yv P.yv;
  let fAvxifBv := I.ffp k i P.xv P.xv;
  let gAvgBveta := I.ffp j l P.yv P.yv;
  let fAvxifBvxi := I.fpfp i k P.xv P.xv;
  let gAvgBv := I.ff j l P.yv P.yv;
  F.A22*P.a*fAvfBv*gAvetagBveta/P.b + F.A26*(fAvfBvxi*gAvetagBv + fAvxifBv*gAvgBveta) +
  F.A66*P.b*fAvxifBvxi*gAvgBv/P.a

/-- `panels/models/plate_clpt_donnell_bardell.pyx` (`fk0`), line 253; names from lines 142-147,
202-207. -/
def fk0_12 (I : Tab K) (P : Panel K) (F : Lam K) (i k j l : ℕ) : K :=
  let fAvfBwxixi := I.ffpp i k P.xv P.xw;
  let gAvetagBw := I.ffp l j P.yw P.yv;
  let fAvxifBwxixi := I.fpfpp i k P.xv P.xw;
  let gAvgBw := I.ff j l P.yv P.yw;
  let fAvfBw := I.ff i k P.xv P.xw;
  let gAvetagBwetaeta := I.fpfpp j l P.yv P.yw;
  let fAvfBwxi := I.ffp i k P.xv P.xw;
  let gAvetagBweta := I.fpfp j l P.yv P.yw;
  let fAvxifBw := I.ffp k i P.xw P.xv;
  let gAvgBwetaeta := I.ffpp j l P.yv P.yw;
  let fAvxifBwxi := I.fpfp i k P.xv P.xw;
  let gAvgBweta := I.ffp j l P.yv P.yw;
  -2*F.B12*fAvfBwxixi*gAvetagBw/P.a - 2*F.B16*P.b*fAvxifBwxixi*gAvgBw/(P.a*P.a) -
  2*F.B22*P.a*fAvfBw*gAvetagBwetaeta/(P.b*P.b) - 2*F.B26*(2*fAvfBwxi*gAvetagBweta +
  fAvxifBw*gAvgBwetaeta)/P.b - 4*F.B66*fAvxifBwxi*gAvgBweta/P.a

/-- `panels/models/plate_clpt_donnell_bardell.pyx` (`fk0`), line 257; names from lines 148-153,
208-213. -/
def fk0_20 (I : Tab K) (P : Panel K) (F : Lam K) (i k j l : ℕ) : K :=
  let fAwxixifBuxi := I.fpfpp k i P.xu P.xw;
  let gAwgBu := I.ff j l P.yw P.yu;
  let fAwfBuxi := I.ffp i k P.xw P.xu;
  let gAwetaetagBu := I.ffpp l j P.yu P.yw;
  let fAwxifBuxi := I.fpfp i k P.xw P.xu;
  let gAwetagBu := I.ffp l j P.yu P.yw;
  let fAwxixifBu := I.ffpp k i P.xu P.xw;
  let gAwgBueta := I.ffp j l P.yw P.yu;
  let fAwfBu := I.ff i k P.xw P.xu;
  let gAwetaetagBueta := I.fpfpp l j P.yu P.yw;
  let fAwxifBu := I.ffp k i P.xu P.xw;
  let gAwetagBueta := I.fpfp j l P.yw P.yu;
  -2*F.B11*P.b*fAwxixifBuxi*gAwgBu/(P.a*P.a) - 2*F.B12*fAwfBuxi*gAwetaetagBu/P.b -
  2*F.B16*(2*fAwxifBuxi*gAwetagBu + fAwxixifBu*gAwgBueta)/P.a -
  2*F.B26*P.a*fAwfBu*gAwetaetagBueta/(P.b*P.b) - 4*F.B66*fAwxifBu*gAwetagBueta/P.b

/-- `panels/models/plate_clpt_donnell_bardell.pyx` (`fk0`), line 261; names from lines 154-159,
214-219. -/
def fk0_21 (I : Tab K) (P : Panel K) (F : Lam K) (i k j l : ℕ) : K :=
  let fAwxixifBv := I.ffpp k i P.xv P.xw;
  let gAwgBveta := I.ffp j l P.yw P.yv;
  let fAwxixifBvxi := I.fpfpp k i P.xv P.xw;
  let gAwgBv := I.ff j l P.yw P.yv;
  let fAwfBv := I.ff i k P.xw P.xv;
  let gAwetaetagBveta := I.fpfpp l j P.yv P.yw;
  let fAwfBvxi := I.ffp i k P.xw P.xv;
  let gAwetaetagBv := I.ffpp l j P.yv P.yw;
  let fAwxifBv := I.ffp k i P.xv P.xw;
  let gAwetagBveta := I.fpfp j l P.yw P.yv;
  let fAwxifBvxi := I.fpfp i k P.xw P.xv;
  let gAwetagBv := I.ffp l j P.yv P.yw;
  -2*F.B12*fAwxixifBv*gAwgBveta/P.a - 2*F.B16*P.b*fAwxixifBvxi*gAwgBv/(P.a*P.a) -
  2*F.B22*P.a*fAwfBv*gAwetaetagBveta/(P.b*P.b) - 2*F.B26*(fAwfBvxi*gAwetaetagBv +
  2*fAwxifBv*gAwetagBveta)/P.b - 4*F.B66*fAwxifBvxi*gAwetagBv/P.a

/-- `panels/models/plate_clpt_donnell_bardell.pyx` (`fk0`), line 265; names from lines 160-168,
220-228. -/
def fk0_22 (I : Tab K) (P : Panel K) (F : Lam K) (i k j l : ℕ) : K :=
  let fAwxixifBwxixi := I.fppfpp i k P.xw P.xw;
  let gAwgBw := I.ff j l P.yw P.yw;
  let fAwfBwxixi := I.ffpp i k P.xw P.xw;
  let gAwetaetagBw := I.ffpp l j P.yw P.yw;
  let fAwxixifBw := I.ffpp k i P.xw P.xw;
  let gAwgBwetaeta := I.ffpp j l P.yw P.yw;
  let fAwxifBwxixi := I.fpfpp i k P.xw P.xw;
  let gAwetagBw := I.ffp l j P.yw P.yw;
  let fAwxixifBwxi := I.fpfpp k i P.xw P.xw;
  let gAwgBweta := I.ffp j l P.yw P.yw;
  let fAwfBw := I.ff i k P.xw P.xw;
  let gAwetaetagBwetaeta := I.fppfpp j l P.yw P.yw;
  let fAwfBwxi := I.ffp i k P.xw P.xw;
  let gAwetaetagBweta := I.fpfpp l j P.yw P.yw;
  let fAwxifBw := I.ffp k i P.xw P.xw;
  let gAwetagBwetaeta := I.fpfpp j l P.yw P.yw;
  let fAwxifBwxi := I.fpfp i k P.xw P.xw;
  let gAwetagBweta := I.fpfp j l P.yw P.yw;
  4*F.D11*P.b*fAwxixifBwxixi*gAwgBw/(P.a*P.a*P.a) + 4*F.D12*(fAwfBwxixi*gAwetaetagBw +
  fAwxixifBw*gAwgBwetaeta)/(P.a*P.b) + 8*F.D16*(fAwxifBwxixi*gAwetagBw +
  fAwxixifBwxi*gAwgBweta)/(P.a*P.a) + 4*F.D22*P.a*fAwfBw*gAwetaetagBwetaeta/(P.b*P.b*P.b) +
  8*F.D26*(fAwfBwxi*gAwetaetagBweta + fAwxifBw*gAwetagBwetaeta)/(P.b*P.b) +
  16*F.D66*fAwxifBwxi*gAwetagBweta/(P.a*P.b)

/-- The `(α, β)` written by `fk0` (`panels/models/plate_clpt_donnell_bardell.pyx`), in program order. -/
def fk0_pat : List (ℕ × ℕ) := [(0,0), (0,1), (0,2), (1,0), (1,1), (1,2), (2,0), (2,1), (2,2)]

/-- Value written by `fk0` at `(row+α, col+β)`. -/
def fk0 (I : Tab K) (P : Panel K) (F : Lam K) (i k j l : ℕ) (α β : ℕ) : K :=
  match α, β with
  | 0, 0 => fk0_00 I P F i k j l
  | 0, 1 => fk0_01 I P F i k j l
  | 0, 2 => fk0_02 I P F i k j l
  | 1, 0 => fk0_10 I P F i k j l
  | 1, 1 => fk0_11 I P F i k j l
  | 1, 2 => fk0_12 I P F i k j l
  | 2, 0 => fk0_20 I P F i k j l
  | 2, 1 => fk0_21 I P F i k j l
  | 2, 2 => fk0_22 I P F i k j l
  | _, _ => 0

/-- `panels/models/plate_clpt_donnell_bardell.pyx` (`fkG0`), line 331; names from lines 308-311,
323-326. -/
def fkG0_22 (I : Tab K) (P : Panel K) (Nxx Nxy Nyy : K) (i k j l : ℕ) : K :=
  let fAwxifBwxi := I.fpfp i k P.xw P.xw;
  let gAwgBw := I.ff j l P.yw P.yw;
  let fAwfBwxi := I.ffp i k P.xw P.xw;
  let gAwetagBw := I.ffp l j P.yw P.yw;
  let fAwxifBw := I.ffp k i P.xw P.xw;
  let gAwgBweta := I.ffp j l P.yw P.yw;
  let fAwfBw := I.ff i k P.xw P.xw;
  let gAwetagBweta := I.fpfp j l P.yw P.yw;
  Nxx*P.b*fAwxifBwxi*gAwgBw/P.a + Nxy*(fAwfBwxi*gAwetagBw + fAwxifBw*gAwgBweta) +
  Nyy*P.a*fAwfBw*gAwetagBweta/P.b

/-- The `(α, β)` written by `fkG0` (`panels/models/plate_clpt_donnell_bardell.pyx`), in program order. -/
def fkG0_pat : List (ℕ × ℕ) := [(2,2)]

/-- Value written by `fkG0` at `(row+α, col+β)`. -/
def fkG0 (I : Tab K) (P : Panel K) (Nxx Nxy Nyy : K) (i k j l : ℕ) (α β : ℕ) : K :=
  match α, β with
  | 2, 2 => fkG0_22 I P Nxx Nxy Nyy i k j l
  | _, _ => 0

/-- `panels/models/plate_clpt_donnell_bardell.pyx` (`fkM`), line 414; names from lines 383, 402.
-/
def fkM_00 (I : Tab K) (P : Panel K) (d h rho : K) (i k j l : ℕ) : K :=
  let fAufBu := I.ff i k P.xu P.xu;
  let gAugBu := I.ff j l P.yu P.yu;
  (1/4)*P.a*P.b*fAufBu*gAugBu*h*rho

/-- `panels/models/plate_clpt_donnell_bardell.pyx` (`fkM`), line 418; names from lines 384, 403.
-/
def fkM_02 (I : Tab K) (P : Panel K) (d h rho : K) (i k j l : ℕ) : K :=
  let fAufBwxi := I.ffp i k P.xu P.xw;
  let gAugBw := I.ff j l P.yu P.yw;
  (1/2)*P.b*d*fAufBwxi*gAugBw*h*rho

/-- `panels/models/plate_clpt_donnell_bardell.pyx` (`fkM`), line 422; names from lines 385, 404.
-/
def fkM_11 (I : Tab K) (P : Panel K) (d h rho : K) (i k j l : ℕ) : K :=
  let fAvfBv := I.ff i k P.xv P.xv;
  let gAvgBv := I.ff j l P.yv P.yv;
  (1/4)*P.a*P.b*fAvfBv*gAvgBv*h*rho

/-- `panels/models/plate_clpt_donnell_bardell.pyx` (`fkM`), line 426; names from lines 386, 405.
-/
def fkM_12 (I : Tab K) (P : Panel K) (d h rho : K) (i k j l : ℕ) : K :=
  let fAvfBw := I.ff i k P.xv P.xw;
  let gAvgBweta := I.ffp j l P.yv P.yw;
  (1/2)*P.a*d*fAvfBw*gAvgBweta*h*rho

/-- `panels/models/plate_clpt_donnell_bardell.pyx` (`fkM`), line 430; names from lines 387, 406.
-/
def fkM_20 (I : Tab K) (P : Panel K) (d h rho : K) (i k j l : ℕ) : K :=
  let fAwxifBu := I.ffp k i P.xu P.xw;
  let gAwgBu := I.ff j l P.yw P.yu;
  (1/2)*P.b*d*fAwxifBu*gAwgBu*h*rho

/-- `panels/models/plate_clpt_donnell_bardell.pyx` (`fkM`), line 434; names from lines 388, 407.
-/
def fkM_21 (I : Tab K) (P : Panel K) (d h rho : K) (i k j l : ℕ) : K :=
  let fAwfBv := I.ff i k P.xw P.xv;
  let gAwetagBv := I.ffp l j P.yv P.yw;
  (1/2)*P.a*d*fAwfBv*gAwetagBv*h*rho

/-- `panels/models/plate_clpt_donnell_bardell.pyx` (`fkM`), line 438; names from lines 389-390,
408-409. -/
def fkM_22 (I : Tab K) (P : Panel K) (d h rho : K) (i k j l : ℕ) : K :=
  let fAwfBw := I.ff i k P.xw P.xw;
  let gAwgBw := I.ff j l P.yw P.yw;
  let gAwetagBweta := I.fpfp j l P.yw P.yw;
  let fAwxifBwxi := I.fpfp i k P.xw P.xw;
  (1/4)*P.a*P.b*h*rho*(fAwfBw*gAwgBw + 4*fAwfBw*gAwetagBweta*((d*d) +
  (833333333333333/10000000000000000)*(h*h))/(P.b*P.b) + 4*fAwxifBwxi*gAwgBw*((d*d) +
  (833333333333333/10000000000000000)*(h*h))/(P.a*P.a))

/-- The `(α, β)` written by `fkM` (`panels/models/plate_clpt_donnell_bardell.pyx`), in program order. -/
def fkM_pat : List (ℕ × ℕ) := [(0,0), (0,2), (1,1), (1,2), (2,0), (2,1), (2,2)]

/-- Value written by `fkM` at `(row+α, col+β)`. -/
def fkM (I : Tab K) (P : Panel K) (d h rho : K) (i k j l : ℕ) (α β : ℕ) : K :=
  match α, β with
  | 0, 0 => fkM_00 I P d h rho i k j l
  | 0, 2 => fkM_02 I P d h rho i k j l
  | 1, 1 => fkM_11 I P d h rho i k j l
  | 1, 2 => fkM_12 I P d h rho i k j l
  | 2, 0 => fkM_20 I P d h rho i k j l
  | 2, 1 => fkM_21 I P d h rho i k j l
  | 2, 2 => fkM_22 I P d h rho i k j l
  | _, _ => 0

/-- `panels/models/plate_clpt_donnell_bardell.pyx` (`fkAx`), line 496; names from lines 479,
491. -/
def fkAx_22 (I : Tab K) (P : Panel K) (beta : K) (i k j l : ℕ) : K :=
  let fAwxifBw := I.ffp k i P.xw P.xw;
  let gAwgBw := I.ff j l P.yw P.yw;
  -(1/2)*P.b*beta*fAwxifBw*gAwgBw

/-- The `(α, β)` written by `fkAx` (`panels/models/plate_clpt_donnell_bardell.pyx`), in program order. -/
def fkAx_pat : List (ℕ × ℕ) := [(2,2)]

/-- Value written by `fkAx` at `(row+α, col+β)`. -/
def fkAx (I : Tab K) (P : Panel K) (beta : K) (i k j l : ℕ) (α β : ℕ) : K :=
  match α, β with
  | 2, 2 => fkAx_22 I P beta i k j l
  | _, _ => 0

/-- `panels/models/plate_clpt_donnell_bardell.pyx` (`fkAy`), line 553; names from lines 536,
548. -/
def fkAy_22 (I : Tab K) (P : Panel K) (beta : K) (i k j l : ℕ) : K :=
  let fAwfBw := I.ff i k P.xw P.xw;
  let gAwetagBw := I.ffp l j P.yw P.yw;
  -(1/2)*P.a*beta*fAwfBw*gAwetagBw

/-- The `(α, β)` written by `fkAy` (`panels/models/plate_clpt_donnell_bardell.pyx`), in program order. -/
def fkAy_pat : List (ℕ × ℕ) := [(2,2)]

/-- Value written by `fkAy` at `(row+α, col+β)`. -/
def fkAy (I : Tab K) (P : Panel K) (beta : K) (i k j l : ℕ) (α β : ℕ) : K :=
  match α, β with
  | 2, 2 => fkAy_22 I P beta i k j l
  | _, _ => 0

/-- `panels/models/plate_clpt_donnell_bardell.pyx` (`fcA`), line 610; names from lines 593, 605.
-/
def fcA_22 (I : Tab K) (P : Panel K) (aeromu : K) (i k j l : ℕ) : K :=
  let fAwfBw := I.ff i k P.xw P.xw;
  let gAwgBw := I.ff j l P.yw P.yw;
  -(1/4)*P.a*aeromu*P.b*fAwfBw*gAwgBw

/-- The `(α, β)` written by `fcA` (`panels/models/plate_clpt_donnell_bardell.pyx`), in program order. -/
def fcA_pat : List (ℕ × ℕ) := [(2,2)]

/-- Value written by `fcA` at `(row+α, col+β)`. -/
def fcA (I : Tab K) (P : Panel K) (aeromu : K) (i k j l : ℕ) (α β : ℕ) : K :=
  match α, β with
  | 2, 2 => fcA_22 I P aeromu i k j l
  | _, _ => 0

end Verif.Gen.PlateAna
