import Verif.Model.Types

/-!
Generated by `/verif/tools/translate.py` from the sources named in the comments; the
expressions are verbatim, decimals are kept as the printed rationals.
-/

set_option linter.unusedVariables false

namespace Verif.Gen.CylNum

variable {K : Type*} [Field K]

/-- `panels/models/cylshell_clpt_donnell_bardell_num.pyx` (`fkC_num`), line 239; names from
lines 192-193, 201-202, 210-211, 227-228. -/
def fkC_num_00 (S : Shape K) (P : Panel K) (F : Lam K) (eta intx inty weight weta wxi xi : K) (i k j l : ℕ) : K :=
  let fAuxi := S.fp i xi P.xu;
  let fBuxi := S.fp k xi P.xu;
  let gAu := S.f j eta P.yu;
  let gBu := S.f l eta P.yu;
  let fAu := S.f i xi P.xu;
  let gAueta := S.fp j eta P.yu;
  let fBu := S.f k xi P.xu;
  let gBueta := S.fp l eta P.yu;
  weight*( F.A11*fAuxi*fBuxi*gAu*gBu*intx*inty/(P.a*P.a) + F.A16*intx*inty*(fAu*fBuxi*gAueta*gBu
  + fAuxi*fBu*gAu*gBueta)/(P.a*P.b) + F.A66*fAu*fBu*gAueta*gBueta*intx*inty/(P.b*P.b) )

/-- `panels/models/cylshell_clpt_donnell_bardell_num.pyx` (`fkC_num`), line 244; names from
lines 192-193, 203-204, 210-211, 229-230. -/
def fkC_num_01 (S : Shape K) (P : Panel K) (F : Lam K) (eta intx inty weight weta wxi xi : K) (i k j l : ℕ) : K :=
  let fAuxi := S.fp i xi P.xu;
  let fBv := S.f k xi P.xv;
  let gAu := S.f j eta P.yu;
  let gBveta := S.fp l eta P.yv;
  let fBvxi := S.fp k xi P.xv;
  let gBv := S.f l eta P.yv;
  let fAu := S.f i xi P.xu;
  let gAueta := S.fp j eta P.yu;
  weight*( F.A12*fAuxi*fBv*gAu*gBveta*intx*inty/(P.a*P.b) +
  F.A16*fAuxi*fBvxi*gAu*gBv*intx*inty/(P.a*P.a) +
  F.A26*fAu*fBv*gAueta*gBveta*intx*inty/(P.b*P.b) +
  F.A66*fAu*fBvxi*gAueta*gBv*intx*inty/(P.a*P.b) )

/-- `panels/models/cylshell_clpt_donnell_bardell_num.pyx` (`fkC_num`), line 249; names from
lines 192-193, 205-207, 210-211, 231-233. -/
def fkC_num_02 (S : Shape K) (P : Panel K) (F : Lam K) (eta intx inty weight weta wxi xi : K) (i k j l : ℕ) : K :=
  let fAuxi := S.fp i xi P.xu;
  let fBwxi := S.fp k xi P.xw;
  let gAu := S.f j eta P.yu;
  let gBw := S.f l eta P.yw;
  let fBw := S.f k xi P.xw;
  let gBweta := S.fp l eta P.yw;
  let fAu := S.f i xi P.xu;
  let gAueta := S.fp j eta P.yu;
  let fBwxixi := S.fpp k xi P.xw;
  let gBwetaeta := S.fpp l eta P.yw;
  weight*( 2*F.A11*fAuxi*fBwxi*gAu*gBw*intx*inty*wxi/(P.a*P.a*P.a) +
  (1/2)*F.A12*fAuxi*fBw*gAu*intx*inty*(gBw/P.r + 4*gBweta*weta/(P.b*P.b))/P.a +
  2*F.A16*intx*inty*(fAu*fBwxi*gAueta*gBw*wxi + fAuxi*gAu*(fBw*gBweta*wxi +
  fBwxi*gBw*weta))/((P.a*P.a)*P.b) + (1/2)*F.A26*fAu*fBw*gAueta*intx*inty*((P.b*P.b)*gBw +
  4*gBweta*P.r*weta)/((P.b*P.b*P.b)*P.r) + 2*F.A66*fAu*gAueta*intx*inty*(fBw*gBweta*wxi +
  fBwxi*gBw*weta)/(P.a*(P.b*P.b)) - 2*F.B11*fAuxi*fBwxixi*gAu*gBw*intx*inty/(P.a*P.a*P.a) -
  2*F.B12*fAuxi*fBw*gAu*gBwetaeta*intx*inty/(P.a*(P.b*P.b)) -
  2*F.B16*intx*inty*(fAu*fBwxixi*gAueta*gBw + 2*fAuxi*fBwxi*gAu*gBweta)/((P.a*P.a)*P.b) -
  2*F.B26*fAu*fBw*gAueta*gBwetaeta*intx*inty/(P.b*P.b*P.b) -
  4*F.B66*fAu*fBwxi*gAueta*gBweta*intx*inty/(P.a*(P.b*P.b)) )

/-- `panels/models/cylshell_clpt_donnell_bardell_num.pyx` (`fkC_num`), line 254; names from
lines 194-195, 201-202, 212-213, 227-228. -/
def fkC_num_10 (S : Shape K) (P : Panel K) (F : Lam K) (eta intx inty weight weta wxi xi : K) (i k j l : ℕ) : K :=
  let fAv := S.f i xi P.xv;
  let fBuxi := S.fp k xi P.xu;
  let gAveta := S.fp j eta P.yv;
  let gBu := S.f l eta P.yu;
  let fAvxi := S.fp i xi P.xv;
  let gAv := S.f j eta P.yv;
  let fBu := S.f k xi P.xu;
  let gBueta := S.fp l eta P.yu;
  weight*( F.A12*fAv*fBuxi*gAveta*gBu*intx*inty/(P.a*P.b) +
  F.A16*fAvxi*fBuxi*gAv*gBu*intx*inty/(P.a*P.a) +
  F.A26*fAv*fBu*gAveta*gBueta*intx*inty/(P.b*P.b) +
  F.A66*fAvxi*fBu*gAv*gBueta*intx*inty/(P.a*P.b) )

/-- `panels/models/cylshell_clpt_donnell_bardell_num.pyx` (`fkC_num`), line 259; names from
lines 194-195, 203-204, 212-213, 229-230. -/
def fkC_num_11 (S : Shape K) (P : Panel K) (F : Lam K) (eta intx inty weight weta wxi xi : K) (i k j l : ℕ) : K :=
  let fAv := S.f i xi P.xv;
  let fBv := S.f k xi P.xv;
  let gAveta := S.fp j eta P.yv;
  let gBveta := S.fp l eta P.yv;
  let fBvxi := S.fp k xi P.xv;
  let gBv := S.f l eta P.yv;
  let fAvxi := S.fp i xi P.xv;
  let gAv := S.f j eta P.yv;
  weight*( F.A22*fAv*fBv*gAveta*gBveta*intx*inty/(P.b*P.b) +
  F.A26*intx*inty*(fAv*fBvxi*gAveta*gBv + fAvxi*fBv*gAv*gBveta)/(P.a*P.b) +
  F.A66*fAvxi*fBvxi*gAv*gBv*intx*inty/(P.a*P.a) )

/-- `panels/models/cylshell_clpt_donnell_bardell_num.pyx` (`fkC_num`), line 264; names from
lines 194-195, 205-207, 212-213, 231-233. -/
def fkC_num_12 (S : Shape K) (P : Panel K) (F : Lam K) (eta intx inty weight weta wxi xi : K) (i k j l : ℕ) : K :=
  let fAv := S.f i xi P.xv;
  let fBwxi := S.fp k xi P.xw;
  let gAveta := S.fp j eta P.yv;
  let gBw := S.f l eta P.yw;
  let fAvxi := S.fp i xi P.xv;
  let gAv := S.f j eta P.yv;
  let fBw := S.f k xi P.xw;
  let gBweta := S.fp l eta P.yw;
  let fBwxixi := S.fpp k xi P.xw;
  let gBwetaeta := S.fpp l eta P.yw;
  weight*( 2*F.A12*fAv*fBwxi*gAveta*gBw*intx*inty*wxi/((P.a*P.a)*P.b) +
  2*F.A16*fAvxi*fBwxi*gAv*gBw*intx*inty*wxi/(P.a*P.a*P.a) +
  (1/2)*F.A22*fAv*fBw*gAveta*intx*inty*((P.b*P.b)*gBw + 4*gBweta*P.r*weta)/((P.b*P.b*P.b)*P.r) +
  (1/2)*F.A26*intx*inty*((P.b*P.b)*fAvxi*fBw*gAv*gBw + 4*P.r*(fAv*gAveta*(fBw*gBweta*wxi +
  fBwxi*gBw*weta) + fAvxi*fBw*gAv*gBweta*weta))/(P.a*(P.b*P.b)*P.r) +
  2*F.A66*fAvxi*gAv*intx*inty*(fBw*gBweta*wxi + fBwxi*gBw*weta)/((P.a*P.a)*P.b) -
  2*F.B12*fAv*fBwxixi*gAveta*gBw*intx*inty/((P.a*P.a)*P.b) -
  2*F.B16*fAvxi*fBwxixi*gAv*gBw*intx*inty/(P.a*P.a*P.a) -
  2*F.B22*fAv*fBw*gAveta*gBwetaeta*intx*inty/(P.b*P.b*P.b) -
  2*F.B26*intx*inty*(2*fAv*fBwxi*gAveta*gBweta + fAvxi*fBw*gAv*gBwetaeta)/(P.a*(P.b*P.b)) -
  4*F.B66*fAvxi*fBwxi*gAv*gBweta*intx*inty/((P.a*P.a)*P.b) )

/-- `panels/models/cylshell_clpt_donnell_bardell_num.pyx` (`fkC_num`), line 269; names from
lines 196-198, 201-202, 214-216, 227-228. -/
def fkC_num_20 (S : Shape K) (P : Panel K) (F : Lam K) (eta intx inty weight weta wxi xi : K) (i k j l : ℕ) : K :=
  let fAwxi := S.fp i xi P.xw;
  let fBuxi := S.fp k xi P.xu;
  let gAw := S.f j eta P.yw;
  let gBu := S.f l eta P.yu;
  let fAw := S.f i xi P.xw;
  let gAweta := S.fp j eta P.yw;
  let fBu := S.f k xi P.xu;
  let gBueta := S.fp l eta P.yu;
  let fAwxixi := S.fpp i xi P.xw;
  let gAwetaeta := S.fpp j eta P.yw;
  weight*( 2*F.A11*fAwxi*fBuxi*gAw*gBu*intx*inty*wxi/(P.a*P.a*P.a) +
  (1/2)*F.A12*fAw*fBuxi*gBu*intx*inty*(gAw/P.r + 4*gAweta*weta/(P.b*P.b))/P.a +
  2*F.A16*intx*inty*(fAw*fBuxi*gAweta*gBu*wxi + fAwxi*gAw*(fBu*gBueta*wxi +
  fBuxi*gBu*weta))/((P.a*P.a)*P.b) + (1/2)*F.A26*fAw*fBu*gBueta*intx*inty*((P.b*P.b)*gAw +
  4*gAweta*P.r*weta)/((P.b*P.b*P.b)*P.r) + 2*F.A66*fBu*gBueta*intx*inty*(fAw*gAweta*wxi +
  fAwxi*gAw*weta)/(P.a*(P.b*P.b)) - 2*F.B11*fAwxixi*fBuxi*gAw*gBu*intx*inty/(P.a*P.a*P.a) -
  2*F.B12*fAw*fBuxi*gAwetaeta*gBu*intx*inty/(P.a*(P.b*P.b)) -
  2*F.B16*intx*inty*(2*fAwxi*fBuxi*gAweta*gBu + fAwxixi*fBu*gAw*gBueta)/((P.a*P.a)*P.b) -
  2*F.B26*fAw*fBu*gAwetaeta*gBueta*intx*inty/(P.b*P.b*P.b) -
  4*F.B66*fAwxi*fBu*gAweta*gBueta*intx*inty/(P.a*(P.b*P.b)) )

/-- `panels/models/cylshell_clpt_donnell_bardell_num.pyx` (`fkC_num`), line 274; names from
lines 196-198, 203-204, 214-216, 229-230. -/
def fkC_num_21 (S : Shape K) (P : Panel K) (F : Lam K) (eta intx inty weight weta wxi xi : K) (i k j l : ℕ) : K :=
  let fAwxi := S.fp i xi P.xw;
  let fBv := S.f k xi P.xv;
  let gAw := S.f j eta P.yw;
  let gBveta := S.fp l eta P.yv;
  let fBvxi := S.fp k xi P.xv;
  let gBv := S.f l eta P.yv;
  let fAw := S.f i xi P.xw;
  let gAweta := S.fp j eta P.yw;
  let fAwxixi := S.fpp i xi P.xw;
  let gAwetaeta := S.fpp j eta P.yw;
  weight*( 2*F.A12*fAwxi*fBv*gAw*gBveta*intx*inty*wxi/((P.a*P.a)*P.b) +
  2*F.A16*fAwxi*fBvxi*gAw*gBv*intx*inty*wxi/(P.a*P.a*P.a) +
  (1/2)*F.A22*fAw*fBv*gBveta*intx*inty*((P.b*P.b)*gAw + 4*gAweta*P.r*weta)/((P.b*P.b*P.b)*P.r) +
  (1/2)*F.A26*intx*inty*((P.b*P.b)*fAw*fBvxi*gAw*gBv + 4*P.r*(fAw*gAweta*(fBv*gBveta*wxi +
  fBvxi*gBv*weta) + fAwxi*fBv*gAw*gBveta*weta))/(P.a*(P.b*P.b)*P.r) +
  2*F.A66*fBvxi*gBv*intx*inty*(fAw*gAweta*wxi + fAwxi*gAw*weta)/((P.a*P.a)*P.b) -
  2*F.B12*fAwxixi*fBv*gAw*gBveta*intx*inty/((P.a*P.a)*P.b) -
  2*F.B16*fAwxixi*fBvxi*gAw*gBv*intx*inty/(P.a*P.a*P.a) -
  2*F.B22*fAw*fBv*gAwetaeta*gBveta*intx*inty/(P.b*P.b*P.b) -
  2*F.B26*intx*inty*(fAw*fBvxi*gAwetaeta*gBv + 2*fAwxi*fBv*gAweta*gBveta)/(P.a*(P.b*P.b)) -
  4*F.B66*fAwxi*fBvxi*gAweta*gBv*intx*inty/((P.a*P.a)*P.b) )

/-- `panels/models/cylshell_clpt_donnell_bardell_num.pyx` (`fkC_num`), line 279; names from
lines 196-198, 205-207, 214-216, 231-233. -/
def fkC_num_22 (S : Shape K) (P : Panel K) (F : Lam K) (eta intx inty weight weta wxi xi : K) (i k j l : ℕ) : K :=
  let fAwxi := S.fp i xi P.xw;
  let fBwxi := S.fp k xi P.xw;
  let gAw := S.f j eta P.yw;
  let gBw := S.f l eta P.yw;
  let fAw := S.f i xi P.xw;
  let fBw := S.f k xi P.xw;
  let gAweta := S.fp j eta P.yw;
  let gBweta := S.fp l eta P.yw;
  let fBwxixi := S.fpp k xi P.xw;
  let fAwxixi := S.fpp i xi P.xw;
  let gAwetaeta := S.fpp j eta P.yw;
  let gBwetaeta := S.fpp l eta P.yw;
  weight*( 4*F.A11*fAwxi*fBwxi*gAw*gBw*intx*inty*(wxi*wxi)/(P.a*P.a*P.a*P.a) +
  F.A12*intx*inty*wxi*((P.b*P.b)*gAw*gBw*(fAw*fBwxi + fAwxi*fBw) +
  P.r*weta*(4*fAw*fBwxi*gAweta*gBw + 4*fAwxi*fBw*gAw*gBweta))/((P.a*P.a)*(P.b*P.b)*P.r) +
  4*F.A16*intx*inty*wxi*(fAw*fBwxi*gAweta*gBw*wxi + fAwxi*gAw*(fBw*gBweta*wxi +
  2*fBwxi*gBw*weta))/((P.a*P.a*P.a)*P.b) + (1/4)*F.A22*fAw*fBw*intx*inty*((P.b*P.b)*gAw +
  4*gAweta*P.r*weta)*((P.b*P.b)*gBw + 4*gBweta*P.r*weta)/((P.b*P.b*P.b*P.b)*(P.r*P.r)) +
  F.A26*intx*inty*((P.b*P.b)*(fAw*(fBw*gAw*gBweta*wxi + fBw*gAweta*gBw*wxi + fBwxi*gAw*gBw*weta)
  + fAwxi*fBw*gAw*gBw*weta) + 4*P.r*weta*(fAw*gAweta*(2*fBw*gBweta*wxi + fBwxi*gBw*weta) +
  fAwxi*fBw*gAw*gBweta*weta))/(P.a*(P.b*P.b*P.b)*P.r) + 4*F.A66*intx*inty*(fAw*gAweta*wxi +
  fAwxi*gAw*weta)*(fBw*gBweta*wxi + fBwxi*gBw*weta)/((P.a*P.a)*(P.b*P.b)) -
  4*F.B11*gAw*gBw*intx*inty*wxi*(fAwxi*fBwxixi + fAwxixi*fBwxi)/(P.a*P.a*P.a*P.a) -
  F.B12*intx*inty*((P.b*P.b)*gAw*gBw*(fAw*fBwxixi + fAwxixi*fBw) +
  4*P.r*(fAw*gBw*(fBwxi*gAwetaeta*wxi + fBwxixi*gAweta*weta) + fBw*gAw*(fAwxi*gBwetaeta*wxi +
  fAwxixi*gBweta*weta)))/((P.a*P.a)*(P.b*P.b)*P.r) -
  4*F.B16*intx*inty*(fAw*fBwxixi*gAweta*gBw*wxi + fAwxi*(2*fBwxi*gAw*gBweta*wxi +
  2*fBwxi*gAweta*gBw*wxi + fBwxixi*gAw*gBw*weta) + fAwxixi*gAw*(fBw*gBweta*wxi +
  fBwxi*gBw*weta))/((P.a*P.a*P.a)*P.b) - F.B22*fAw*fBw*intx*inty*((P.b*P.b)*(gAw*gBwetaeta +
  gAwetaeta*gBw) + P.r*weta*(4*gAweta*gBwetaeta + 4*gAwetaeta*gBweta))/((P.b*P.b*P.b*P.b)*P.r) -
  2*F.B26*intx*inty*((P.b*P.b)*(fAw*fBwxi*gAw*gBweta + fAwxi*fBw*gAweta*gBw) +
  2*P.r*(fAw*(fBw*gAweta*gBwetaeta*wxi + fBw*gAwetaeta*gBweta*wxi + 2*fBwxi*gAweta*gBweta*weta +
  fBwxi*gAwetaeta*gBw*weta) + fAwxi*fBw*weta*(gAw*gBwetaeta +
  2*gAweta*gBweta)))/(P.a*(P.b*P.b*P.b)*P.r) - 8*F.B66*intx*inty*(fAw*fBwxi*gAweta*gBweta*wxi +
  fAwxi*(fBw*gAweta*gBweta*wxi + fBwxi*weta*(gAw*gBweta + gAweta*gBw)))/((P.a*P.a)*(P.b*P.b)) +
  4*F.D11*fAwxixi*fBwxixi*gAw*gBw*intx*inty/(P.a*P.a*P.a*P.a) +
  4*F.D12*intx*inty*(fAw*fBwxixi*gAwetaeta*gBw +
  fAwxixi*fBw*gAw*gBwetaeta)/((P.a*P.a)*(P.b*P.b)) + 8*F.D16*intx*inty*(fAwxi*fBwxixi*gAweta*gBw
  + fAwxixi*fBwxi*gAw*gBweta)/((P.a*P.a*P.a)*P.b) +
  4*F.D22*fAw*fBw*gAwetaeta*gBwetaeta*intx*inty/(P.b*P.b*P.b*P.b) +
  8*F.D26*intx*inty*(fAw*fBwxi*gAwetaeta*gBweta +
  fAwxi*fBw*gAweta*gBwetaeta)/(P.a*(P.b*P.b*P.b)) +
  16*F.D66*fAwxi*fBwxi*gAweta*gBweta*intx*inty/((P.a*P.a)*(P.b*P.b)) )

/-- The `(α, β)` written by `fkC_num` (`panels/models/cylshell_clpt_donnell_bardell_num.pyx`), in program order. -/
def fkC_num_pat : List (ℕ × ℕ) := [(0,0), (0,1), (0,2), (1,0), (1,1), (1,2), (2,0), (2,1), (2,2)]

/-- Value written by `fkC_num` at `(row+α, col+β)`. -/
def fkC_num (S : Shape K) (P : Panel K) (F : Lam K) (eta intx inty weight weta wxi xi : K) (i k j l : ℕ) (α β : ℕ) : K :=
  match α, β with
  | 0, 0 => fkC_num_00 S P F eta intx inty weight weta wxi xi i k j l
  | 0, 1 => fkC_num_01 S P F eta intx inty weight weta wxi xi i k j l
  | 0, 2 => fkC_num_02 S P F eta intx inty weight weta wxi xi i k j l
  | 1, 0 => fkC_num_10 S P F eta intx inty weight weta wxi xi i k j l
  | 1, 1 => fkC_num_11 S P F eta intx inty weight weta wxi xi i k j l
  | 1, 2 => fkC_num_12 S P F eta intx inty weight weta wxi xi i k j l
  | 2, 0 => fkC_num_20 S P F eta intx inty weight weta wxi xi i k j l
  | 2, 1 => fkC_num_21 S P F eta intx inty weight weta wxi xi i k j l
  | 2, 2 => fkC_num_22 S P F eta intx inty weight weta wxi xi i k j l
  | _, _ => 0

/-- `panels/models/cylshell_clpt_donnell_bardell_num.pyx` (`fkG_num`), line 511; names from
lines 485-486, 489-490, 493-494, 497-498. -/
def fkG_num_22 (S : Shape K) (P : Panel K) (Nxx Nxy Nyy eta intx inty weight xi : K) (i k j l : ℕ) : K :=
  let fAwxi := S.fp i xi P.xw;
  let gAw := S.f j eta P.yw;
  let fBwxi := S.fp k xi P.xw;
  let gBw := S.f l eta P.yw;
  let fAw := S.f i xi P.xw;
  let gAweta := S.fp j eta P.yw;
  let fBw := S.f k xi P.xw;
  let gBweta := S.fp l eta P.yw;
  weight*(intx*inty/4)*( Nxx*(2/P.a)*fAwxi*gAw*(2/P.a)*fBwxi*gBw +
  Nxy*((2/P.b)*fAw*gAweta*(2/P.a)*fBwxi*gBw + (2/P.a)*fAwxi*gAw*(2/P.b)*fBw*gBweta) +
  Nyy*(2/P.b)*fAw*gAweta*(2/P.b)*fBw*gBweta )

/-- The `(α, β)` written by `fkG_num` (`panels/models/cylshell_clpt_donnell_bardell_num.pyx`), in program order. -/
def fkG_num_pat : List (ℕ × ℕ) := [(2,2)]

/-- Value written by `fkG_num` at `(row+α, col+β)`. -/
def fkG_num (S : Shape K) (P : Panel K) (Nxx Nxy Nyy eta intx inty weight xi : K) (i k j l : ℕ) (α β : ℕ) : K :=
  match α, β with
  | 2, 2 => fkG_num_22 S P Nxx Nxy Nyy eta intx inty weight xi i k j l
  | _, _ => 0

/-- `panels/models/cylshell_clpt_donnell_bardell_num.pyx` (`fkAx_num`), line 636; names from
lines 612-613, 616, 619, 630. -/
def fkAx_num_22 (S : Shape K) (P : Panel K) (beta eta gamma intx inty weight xi : K) (i k j l : ℕ) : K :=
  let fAw := S.f i xi P.xw;
  let fBw := S.f k xi P.xw;
  let gAw := S.f j eta P.yw;
  let gBw := S.f l eta P.yw;
  let fAwxi := S.fp i xi P.xw;
  weight*( (1/4)*intx*inty*(fAw*fBw*gAw*gBw*gamma - 2*beta*fAwxi*fBw*gAw*gBw/P.a) )

/-- The `(α, β)` written by `fkAx_num` (`panels/models/cylshell_clpt_donnell_bardell_num.pyx`), in program order. -/
def fkAx_num_pat : List (ℕ × ℕ) := [(2,2)]

/-- Value written by `fkAx_num` at `(row+α, col+β)`. -/
def fkAx_num (S : Shape K) (P : Panel K) (beta eta gamma intx inty weight xi : K) (i k j l : ℕ) (α β : ℕ) : K :=
  match α, β with
  | 2, 2 => fkAx_num_22 S P beta eta gamma intx inty weight xi i k j l
  | _, _ => 0

/-- `panels/models/cylshell_clpt_donnell_bardell_num.pyx` (`fkC_num`), line 159; names from
lines 150, 155. -/
def fkC_num_wxi (S : Shape K) (P : Panel K) (c2 eta xi : K) (i j : ℕ) : K :=
  let fAwxi := S.fp i xi P.xw;
  let gAw := S.f j eta P.yw;
  c2*fAwxi*gAw

/-- `panels/models/cylshell_clpt_donnell_bardell_num.pyx` (`fkC_num`), line 160; names from
lines 151, 154. -/
def fkC_num_weta (S : Shape K) (P : Panel K) (c2 eta xi : K) (i j : ℕ) : K :=
  let fAw := S.f i xi P.xw;
  let gAweta := S.fp j eta P.yw;
  c2*fAw*gAweta

/-- `panels/models/cylshell_clpt_donnell_bardell_num.pyx` (`fkG_num`), line 439; names from
lines 431, 435. -/
def fkG_num_wxi (S : Shape K) (P : Panel K) (c2 eta xi : K) (i j : ℕ) : K :=
  let fAwxi := S.fp i xi P.xw;
  let gAw := S.f j eta P.yw;
  c2*fAwxi*gAw

/-- `panels/models/cylshell_clpt_donnell_bardell_num.pyx` (`fkG_num`), line 440; names from
lines 432, 434. -/
def fkG_num_weta (S : Shape K) (P : Panel K) (c2 eta xi : K) (i j : ℕ) : K :=
  let fAw := S.f i xi P.xw;
  let gAweta := S.fp j eta P.yw;
  c2*fAw*gAweta

/-- `panels/models/cylshell_clpt_donnell_bardell_num.pyx` (`fkG_num`), line 470; names from
lines 451, 453, 463, 465. -/
def fkG_num_exx (S : Shape K) (P : Panel K) (c0 c1 c2 eta weta wxi xi : K) (i j : ℕ) : K :=
  let fAuxi := S.fp i xi P.xu;
  let gAu := S.f j eta P.yu;
  let fAwxi := S.fp i xi P.xw;
  let gAw := S.f j eta P.yw;
  c0*(2/P.a)*fAuxi*gAu + (1/2)*c2*(2/P.a)*fAwxi*gAw*(2/P.a)*wxi

/-- `panels/models/cylshell_clpt_donnell_bardell_num.pyx` (`fkG_num`), line 471; names from
lines 453, 455-456, 461-462. -/
def fkG_num_eyy (S : Shape K) (P : Panel K) (c0 c1 c2 eta weta wxi xi : K) (i j : ℕ) : K :=
  let fAv := S.f i xi P.xv;
  let gAveta := S.fp j eta P.yv;
  let fAw := S.f i xi P.xw;
  let gAw := S.f j eta P.yw;
  let gAweta := S.fp j eta P.yw;
  c1*(2/P.b)*fAv*gAveta + 1/P.r*c2*fAw*gAw + (1/2)*c2*(2/P.b)*fAw*gAweta*(2/P.b)*weta

/-- `panels/models/cylshell_clpt_donnell_bardell_num.pyx` (`fkG_num`), line 472; names from
lines 452-454, 456, 460, 462, 464-465. -/
def fkG_num_gxy (S : Shape K) (P : Panel K) (c0 c1 c2 eta weta wxi xi : K) (i j : ℕ) : K :=
  let fAu := S.f i xi P.xu;
  let gAueta := S.fp j eta P.yu;
  let fAvxi := S.fp i xi P.xv;
  let gAv := S.f j eta P.yv;
  let fAwxi := S.fp i xi P.xw;
  let gAw := S.f j eta P.yw;
  let fAw := S.f i xi P.xw;
  let gAweta := S.fp j eta P.yw;
  c0*(2/P.b)*fAu*gAueta + c1*(2/P.a)*fAvxi*gAv + c2*(2/P.b)*weta*(2/P.a)*fAwxi*gAw +
  c2*(2/P.a)*wxi*(2/P.b)*fAw*gAweta

/-- `panels/models/cylshell_clpt_donnell_bardell_num.pyx` (`fkG_num`), line 473; names from
lines 453, 466. -/
def fkG_num_kxx (S : Shape K) (P : Panel K) (c0 c1 c2 eta weta wxi xi : K) (i j : ℕ) : K :=
  let fAwxixi := S.fpp i xi P.xw;
  let gAw := S.f j eta P.yw;
  -c2*(2/P.a*2/P.a)*fAwxixi*gAw

/-- `panels/models/cylshell_clpt_donnell_bardell_num.pyx` (`fkG_num`), line 474; names from
lines 457, 462. -/
def fkG_num_kyy (S : Shape K) (P : Panel K) (c0 c1 c2 eta weta wxi xi : K) (i j : ℕ) : K :=
  let fAw := S.f i xi P.xw;
  let gAwetaeta := S.fpp j eta P.yw;
  -c2*(2/P.b*2/P.b)*fAw*gAwetaeta

/-- `panels/models/cylshell_clpt_donnell_bardell_num.pyx` (`fkG_num`), line 475; names from
lines 456, 465. -/
def fkG_num_kxy (S : Shape K) (P : Panel K) (c0 c1 c2 eta weta wxi xi : K) (i j : ℕ) : K :=
  let fAwxi := S.fp i xi P.xw;
  let gAweta := S.fp j eta P.yw;
  -2*c2*(2/P.a)*fAwxi*(2/P.b)*gAweta

/-- `panels/models/cylshell_clpt_donnell_bardell_num.pyx` (`fkG_num`), line 478. -/
def fkG_num_Nxx (F : Lam K) (Nxx0 Nxy0 Nyy0 exx eyy gxy kxx kxy kyy : K) : K :=
  Nxx0 + F.A11*exx + F.A12*eyy + F.A16*gxy + F.B11*kxx + F.B12*kyy + F.B16*kxy

/-- `panels/models/cylshell_clpt_donnell_bardell_num.pyx` (`fkG_num`), line 479. -/
def fkG_num_Nyy (F : Lam K) (Nxx0 Nxy0 Nyy0 exx eyy gxy kxx kxy kyy : K) : K :=
  Nyy0 + F.A12*exx + F.A22*eyy + F.A26*gxy + F.B12*kxx + F.B22*kyy + F.B26*kxy

/-- `panels/models/cylshell_clpt_donnell_bardell_num.pyx` (`fkG_num`), line 480. -/
def fkG_num_Nxy (F : Lam K) (Nxx0 Nxy0 Nyy0 exx eyy gxy kxx kxy kyy : K) : K :=
  Nxy0 + F.A16*exx + F.A26*eyy + F.A66*gxy + F.B16*kxx + F.B26*kyy + F.B66*kxy

/-- `panels/models/cylshell_clpt_donnell_bardell_num.pyx` (`calc_fint`), line 800; names from
lines 791, 796. -/
def fint_wxi (S : Shape K) (P : Panel K) (c2 eta xi : K) (i j : ℕ) : K :=
  let fAwxi := S.fp i xi P.xw;
  let gAw := S.f j eta P.yw;
  c2*fAwxi*gAw

/-- `panels/models/cylshell_clpt_donnell_bardell_num.pyx` (`calc_fint`), line 801; names from
lines 792, 795. -/
def fint_weta (S : Shape K) (P : Panel K) (c2 eta xi : K) (i j : ℕ) : K :=
  let fAw := S.f i xi P.xw;
  let gAweta := S.fp j eta P.yw;
  c2*fAw*gAweta

/-- `panels/models/cylshell_clpt_donnell_bardell_num.pyx` (`calc_fint`), line 833; names from
lines 813, 817, 824, 828. -/
def fint_exx (S : Shape K) (P : Panel K) (c0 c1 c2 eta weta wxi xi : K) (i j : ℕ) : K :=
  let fAuxi := S.fp i xi P.xu;
  let gAu := S.f j eta P.yu;
  let fAwxi := S.fp i xi P.xw;
  let gAw := S.f j eta P.yw;
  c0*(2/P.a)*fAuxi*gAu + (1/2)*c2*(2/P.a)*fAwxi*gAw*(2/P.a)*wxi

/-- `panels/models/cylshell_clpt_donnell_bardell_num.pyx` (`calc_fint`), line 834; names from
lines 816-818, 825, 827. -/
def fint_eyy (S : Shape K) (P : Panel K) (c0 c1 c2 eta weta wxi xi : K) (i j : ℕ) : K :=
  let fAv := S.f i xi P.xv;
  let gAveta := S.fp j eta P.yv;
  let fAw := S.f i xi P.xw;
  let gAw := S.f j eta P.yw;
  let gAweta := S.fp j eta P.yw;
  c1*(2/P.b)*fAv*gAveta + 1/P.r*c2*fAw*gAw + (1/2)*c2*(2/P.b)*fAw*gAweta*(2/P.b)*weta

/-- `panels/models/cylshell_clpt_donnell_bardell_num.pyx` (`calc_fint`), line 835; names from
lines 814-815, 817-818, 823, 826-828. -/
def fint_gxy (S : Shape K) (P : Panel K) (c0 c1 c2 eta weta wxi xi : K) (i j : ℕ) : K :=
  let fAu := S.f i xi P.xu;
  let gAueta := S.fp j eta P.yu;
  let fAvxi := S.fp i xi P.xv;
  let gAv := S.f j eta P.yv;
  let fAwxi := S.fp i xi P.xw;
  let gAw := S.f j eta P.yw;
  let fAw := S.f i xi P.xw;
  let gAweta := S.fp j eta P.yw;
  c0*(2/P.b)*fAu*gAueta + c1*(2/P.a)*fAvxi*gAv + c2*(2/P.b)*weta*(2/P.a)*fAwxi*gAw +
  c2*(2/P.a)*wxi*(2/P.b)*fAw*gAweta

/-- `panels/models/cylshell_clpt_donnell_bardell_num.pyx` (`calc_fint`), line 836; names from
lines 817, 829. -/
def fint_kxx (S : Shape K) (P : Panel K) (c0 c1 c2 eta weta wxi xi : K) (i j : ℕ) : K :=
  let fAwxixi := S.fpp i xi P.xw;
  let gAw := S.f j eta P.yw;
  -c2*(2/P.a*2/P.a)*fAwxixi*gAw

/-- `panels/models/cylshell_clpt_donnell_bardell_num.pyx` (`calc_fint`), line 837; names from
lines 819, 827. -/
def fint_kyy (S : Shape K) (P : Panel K) (c0 c1 c2 eta weta wxi xi : K) (i j : ℕ) : K :=
  let fAw := S.f i xi P.xw;
  let gAwetaeta := S.fpp j eta P.yw;
  -c2*(2/P.b*2/P.b)*fAw*gAwetaeta

/-- `panels/models/cylshell_clpt_donnell_bardell_num.pyx` (`calc_fint`), line 838; names from
lines 818, 828. -/
def fint_kxy (S : Shape K) (P : Panel K) (c0 c1 c2 eta weta wxi xi : K) (i j : ℕ) : K :=
  let fAwxi := S.fp i xi P.xw;
  let gAweta := S.fp j eta P.yw;
  -2*c2*(2/P.a*2/P.b)*fAwxi*gAweta

/-- `panels/models/cylshell_clpt_donnell_bardell_num.pyx` (`calc_fint`), line 841. -/
def fint_Nxx (F : Lam K) (exx eyy gxy kxx kxy kyy : K) : K :=
  F.A11*exx + F.A12*eyy + F.A16*gxy + F.B11*kxx + F.B12*kyy + F.B16*kxy

/-- `panels/models/cylshell_clpt_donnell_bardell_num.pyx` (`calc_fint`), line 842. -/
def fint_Nyy (F : Lam K) (exx eyy gxy kxx kxy kyy : K) : K :=
  F.A12*exx + F.A22*eyy + F.A26*gxy + F.B12*kxx + F.B22*kyy + F.B26*kxy

/-- `panels/models/cylshell_clpt_donnell_bardell_num.pyx` (`calc_fint`), line 843. -/
def fint_Nxy (F : Lam K) (exx eyy gxy kxx kxy kyy : K) : K :=
  F.A16*exx + F.A26*eyy + F.A66*gxy + F.B16*kxx + F.B26*kyy + F.B66*kxy

/-- `panels/models/cylshell_clpt_donnell_bardell_num.pyx` (`calc_fint`), line 844. -/
def fint_Mxx (F : Lam K) (exx eyy gxy kxx kxy kyy : K) : K :=
  F.B11*exx + F.B12*eyy + F.B16*gxy + F.D11*kxx + F.D12*kyy + F.D16*kxy

/-- `panels/models/cylshell_clpt_donnell_bardell_num.pyx` (`calc_fint`), line 845. -/
def fint_Myy (F : Lam K) (exx eyy gxy kxx kxy kyy : K) : K :=
  F.B12*exx + F.B22*eyy + F.B26*gxy + F.D12*kxx + F.D22*kyy + F.D26*kxy

/-- `panels/models/cylshell_clpt_donnell_bardell_num.pyx` (`calc_fint`), line 846. -/
def fint_Mxy (F : Lam K) (exx eyy gxy kxx kxy kyy : K) : K :=
  F.B16*exx + F.B26*eyy + F.B66*gxy + F.D16*kxx + F.D26*kyy + F.D66*kxy

/-- `panels/models/cylshell_clpt_donnell_bardell_num.pyx` (`calc_fint`), line 867; names from
lines 849-850, 857-858. -/
def fint_fint_0 (S : Shape K) (P : Panel K) (Mxx Mxy Myy Nxx Nxy Nyy eta intx inty weight weta wxi xi : K) (i j : ℕ) : K :=
  let fAuxi := S.fp i xi P.xu;
  let gAu := S.f j eta P.yu;
  let fAu := S.f i xi P.xu;
  let gAueta := S.fp j eta P.yu;
  weight*( (1/4)*intx*inty*(2*Nxx*fAuxi*gAu/P.a + 2*Nxy*fAu*gAueta/P.b) )

/-- `panels/models/cylshell_clpt_donnell_bardell_num.pyx` (`calc_fint`), line 868; names from
lines 851-852, 859-860. -/
def fint_fint_1 (S : Shape K) (P : Panel K) (Mxx Mxy Myy Nxx Nxy Nyy eta intx inty weight weta wxi xi : K) (i j : ℕ) : K :=
  let fAvxi := S.fp i xi P.xv;
  let gAv := S.f j eta P.yv;
  let fAv := S.f i xi P.xv;
  let gAveta := S.fp j eta P.yv;
  weight*( (1/4)*intx*inty*(2*Nxy*fAvxi*gAv/P.a + 2*Nyy*fAv*gAveta/P.b) )

/-- `panels/models/cylshell_clpt_donnell_bardell_num.pyx` (`calc_fint`), line 869; names from
lines 853-855, 861-863. -/
def fint_fint_2 (S : Shape K) (P : Panel K) (Mxx Mxy Myy Nxx Nxy Nyy eta intx inty weight weta wxi xi : K) (i j : ℕ) : K :=
  let fAwxixi := S.fpp i xi P.xw;
  let gAw := S.f j eta P.yw;
  let fAwxi := S.fp i xi P.xw;
  let gAweta := S.fp j eta P.yw;
  let fAw := S.f i xi P.xw;
  let gAwetaeta := S.fpp j eta P.yw;
  weight*( (1/4)*intx*inty*(-4*Mxx*fAwxixi*gAw/(P.a*P.a) - 8*Mxy*fAwxi*gAweta/(P.a*P.b) -
  4*Myy*fAw*gAwetaeta/(P.b*P.b) + 4*Nxx*fAwxi*gAw*wxi/(P.a*P.a) + 4*Nxy*(fAw*gAweta*wxi +
  fAwxi*gAw*weta)/(P.a*P.b) + Nyy*(fAw*gAw/P.r + 4*fAw*gAweta*weta/(P.b*P.b))) )

end Verif.Gen.CylNum
