import Verif.Model.Types

/-!
Generated by `/verif/tools/translate.py` from the sources named in the comments; the
expressions are verbatim, decimals are kept as the printed rationals.
-/

set_option linter.unusedVariables false

namespace Verif.Gen.PlateNum

variable {K : Type*} [Field K]

/-- `panels/models/plate_clpt_donnell_bardell_num.pyx` (`fkC_num`), line 241; names from lines
192-193, 201-202, 210-211, 227-228. -/
def fkC_num_00 (S : Shape K) (P : Panel K) (F : Lam K) (eta intx inty weight weta wxi xi : K) (i k j l : ℕ) : K :=
  let fBu := S.f k xi P.xu;
  let gBueta := S.fp l eta P.yu;
  let fAuxi := S.fp i xi P.xu;
  let gAu := S.f j eta P.yu;
  let fAu := S.f i xi P.xu;
  let gAueta := S.fp j eta P.yu;
  let fBuxi := S.fp k xi P.xu;
  let gBu := S.f l eta P.yu;
  weight*( intx*inty*(P.a*fBu*gBueta*(F.A16*P.b*fAuxi*gAu + F.A66*P.a*fAu*gAueta) +
  P.b*fBuxi*gBu*(F.A11*P.b*fAuxi*gAu + F.A16*P.a*fAu*gAueta))/((P.a*P.a)*(P.b*P.b)) )

/-- `panels/models/plate_clpt_donnell_bardell_num.pyx` (`fkC_num`), line 246; names from lines
192-193, 203-204, 210-211, 229-230. -/
def fkC_num_01 (S : Shape K) (P : Panel K) (F : Lam K) (eta intx inty weight weta wxi xi : K) (i k j l : ℕ) : K :=
  let fBv := S.f k xi P.xv;
  let gBveta := S.fp l eta P.yv;
  let fAuxi := S.fp i xi P.xu;
  let gAu := S.f j eta P.yu;
  let fAu := S.f i xi P.xu;
  let gAueta := S.fp j eta P.yu;
  let fBvxi := S.fp k xi P.xv;
  let gBv := S.f l eta P.yv;
  weight*( intx*inty*(P.a*fBv*gBveta*(F.A12*P.b*fAuxi*gAu + F.A26*P.a*fAu*gAueta) +
  P.b*fBvxi*gBv*(F.A16*P.b*fAuxi*gAu + F.A66*P.a*fAu*gAueta))/((P.a*P.a)*(P.b*P.b)) )

/-- `panels/models/plate_clpt_donnell_bardell_num.pyx` (`fkC_num`), line 251; names from lines
192-193, 205-207, 210-211, 231-233. -/
def fkC_num_02 (S : Shape K) (P : Panel K) (F : Lam K) (eta intx inty weight weta wxi xi : K) (i k j l : ℕ) : K :=
  let fBw := S.f k xi P.xw;
  let gBweta := S.fp l eta P.yw;
  let fAuxi := S.fp i xi P.xu;
  let gAu := S.f j eta P.yu;
  let fAu := S.f i xi P.xu;
  let gAueta := S.fp j eta P.yu;
  let gBwetaeta := S.fpp l eta P.yw;
  let fBwxi := S.fp k xi P.xw;
  let gBw := S.f l eta P.yw;
  let fBwxixi := S.fpp k xi P.xw;
  weight*( 2*intx*inty*((P.a*P.a)*fBw*(gBweta*weta*(F.A12*P.b*fAuxi*gAu + F.A26*P.a*fAu*gAueta)
  - gBwetaeta*(F.B12*P.b*fAuxi*gAu + F.B26*P.a*fAu*gAueta)) +
  P.a*P.b*(-2*fBwxi*gBweta*(F.B16*P.b*fAuxi*gAu + F.B66*P.a*fAu*gAueta) + (fBw*gBweta*wxi +
  fBwxi*gBw*weta)*(F.A16*P.b*fAuxi*gAu + F.A66*P.a*fAu*gAueta)) +
  (P.b*P.b)*gBw*(fBwxi*wxi*(F.A11*P.b*fAuxi*gAu + F.A16*P.a*fAu*gAueta) -
  fBwxixi*(F.B11*P.b*fAuxi*gAu + F.B16*P.a*fAu*gAueta)))/((P.a*P.a*P.a)*(P.b*P.b*P.b)) )

/-- `panels/models/plate_clpt_donnell_bardell_num.pyx` (`fkC_num`), line 256; names from lines
194-195, 201-202, 212-213, 227-228. -/
def fkC_num_10 (S : Shape K) (P : Panel K) (F : Lam K) (eta intx inty weight weta wxi xi : K) (i k j l : ℕ) : K :=
  let fBu := S.f k xi P.xu;
  let gBueta := S.fp l eta P.yu;
  let fAv := S.f i xi P.xv;
  let gAveta := S.fp j eta P.yv;
  let fAvxi := S.fp i xi P.xv;
  let gAv := S.f j eta P.yv;
  let fBuxi := S.fp k xi P.xu;
  let gBu := S.f l eta P.yu;
  weight*( intx*inty*(P.a*fBu*gBueta*(F.A26*P.a*fAv*gAveta + F.A66*P.b*fAvxi*gAv) +
  P.b*fBuxi*gBu*(F.A12*P.a*fAv*gAveta + F.A16*P.b*fAvxi*gAv))/((P.a*P.a)*(P.b*P.b)) )

/-- `panels/models/plate_clpt_donnell_bardell_num.pyx` (`fkC_num`), line 261; names from lines
194-195, 203-204, 212-213, 229-230. -/
def fkC_num_11 (S : Shape K) (P : Panel K) (F : Lam K) (eta intx inty weight weta wxi xi : K) (i k j l : ℕ) : K :=
  let fBv := S.f k xi P.xv;
  let gBveta := S.fp l eta P.yv;
  let fAv := S.f i xi P.xv;
  let gAveta := S.fp j eta P.yv;
  let fAvxi := S.fp i xi P.xv;
  let gAv := S.f j eta P.yv;
  let fBvxi := S.fp k xi P.xv;
  let gBv := S.f l eta P.yv;
  weight*( intx*inty*(P.a*fBv*gBveta*(F.A22*P.a*fAv*gAveta + F.A26*P.b*fAvxi*gAv) +
  P.b*fBvxi*gBv*(F.A26*P.a*fAv*gAveta + F.A66*P.b*fAvxi*gAv))/((P.a*P.a)*(P.b*P.b)) )

/-- `panels/models/plate_clpt_donnell_bardell_num.pyx` (`fkC_num`), line 266; names from lines
194-195, 205-207, 212-213, 231-233. -/
def fkC_num_12 (S : Shape K) (P : Panel K) (F : Lam K) (eta intx inty weight weta wxi xi : K) (i k j l : ℕ) : K :=
  let fBw := S.f k xi P.xw;
  let gBweta := S.fp l eta P.yw;
  let fAv := S.f i xi P.xv;
  let gAveta := S.fp j eta P.yv;
  let fAvxi := S.fp i xi P.xv;
  let gAv := S.f j eta P.yv;
  let gBwetaeta := S.fpp l eta P.yw;
  let fBwxi := S.fp k xi P.xw;
  let gBw := S.f l eta P.yw;
  let fBwxixi := S.fpp k xi P.xw;
  weight*( 2*intx*inty*((P.a*P.a)*fBw*(gBweta*weta*(F.A22*P.a*fAv*gAveta + F.A26*P.b*fAvxi*gAv)
  - gBwetaeta*(F.B22*P.a*fAv*gAveta + F.B26*P.b*fAvxi*gAv)) +
  P.a*P.b*(-2*fBwxi*gBweta*(F.B26*P.a*fAv*gAveta + F.B66*P.b*fAvxi*gAv) + (fBw*gBweta*wxi +
  fBwxi*gBw*weta)*(F.A26*P.a*fAv*gAveta + F.A66*P.b*fAvxi*gAv)) +
  (P.b*P.b)*gBw*(fBwxi*wxi*(F.A12*P.a*fAv*gAveta + F.A16*P.b*fAvxi*gAv) -
  fBwxixi*(F.B12*P.a*fAv*gAveta + F.B16*P.b*fAvxi*gAv)))/((P.a*P.a*P.a)*(P.b*P.b*P.b)) )

/-- `panels/models/plate_clpt_donnell_bardell_num.pyx` (`fkC_num`), line 271; names from lines
196-198, 201-202, 214-216, 227-228. -/
def fkC_num_20 (S : Shape K) (P : Panel K) (F : Lam K) (eta intx inty weight weta wxi xi : K) (i k j l : ℕ) : K :=
  let fBu := S.f k xi P.xu;
  let gBueta := S.fp l eta P.yu;
  let fAw := S.f i xi P.xw;
  let gAweta := S.fp j eta P.yw;
  let gAwetaeta := S.fpp j eta P.yw;
  let fAwxi := S.fp i xi P.xw;
  let gAw := S.f j eta P.yw;
  let fAwxixi := S.fpp i xi P.xw;
  let fBuxi := S.fp k xi P.xu;
  let gBu := S.f l eta P.yu;
  weight*( 2*intx*inty*(P.a*fBu*gBueta*((P.a*P.a)*fAw*(F.A26*gAweta*weta - F.B26*gAwetaeta) +
  P.a*P.b*(F.A66*(fAw*gAweta*wxi + fAwxi*gAw*weta) - 2*F.B66*fAwxi*gAweta) +
  (P.b*P.b)*gAw*(F.A16*fAwxi*wxi - F.B16*fAwxixi)) +
  P.b*fBuxi*gBu*((P.a*P.a)*fAw*(F.A12*gAweta*weta - F.B12*gAwetaeta) +
  P.a*P.b*(F.A16*(fAw*gAweta*wxi + fAwxi*gAw*weta) - 2*F.B16*fAwxi*gAweta) +
  (P.b*P.b)*gAw*(F.A11*fAwxi*wxi - F.B11*fAwxixi)))/((P.a*P.a*P.a)*(P.b*P.b*P.b)) )

/-- `panels/models/plate_clpt_donnell_bardell_num.pyx` (`fkC_num`), line 276; names from lines
196-198, 203-204, 214-216, 229-230. -/
def fkC_num_21 (S : Shape K) (P : Panel K) (F : Lam K) (eta intx inty weight weta wxi xi : K) (i k j l : ℕ) : K :=
  let fBv := S.f k xi P.xv;
  let gBveta := S.fp l eta P.yv;
  let fAw := S.f i xi P.xw;
  let gAweta := S.fp j eta P.yw;
  let gAwetaeta := S.fpp j eta P.yw;
  let fAwxi := S.fp i xi P.xw;
  let gAw := S.f j eta P.yw;
  let fAwxixi := S.fpp i xi P.xw;
  let fBvxi := S.fp k xi P.xv;
  let gBv := S.f l eta P.yv;
  weight*( 2*intx*inty*(P.a*fBv*gBveta*((P.a*P.a)*fAw*(F.A22*gAweta*weta - F.B22*gAwetaeta) +
  P.a*P.b*(F.A26*(fAw*gAweta*wxi + fAwxi*gAw*weta) - 2*F.B26*fAwxi*gAweta) +
  (P.b*P.b)*gAw*(F.A12*fAwxi*wxi - F.B12*fAwxixi)) +
  P.b*fBvxi*gBv*((P.a*P.a)*fAw*(F.A26*gAweta*weta - F.B26*gAwetaeta) +
  P.a*P.b*(F.A66*(fAw*gAweta*wxi + fAwxi*gAw*weta) - 2*F.B66*fAwxi*gAweta) +
  (P.b*P.b)*gAw*(F.A16*fAwxi*wxi - F.B16*fAwxixi)))/((P.a*P.a*P.a)*(P.b*P.b*P.b)) )

/-- `panels/models/plate_clpt_donnell_bardell_num.pyx` (`fkC_num`), line 281; names from lines
196-198, 205-207, 214-216, 231-233. -/
def fkC_num_22 (S : Shape K) (P : Panel K) (F : Lam K) (eta intx inty weight weta wxi xi : K) (i k j l : ℕ) : K :=
  let fBw := S.f k xi P.xw;
  let gBweta := S.fp l eta P.yw;
  let fAw := S.f i xi P.xw;
  let gAweta := S.fp j eta P.yw;
  let gAwetaeta := S.fpp j eta P.yw;
  let fAwxi := S.fp i xi P.xw;
  let gAw := S.f j eta P.yw;
  let fAwxixi := S.fpp i xi P.xw;
  let gBwetaeta := S.fpp l eta P.yw;
  let fBwxi := S.fp k xi P.xw;
  let gBw := S.f l eta P.yw;
  let fBwxixi := S.fpp k xi P.xw;
  weight*( 4*intx*inty*((P.a*P.a)*fBw*(gBweta*weta*((P.a*P.a)*fAw*(F.A22*gAweta*weta -
  F.B22*gAwetaeta) + P.a*P.b*(F.A26*(fAw*gAweta*wxi + fAwxi*gAw*weta) - 2*F.B26*fAwxi*gAweta) +
  (P.b*P.b)*gAw*(F.A12*fAwxi*wxi - F.B12*fAwxixi)) - gBwetaeta*((P.a*P.a)*fAw*(F.B22*gAweta*weta
  - F.D22*gAwetaeta) + P.a*P.b*(F.B26*(fAw*gAweta*wxi + fAwxi*gAw*weta) - 2*F.D26*fAwxi*gAweta)
  + (P.b*P.b)*gAw*(F.B12*fAwxi*wxi - F.D12*fAwxixi))) +
  P.a*P.b*(-2*fBwxi*gBweta*((P.a*P.a)*fAw*(F.B26*gAweta*weta - F.D26*gAwetaeta) +
  P.a*P.b*(F.B66*(fAw*gAweta*wxi + fAwxi*gAw*weta) - 2*F.D66*fAwxi*gAweta) +
  (P.b*P.b)*gAw*(F.B16*fAwxi*wxi - F.D16*fAwxixi)) + (fBw*gBweta*wxi +
  fBwxi*gBw*weta)*((P.a*P.a)*fAw*(F.A26*gAweta*weta - F.B26*gAwetaeta) +
  P.a*P.b*(F.A66*(fAw*gAweta*wxi + fAwxi*gAw*weta) - 2*F.B66*fAwxi*gAweta) +
  (P.b*P.b)*gAw*(F.A16*fAwxi*wxi - F.B16*fAwxixi))) +
  (P.b*P.b)*gBw*(fBwxi*wxi*((P.a*P.a)*fAw*(F.A12*gAweta*weta - F.B12*gAwetaeta) +
  P.a*P.b*(F.A16*(fAw*gAweta*wxi + fAwxi*gAw*weta) - 2*F.B16*fAwxi*gAweta) +
  (P.b*P.b)*gAw*(F.A11*fAwxi*wxi - F.B11*fAwxixi)) - fBwxixi*((P.a*P.a)*fAw*(F.B12*gAweta*weta -
  F.D12*gAwetaeta) + P.a*P.b*(F.B16*(fAw*gAweta*wxi + fAwxi*gAw*weta) - 2*F.D16*fAwxi*gAweta) +
  (P.b*P.b)*gAw*(F.B11*fAwxi*wxi - F.D11*fAwxixi))))/((P.a*P.a*P.a*P.a)*(P.b*P.b*P.b*P.b)) )

/-- The `(α, β)` written by `fkC_num` (`panels/models/plate_clpt_donnell_bardell_num.pyx`), in program order. -/
def fkC_num_pat : List (ℕ × ℕ) := [(0,0), (0,1), (0,2), (1,0), (1,1), (1,2), (2,0), (2,1), (2,2)]

/-- Value written by `fkC_num` at `(row+α, col+β)`. -/
def fkC_num (S : Shape K) (P : Panel K) (F : Lam K) (eta intx inty weight weta wxi xi : K) (i k j l : ℕ) (α β : ℕ) : K :=
  match α, β with
  | 0, 0 => fkC_num_00 S P F eta intx inty weight weta wxi xi i k j l
  | 0, 1 => fkC_num_01 S P F eta intx inty weight weta wxi xi i k j l
  | 0, 2 => fkC_num_02 S P F eta intx inty weight weta wxi xi i k j l
  | 1, 0 => fkC_num_10 S P F eta intx inty weight weta wxi xi i k j l
  | 1, 1 => fkC_num_11 S P F eta intx inty weight weta wxi xi i k j l
  | 1, 2 => fkC_num_12 S P F eta intx inty weight weta wxi xi i k j l
  | 2, 0 => fkC_num_20 S P F eta intx inty weight weta wxi xi i k j l
  | 2, 1 => fkC_num_21 S P F eta intx inty weight weta wxi xi i k j l
  | 2, 2 => fkC_num_22 S P F eta intx inty weight weta wxi xi i k j l
  | _, _ => 0

/-- `panels/models/plate_clpt_donnell_bardell_num.pyx` (`fkG_num`), line 512; names from lines
486-487, 490-491, 494-495, 498-499. -/
def fkG_num_22 (S : Shape K) (P : Panel K) (Nxx Nxy Nyy eta intx inty weight xi : K) (i k j l : ℕ) : K :=
  let fBw := S.f k xi P.xw;
  let gBweta := S.fp l eta P.yw;
  let fAwxi := S.fp i xi P.xw;
  let gAw := S.f j eta P.yw;
  let fAw := S.f i xi P.xw;
  let gAweta := S.fp j eta P.yw;
  let fBwxi := S.fp k xi P.xw;
  let gBw := S.f l eta P.yw;
  weight*( intx*inty*(P.a*fBw*gBweta*(Nxy*P.b*fAwxi*gAw + Nyy*P.a*fAw*gAweta) +
  P.b*fBwxi*gBw*(Nxx*P.b*fAwxi*gAw + Nxy*P.a*fAw*gAweta))/((P.a*P.a)*(P.b*P.b)) )

/-- The `(α, β)` written by `fkG_num` (`panels/models/plate_clpt_donnell_bardell_num.pyx`), in program order. -/
def fkG_num_pat : List (ℕ × ℕ) := [(2,2)]

/-- Value written by `fkG_num` at `(row+α, col+β)`. -/
def fkG_num (S : Shape K) (P : Panel K) (Nxx Nxy Nyy eta intx inty weight xi : K) (i k j l : ℕ) (α β : ℕ) : K :=
  match α, β with
  | 2, 2 => fkG_num_22 S P Nxx Nxy Nyy eta intx inty weight xi i k j l
  | _, _ => 0

/-- `panels/models/plate_clpt_donnell_bardell_num.pyx` (`fkM_num`), line 675; names from lines
640, 646, 652, 666. -/
def fkM_num_00 (S : Shape K) (P : Panel K) (d eta h intx inty rho weight xi : K) (i k j l : ℕ) : K :=
  let fAu := S.f i xi P.xu;
  let fBu := S.f k xi P.xu;
  let gAu := S.f j eta P.yu;
  let gBu := S.f l eta P.yu;
  weight*( (1/4)*fAu*fBu*gAu*gBu*h*intx*inty*rho )

/-- `panels/models/plate_clpt_donnell_bardell_num.pyx` (`fkM_num`), line 680; names from lines
640, 649, 652, 668. -/
def fkM_num_02 (S : Shape K) (P : Panel K) (d eta h intx inty rho weight xi : K) (i k j l : ℕ) : K :=
  let fAu := S.f i xi P.xu;
  let fBwxi := S.fp k xi P.xw;
  let gAu := S.f j eta P.yu;
  let gBw := S.f l eta P.yw;
  weight*( (1/2)*d*fAu*fBwxi*gAu*gBw*h*intx*inty*rho/P.a )

/-- `panels/models/plate_clpt_donnell_bardell_num.pyx` (`fkM_num`), line 685; names from lines
641, 647, 653, 667. -/
def fkM_num_11 (S : Shape K) (P : Panel K) (d eta h intx inty rho weight xi : K) (i k j l : ℕ) : K :=
  let fAv := S.f i xi P.xv;
  let fBv := S.f k xi P.xv;
  let gAv := S.f j eta P.yv;
  let gBv := S.f l eta P.yv;
  weight*( (1/4)*fAv*fBv*gAv*gBv*h*intx*inty*rho )

/-- `panels/models/plate_clpt_donnell_bardell_num.pyx` (`fkM_num`), line 690; names from lines
641, 648, 653, 669. -/
def fkM_num_12 (S : Shape K) (P : Panel K) (d eta h intx inty rho weight xi : K) (i k j l : ℕ) : K :=
  let fAv := S.f i xi P.xv;
  let fBw := S.f k xi P.xw;
  let gAv := S.f j eta P.yv;
  let gBweta := S.fp l eta P.yw;
  weight*( (1/2)*d*fAv*fBw*gAv*gBweta*h*intx*inty*rho/P.b )

/-- `panels/models/plate_clpt_donnell_bardell_num.pyx` (`fkM_num`), line 695; names from lines
643, 646, 654, 666. -/
def fkM_num_20 (S : Shape K) (P : Panel K) (d eta h intx inty rho weight xi : K) (i k j l : ℕ) : K :=
  let fAwxi := S.fp i xi P.xw;
  let fBu := S.f k xi P.xu;
  let gAw := S.f j eta P.yw;
  let gBu := S.f l eta P.yu;
  weight*( (1/2)*d*fAwxi*fBu*gAw*gBu*h*intx*inty*rho/P.a )

/-- `panels/models/plate_clpt_donnell_bardell_num.pyx` (`fkM_num`), line 700; names from lines
642, 647, 655, 667. -/
def fkM_num_21 (S : Shape K) (P : Panel K) (d eta h intx inty rho weight xi : K) (i k j l : ℕ) : K :=
  let fAw := S.f i xi P.xw;
  let fBv := S.f k xi P.xv;
  let gAweta := S.fp j eta P.yw;
  let gBv := S.f l eta P.yv;
  weight*( (1/2)*d*fAw*fBv*gAweta*gBv*h*intx*inty*rho/P.b )

/-- `panels/models/plate_clpt_donnell_bardell_num.pyx` (`fkM_num`), line 705; names from lines
642-643, 648-649, 654-655, 668-669. -/
def fkM_num_22 (S : Shape K) (P : Panel K) (d eta h intx inty rho weight xi : K) (i k j l : ℕ) : K :=
  let fAw := S.f i xi P.xw;
  let fBw := S.f k xi P.xw;
  let gAw := S.f j eta P.yw;
  let gBw := S.f l eta P.yw;
  let gAweta := S.fp j eta P.yw;
  let gBweta := S.fp l eta P.yw;
  let fAwxi := S.fp i xi P.xw;
  let fBwxi := S.fp k xi P.xw;
  weight*( (1/4)*h*intx*inty*rho*(fAw*fBw*gAw*gBw + 4*fAw*fBw*gAweta*gBweta*((d*d) +
  (833333333333333/10000000000000000)*(h*h))/(P.b*P.b) + 4*fAwxi*fBwxi*gAw*gBw*((d*d) +
  (833333333333333/10000000000000000)*(h*h))/(P.a*P.a)) )

/-- The `(α, β)` written by `fkM_num` (`panels/models/plate_clpt_donnell_bardell_num.pyx`), in program order. -/
def fkM_num_pat : List (ℕ × ℕ) := [(0,0), (0,2), (1,1), (1,2), (2,0), (2,1), (2,2)]

/-- Value written by `fkM_num` at `(row+α, col+β)`. -/
def fkM_num (S : Shape K) (P : Panel K) (d eta h intx inty rho weight xi : K) (i k j l : ℕ) (α β : ℕ) : K :=
  match α, β with
  | 0, 0 => fkM_num_00 S P d eta h intx inty rho weight xi i k j l
  | 0, 2 => fkM_num_02 S P d eta h intx inty rho weight xi i k j l
  | 1, 1 => fkM_num_11 S P d eta h intx inty rho weight xi i k j l
  | 1, 2 => fkM_num_12 S P d eta h intx inty rho weight xi i k j l
  | 2, 0 => fkM_num_20 S P d eta h intx inty rho weight xi i k j l
  | 2, 1 => fkM_num_21 S P d eta h intx inty rho weight xi i k j l
  | 2, 2 => fkM_num_22 S P d eta h intx inty rho weight xi i k j l
  | _, _ => 0

/-- `panels/models/plate_clpt_donnell_bardell_num.pyx` (`fkAx_num`), line 822; names from lines
798-799, 802, 805, 816. -/
def fkAx_num_22 (S : Shape K) (P : Panel K) (beta eta gamma intx inty weight xi : K) (i k j l : ℕ) : K :=
  let fAw := S.f i xi P.xw;
  let fBw := S.f k xi P.xw;
  let gAw := S.f j eta P.yw;
  let gBw := S.f l eta P.yw;
  let fAwxi := S.fp i xi P.xw;
  weight*( (1/4)*intx*inty*(fAw*fBw*gAw*gBw*gamma - 2*beta*fAwxi*fBw*gAw*gBw/P.a) )

/-- The `(α, β)` written by `fkAx_num` (`panels/models/plate_clpt_donnell_bardell_num.pyx`), in program order. -/
def fkAx_num_pat : List (ℕ × ℕ) := [(2,2)]

/-- Value written by `fkAx_num` at `(row+α, col+β)`. -/
def fkAx_num (S : Shape K) (P : Panel K) (beta eta gamma intx inty weight xi : K) (i k j l : ℕ) (α β : ℕ) : K :=
  match α, β with
  | 2, 2 => fkAx_num_22 S P beta eta gamma intx inty weight xi i k j l
  | _, _ => 0

/-- `panels/models/plate_clpt_donnell_bardell_num.pyx` (`fkAy_num`), line 936; names from lines
913, 916, 919, 930. -/
def fkAy_num_22 (S : Shape K) (P : Panel K) (beta eta intx inty weight xi : K) (i k j l : ℕ) : K :=
  let fAw := S.f i xi P.xw;
  let fBw := S.f k xi P.xw;
  let gAweta := S.fp j eta P.yw;
  let gBw := S.f l eta P.yw;
  weight*( -(1/2)*beta*fAw*fBw*gAweta*gBw*intx*inty/P.b )

/-- The `(α, β)` written by `fkAy_num` (`panels/models/plate_clpt_donnell_bardell_num.pyx`), in program order. -/
def fkAy_num_pat : List (ℕ × ℕ) := [(2,2)]

/-- Value written by `fkAy_num` at `(row+α, col+β)`. -/
def fkAy_num (S : Shape K) (P : Panel K) (beta eta intx inty weight xi : K) (i k j l : ℕ) (α β : ℕ) : K :=
  match α, β with
  | 2, 2 => fkAy_num_22 S P beta eta intx inty weight xi i k j l
  | _, _ => 0

/-- `panels/models/plate_clpt_donnell_bardell_num.pyx` (`fkC_num`), line 159; names from lines
150, 155. -/
def fkC_num_wxi (S : Shape K) (P : Panel K) (c2 eta xi : K) (i j : ℕ) : K :=
  let fAwxi := S.fp i xi P.xw;
  let gAw := S.f j eta P.yw;
  c2*fAwxi*gAw

/-- `panels/models/plate_clpt_donnell_bardell_num.pyx` (`fkC_num`), line 160; names from lines
151, 154. -/
def fkC_num_weta (S : Shape K) (P : Panel K) (c2 eta xi : K) (i j : ℕ) : K :=
  let fAw := S.f i xi P.xw;
  let gAweta := S.fp j eta P.yw;
  c2*fAw*gAweta

/-- `panels/models/plate_clpt_donnell_bardell_num.pyx` (`fkG_num`), line 440; names from lines
432, 436. -/
def fkG_num_wxi (S : Shape K) (P : Panel K) (c2 eta xi : K) (i j : ℕ) : K :=
  let fAwxi := S.fp i xi P.xw;
  let gAw := S.f j eta P.yw;
  c2*fAwxi*gAw

/-- `panels/models/plate_clpt_donnell_bardell_num.pyx` (`fkG_num`), line 441; names from lines
433, 435. -/
def fkG_num_weta (S : Shape K) (P : Panel K) (c2 eta xi : K) (i j : ℕ) : K :=
  let fAw := S.f i xi P.xw;
  let gAweta := S.fp j eta P.yw;
  c2*fAw*gAweta

/-- `panels/models/plate_clpt_donnell_bardell_num.pyx` (`fkG_num`), line 471; names from lines
452, 454, 464, 466. -/
def fkG_num_exx (S : Shape K) (P : Panel K) (c0 c1 c2 eta weta wxi xi : K) (i j : ℕ) : K :=
  let fAuxi := S.fp i xi P.xu;
  let gAu := S.f j eta P.yu;
  let fAwxi := S.fp i xi P.xw;
  let gAw := S.f j eta P.yw;
  c0*(2/P.a)*fAuxi*gAu + (1/2)*c2*(2/P.a)*fAwxi*gAw*(2/P.a)*wxi

/-- `panels/models/plate_clpt_donnell_bardell_num.pyx` (`fkG_num`), line 472; names from lines
456-457, 462-463. -/
def fkG_num_eyy (S : Shape K) (P : Panel K) (c0 c1 c2 eta weta wxi xi : K) (i j : ℕ) : K :=
  let fAv := S.f i xi P.xv;
  let gAveta := S.fp j eta P.yv;
  let fAw := S.f i xi P.xw;
  let gAweta := S.fp j eta P.yw;
  c1*(2/P.b)*fAv*gAveta + (1/2)*c2*(2/P.b)*fAw*gAweta*(2/P.b)*weta

/-- `panels/models/plate_clpt_donnell_bardell_num.pyx` (`fkG_num`), line 473; names from lines
453-455, 457, 461, 463, 465-466. -/
def fkG_num_gxy (S : Shape K) (P : Panel K) (c0 c1 c2 eta weta wxi xi : K) (i j : ℕ) : K :=
  let fAu := S.f i xi P.xu;
  let gAueta := S.fp j eta P.yu;
  let fAvxi := S.fp i xi P.xv;
  let gAv := S.f j eta P.yv;
  let fAwxi := S.fp i xi P.xw;
  let gAw := S.f j eta P.yw;
  let fAw := S.f i xi P.xw;
  let gAweta := S.fp j eta P.yw;
  c0*(2/P.b)*fAu*gAueta + c1*(2/P.a)*fAvxi*gAv + c2*(2/P.b)*weta*(2/P.a)*fAwxi*gAw +
  c2*(2/P.a)*wxi*(2/P.b)*fAw*gAweta

/-- `panels/models/plate_clpt_donnell_bardell_num.pyx` (`fkG_num`), line 474; names from lines
454, 467. -/
def fkG_num_kxx (S : Shape K) (P : Panel K) (c0 c1 c2 eta weta wxi xi : K) (i j : ℕ) : K :=
  let fAwxixi := S.fpp i xi P.xw;
  let gAw := S.f j eta P.yw;
  -c2*(2/P.a*2/P.a)*fAwxixi*gAw

/-- `panels/models/plate_clpt_donnell_bardell_num.pyx` (`fkG_num`), line 475; names from lines
458, 463. -/
def fkG_num_kyy (S : Shape K) (P : Panel K) (c0 c1 c2 eta weta wxi xi : K) (i j : ℕ) : K :=
  let fAw := S.f i xi P.xw;
  let gAwetaeta := S.fpp j eta P.yw;
  -c2*(2/P.b*2/P.b)*fAw*gAwetaeta

/-- `panels/models/plate_clpt_donnell_bardell_num.pyx` (`fkG_num`), line 476; names from lines
457, 466. -/
def fkG_num_kxy (S : Shape K) (P : Panel K) (c0 c1 c2 eta weta wxi xi : K) (i j : ℕ) : K :=
  let fAwxi := S.fp i xi P.xw;
  let gAweta := S.fp j eta P.yw;
  -2*c2*(2/P.a)*fAwxi*(2/P.b)*gAweta

/-- `panels/models/plate_clpt_donnell_bardell_num.pyx` (`fkG_num`), line 479. -/
def fkG_num_Nxx (F : Lam K) (Nxx0 Nxy0 Nyy0 exx eyy gxy kxx kxy kyy : K) : K :=
  Nxx0 + F.A11*exx + F.A12*eyy + F.A16*gxy + F.B11*kxx + F.B12*kyy + F.B16*kxy

/-- `panels/models/plate_clpt_donnell_bardell_num.pyx` (`fkG_num`), line 480. -/
def fkG_num_Nyy (F : Lam K) (Nxx0 Nxy0 Nyy0 exx eyy gxy kxx kxy kyy : K) : K :=
  Nyy0 + F.A12*exx + F.A22*eyy + F.A26*gxy + F.B12*kxx + F.B22*kyy + F.B26*kxy

/-- `panels/models/plate_clpt_donnell_bardell_num.pyx` (`fkG_num`), line 481. -/
def fkG_num_Nxy (F : Lam K) (Nxx0 Nxy0 Nyy0 exx eyy gxy kxx kxy kyy : K) : K :=
  Nxy0 + F.A16*exx + F.A26*eyy + F.A66*gxy + F.B16*kxx + F.B26*kyy + F.B66*kxy

/-- `panels/models/plate_clpt_donnell_bardell_num.pyx` (`calc_fint`), line 1095; names from
lines 1086, 1091. -/
def fint_wxi (S : Shape K) (P : Panel K) (c2 eta xi : K) (i j : ℕ) : K :=
  let fAwxi := S.fp i xi P.xw;
  let gAw := S.f j eta P.yw;
  c2*fAwxi*gAw

/-- `panels/models/plate_clpt_donnell_bardell_num.pyx` (`calc_fint`), line 1096; names from
lines 1087, 1090. -/
def fint_weta (S : Shape K) (P : Panel K) (c2 eta xi : K) (i j : ℕ) : K :=
  let fAw := S.f i xi P.xw;
  let gAweta := S.fp j eta P.yw;
  c2*fAw*gAweta

/-- `panels/models/plate_clpt_donnell_bardell_num.pyx` (`calc_fint`), line 1128; names from
lines 1108, 1112, 1119, 1123. -/
def fint_exx (S : Shape K) (P : Panel K) (c0 c1 c2 eta weta wxi xi : K) (i j : ℕ) : K :=
  let fAuxi := S.fp i xi P.xu;
  let gAu := S.f j eta P.yu;
  let fAwxi := S.fp i xi P.xw;
  let gAw := S.f j eta P.yw;
  c0*(2/P.a)*fAuxi*gAu + (1/2)*c2*(2/P.a)*fAwxi*gAw*(2/P.a)*wxi

/-- `panels/models/plate_clpt_donnell_bardell_num.pyx` (`calc_fint`), line 1129; names from
lines 1111, 1113, 1120, 1122. -/
def fint_eyy (S : Shape K) (P : Panel K) (c0 c1 c2 eta weta wxi xi : K) (i j : ℕ) : K :=
  let fAv := S.f i xi P.xv;
  let gAveta := S.fp j eta P.yv;
  let fAw := S.f i xi P.xw;
  let gAweta := S.fp j eta P.yw;
  c1*(2/P.b)*fAv*gAveta + (1/2)*c2*(2/P.b)*fAw*gAweta*(2/P.b)*weta

/-- `panels/models/plate_clpt_donnell_bardell_num.pyx` (`calc_fint`), line 1130; names from
lines 1109-1110, 1112-1113, 1118, 1121-1123. -/
def fint_gxy (S : Shape K) (P : Panel K) (c0 c1 c2 eta weta wxi xi : K) (i j : ℕ) : K :=
  let fAu := S.f i xi P.xu;
  let gAueta := S.fp j eta P.yu;
  let fAvxi := S.fp i xi P.xv;
  let gAv := S.f j eta P.yv;
  let fAwxi := S.fp i xi P.xw;
  let gAw := S.f j eta P.yw;
  let fAw := S.f i xi P.xw;
  let gAweta := S.fp j eta P.yw;
  c0*(2/P.b)*fAu*gAueta + c1*(2/P.a)*fAvxi*gAv + c2*(2/P.b)*weta*(2/P.a)*fAwxi*gAw +
  c2*(2/P.a)*wxi*(2/P.b)*fAw*gAweta

/-- `panels/models/plate_clpt_donnell_bardell_num.pyx` (`calc_fint`), line 1131; names from
lines 1112, 1124. -/
def fint_kxx (S : Shape K) (P : Panel K) (c0 c1 c2 eta weta wxi xi : K) (i j : ℕ) : K :=
  let fAwxixi := S.fpp i xi P.xw;
  let gAw := S.f j eta P.yw;
  -c2*(2/P.a*2/P.a)*fAwxixi*gAw

/-- `panels/models/plate_clpt_donnell_bardell_num.pyx` (`calc_fint`), line 1132; names from
lines 1114, 1122. -/
def fint_kyy (S : Shape K) (P : Panel K) (c0 c1 c2 eta weta wxi xi : K) (i j : ℕ) : K :=
  let fAw := S.f i xi P.xw;
  let gAwetaeta := S.fpp j eta P.yw;
  -c2*(2/P.b*2/P.b)*fAw*gAwetaeta

/-- `panels/models/plate_clpt_donnell_bardell_num.pyx` (`calc_fint`), line 1133; names from
lines 1113, 1123. -/
def fint_kxy (S : Shape K) (P : Panel K) (c0 c1 c2 eta weta wxi xi : K) (i j : ℕ) : K :=
  let fAwxi := S.fp i xi P.xw;
  let gAweta := S.fp j eta P.yw;
  -2*c2*(2/P.a*2/P.b)*fAwxi*gAweta

/-- `panels/models/plate_clpt_donnell_bardell_num.pyx` (`calc_fint`), line 1136. -/
def fint_Nxx (F : Lam K) (exx eyy gxy kxx kxy kyy : K) : K :=
  F.A11*exx + F.A12*eyy + F.A16*gxy + F.B11*kxx + F.B12*kyy + F.B16*kxy

/-- `panels/models/plate_clpt_donnell_bardell_num.pyx` (`calc_fint`), line 1137. -/
def fint_Nyy (F : Lam K) (exx eyy gxy kxx kxy kyy : K) : K :=
  F.A12*exx + F.A22*eyy + F.A26*gxy + F.B12*kxx + F.B22*kyy + F.B26*kxy

/-- `panels/models/plate_clpt_donnell_bardell_num.pyx` (`calc_fint`), line 1138. -/
def fint_Nxy (F : Lam K) (exx eyy gxy kxx kxy kyy : K) : K :=
  F.A16*exx + F.A26*eyy + F.A66*gxy + F.B16*kxx + F.B26*kyy + F.B66*kxy

/-- `panels/models/plate_clpt_donnell_bardell_num.pyx` (`calc_fint`), line 1139. -/
def fint_Mxx (F : Lam K) (exx eyy gxy kxx kxy kyy : K) : K :=
  F.B11*exx + F.B12*eyy + F.B16*gxy + F.D11*kxx + F.D12*kyy + F.D16*kxy

/-- `panels/models/plate_clpt_donnell_bardell_num.pyx` (`calc_fint`), line 1140. -/
def fint_Myy (F : Lam K) (exx eyy gxy kxx kxy kyy : K) : K :=
  F.B12*exx + F.B22*eyy + F.B26*gxy + F.D12*kxx + F.D22*kyy + F.D26*kxy

/-- `panels/models/plate_clpt_donnell_bardell_num.pyx` (`calc_fint`), line 1141. -/
def fint_Mxy (F : Lam K) (exx eyy gxy kxx kxy kyy : K) : K :=
  F.B16*exx + F.B26*eyy + F.B66*gxy + F.D16*kxx + F.D26*kyy + F.D66*kxy

/-- `panels/models/plate_clpt_donnell_bardell_num.pyx` (`calc_fint`), line 1163; names from
lines 1144-1145, 1153-1154. -/
def fint_fint_0 (S : Shape K) (P : Panel K) (Mxx Mxy Myy Nxx Nxy Nyy eta intx inty weight weta wxi xi : K) (i j : ℕ) : K :=
  let fAuxi := S.fp i xi P.xu;
  let gAu := S.f j eta P.yu;
  let fAu := S.f i xi P.xu;
  let gAueta := S.fp j eta P.yu;
  weight*( intx*inty*(Nxx*P.b*fAuxi*gAu + Nxy*P.a*fAu*gAueta)/(2*P.a*P.b) )

/-- `panels/models/plate_clpt_donnell_bardell_num.pyx` (`calc_fint`), line 1164; names from
lines 1146-1147, 1155-1156. -/
def fint_fint_1 (S : Shape K) (P : Panel K) (Mxx Mxy Myy Nxx Nxy Nyy eta intx inty weight weta wxi xi : K) (i j : ℕ) : K :=
  let fAvxi := S.fp i xi P.xv;
  let gAv := S.f j eta P.yv;
  let fAv := S.f i xi P.xv;
  let gAveta := S.fp j eta P.yv;
  weight*( intx*inty*(Nxy*P.b*fAvxi*gAv + Nyy*P.a*fAv*gAveta)/(2*P.a*P.b) )

/-- `panels/models/plate_clpt_donnell_bardell_num.pyx` (`calc_fint`), line 1165; names from
lines 1148-1150, 1157-1159. -/
def fint_fint_2 (S : Shape K) (P : Panel K) (Mxx Mxy Myy Nxx Nxy Nyy eta intx inty weight weta wxi xi : K) (i j : ℕ) : K :=
  let fAw := S.f i xi P.xw;
  let gAwetaeta := S.fpp j eta P.yw;
  let gAweta := S.fp j eta P.yw;
  let fAwxi := S.fp i xi P.xw;
  let gAw := S.f j eta P.yw;
  let fAwxixi := S.fpp i xi P.xw;
  weight*( intx*inty*((P.a*P.a)*fAw*(-Myy*gAwetaeta + Nyy*gAweta*weta) +
  P.a*P.b*(-2*Mxy*fAwxi*gAweta + Nxy*(fAw*gAweta*wxi + fAwxi*gAw*weta)) +
  (P.b*P.b)*gAw*(-Mxx*fAwxixi + Nxx*fAwxi*wxi))/((P.a*P.a)*(P.b*P.b)) )

end Verif.Gen.PlateNum
