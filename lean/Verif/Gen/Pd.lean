import Verif.Model.Types

/-!
Generated by `/verif/tools/translate.py` from the sources named in the comments; the
expressions are verbatim, decimals are kept as the printed rationals.
-/

set_option linter.unusedVariables false

namespace Verif.Gen.Pd

variable {K : Type*} [Field K]

/-- `panels/multidomain/connections/kCpd.pyx` (`fkCpd`), line 138; names from lines 102-103,
107, 114, 119, 131. -/
def fkCpd_00 (S : Shape K) (P : Panel K) (ku kv kw xp yp : K) (i k j l : ℕ) : K :=
  let xip := 2*xp/P.a - 1;
  let fAu := S.f i xip P.xu;
  let fBu := S.f k xip P.xu;
  let etap := 2*yp/P.b - 1;
  let gAu := S.f j etap P.yu;
  let gBu := S.f l etap P.yu;
  ku*fAu*fBu*gAu*gBu

/-- `panels/multidomain/connections/kCpd.pyx` (`fkCpd`), line 142; names from lines 102-103,
108, 115, 120, 132. -/
def fkCpd_11 (S : Shape K) (P : Panel K) (ku kv kw xp yp : K) (i k j l : ℕ) : K :=
  let xip := 2*xp/P.a - 1;
  let fAv := S.f i xip P.xv;
  let fBv := S.f k xip P.xv;
  let etap := 2*yp/P.b - 1;
  let gAv := S.f j etap P.yv;
  let gBv := S.f l etap P.yv;
  kv*fAv*fBv*gAv*gBv

/-- `panels/multidomain/connections/kCpd.pyx` (`fkCpd`), line 146; names from lines 102-103,
109, 116, 121, 133. -/
def fkCpd_22 (S : Shape K) (P : Panel K) (ku kv kw xp yp : K) (i k j l : ℕ) : K :=
  let xip := 2*xp/P.a - 1;
  let fAw := S.f i xip P.xw;
  let fBw := S.f k xip P.xw;
  let etap := 2*yp/P.b - 1;
  let gAw := S.f j etap P.yw;
  let gBw := S.f l etap P.yw;
  kw*fAw*fBw*gAw*gBw

/-- The `(α, β)` written by `fkCpd` (`panels/multidomain/connections/kCpd.pyx`), in program order. -/
def fkCpd_pat : List (ℕ × ℕ) := [(0,0), (1,1), (2,2)]

/-- Value written by `fkCpd` at `(row+α, col+β)`. -/
def fkCpd (S : Shape K) (P : Panel K) (ku kv kw xp yp : K) (i k j l : ℕ) (α β : ℕ) : K :=
  match α, β with
  | 0, 0 => fkCpd_00 S P ku kv kw xp yp i k j l
  | 1, 1 => fkCpd_11 S P ku kv kw xp yp i k j l
  | 2, 2 => fkCpd_22 S P ku kv kw xp yp i k j l
  | _, _ => 0

/-- `panels/multidomain/connections/kCpd.pyx` (`fkCld_xcte`), line 261; names from lines 229,
237, 242, 254. -/
def fkCld_xcte_w0 (S : Shape K) (I : Tab K) (P : Panel K) (ku kv kw xp : K) (i k j l : ℕ) : K :=
  let xip := 2*xp/P.a - 1;
  let fAu := S.f i xip P.xu;
  let fBu := S.f k xip P.xu;
  let gAugBu := I.ff j l P.yu P.yu;
  ku*P.b*fAu*fBu*gAugBu/2

/-- `panels/multidomain/connections/kCpd.pyx` (`fkCld_xcte`), line 265; names from lines 229,
238, 243, 255. -/
def fkCld_xcte_w1 (S : Shape K) (I : Tab K) (P : Panel K) (ku kv kw xp : K) (i k j l : ℕ) : K :=
  let xip := 2*xp/P.a - 1;
  let fAv := S.f i xip P.xv;
  let fBv := S.f k xip P.xv;
  let gAvgBv := I.ff j l P.yv P.yv;
  kv*P.b*fAv*fBv*gAvgBv/2

/-- `panels/multidomain/connections/kCpd.pyx` (`fkCld_xcte`), line 269; names from lines 229,
239, 244, 256. -/
def fkCld_xcte_w2 (S : Shape K) (I : Tab K) (P : Panel K) (ku kv kw xp : K) (i k j l : ℕ) : K :=
  let xip := 2*xp/P.a - 1;
  let fAw := S.f i xip P.xw;
  let fBw := S.f k xip P.xw;
  let gAwgBw := I.ff j l P.yw P.yw;
  kw*P.b*fAw*fBw*gAwgBw/2

/-- The `(α, β)` written by `fkCld_xcte` (`panels/multidomain/connections/kCpd.pyx`), in program order. -/
def fkCld_xcte_pat : List (ℕ × ℕ) := [(2,2), (2,2), (2,2)]

/-- `panels/multidomain/connections/kCpd.pyx` (`fkCld_ycte`), line 385; names from lines 352,
360, 365, 378. -/
def fkCld_ycte_w0 (S : Shape K) (I : Tab K) (P : Panel K) (ku kv kw yp : K) (i k j l : ℕ) : K :=
  let fAufBu := I.ff i k P.xu P.xu;
  let etap := 2*yp/P.b - 1;
  let gAu := S.f j etap P.yu;
  let gBu := S.f l etap P.yu;
  ku*P.a*fAufBu*gAu*gBu/2

/-- `panels/multidomain/connections/kCpd.pyx` (`fkCld_ycte`), line 389; names from lines 352,
361, 366, 379. -/
def fkCld_ycte_w1 (S : Shape K) (I : Tab K) (P : Panel K) (ku kv kw yp : K) (i k j l : ℕ) : K :=
  let fAvfBv := I.ff i k P.xv P.xv;
  let etap := 2*yp/P.b - 1;
  let gAv := S.f j etap P.yv;
  let gBv := S.f l etap P.yv;
  kv*P.a*fAvfBv*gAv*gBv/2

/-- `panels/multidomain/connections/kCpd.pyx` (`fkCld_ycte`), line 393; names from lines 352,
362, 367, 380. -/
def fkCld_ycte_w2 (S : Shape K) (I : Tab K) (P : Panel K) (ku kv kw yp : K) (i k j l : ℕ) : K :=
  let fAwfBw := I.ff i k P.xw P.xw;
  let etap := 2*yp/P.b - 1;
  let gAw := S.f j etap P.yw;
  let gBw := S.f l etap P.yw;
  kw*P.a*fAwfBw*gAw*gBw/2

/-- The `(α, β)` written by `fkCld_ycte` (`panels/multidomain/connections/kCpd.pyx`), in program order. -/
def fkCld_ycte_pat : List (ℕ × ℕ) := [(2,2), (2,2), (2,2)]

end Verif.Gen.Pd
