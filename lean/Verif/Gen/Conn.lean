import Verif.Model.Types

/-!
Generated by `/verif/tools/translate.py` from the sources named in the comments; the
expressions are verbatim, decimals are kept as the printed rationals.
-/

set_option linter.unusedVariables false

namespace Verif.Gen.Conn

variable {K : Type*} [Field K]

/-- `panels/multidomain/connections/kCSSxcte.pyx` (`fkCSSxcte11`), line 125; names from lines
87, 99, 104, 117. -/
def kSSxcte11_00 (S : Shape K) (I : Tab K) (P1 : Panel K) (kr kt xcte1 : K) (i1 k1 j1 l1 : ℕ) : K :=
  let xicte1 := 2*xcte1/P1.a - 1;
  let f1Au := S.f i1 xicte1 P1.xu;
  let f1Bu := S.f k1 xicte1 P1.xu;
  let g1Aug1Bu := I.ff j1 l1 P1.yu P1.yu;
  (1/2)*P1.b*f1Au*f1Bu*g1Aug1Bu*kt

/-- `panels/multidomain/connections/kCSSxcte.pyx` (`fkCSSxcte11`), line 129; names from lines
87, 100, 105, 118. -/
def kSSxcte11_11 (S : Shape K) (I : Tab K) (P1 : Panel K) (kr kt xcte1 : K) (i1 k1 j1 l1 : ℕ) : K :=
  let xicte1 := 2*xcte1/P1.a - 1;
  let f1Av := S.f i1 xicte1 P1.xv;
  let f1Bv := S.f k1 xicte1 P1.xv;
  let g1Avg1Bv := I.ff j1 l1 P1.yv P1.yv;
  (1/2)*P1.b*f1Av*f1Bv*g1Avg1Bv*kt

/-- `panels/multidomain/connections/kCSSxcte.pyx` (`fkCSSxcte11`), line 133; names from lines
87, 101, 106-107, 119-120. -/
def kSSxcte11_22 (S : Shape K) (I : Tab K) (P1 : Panel K) (kr kt xcte1 : K) (i1 k1 j1 l1 : ℕ) : K :=
  let xicte1 := 2*xcte1/P1.a - 1;
  let f1Aw := S.f i1 xicte1 P1.xw;
  let f1Bw := S.f k1 xicte1 P1.xw;
  let g1Awg1Bw := I.ff j1 l1 P1.yw P1.yw;
  let f1Awxi := S.fp i1 xicte1 P1.xw;
  let f1Bwxi := S.fp k1 xicte1 P1.xw;
  (1/2)*P1.b*kt*(f1Aw*f1Bw*g1Awg1Bw + 4*f1Awxi*f1Bwxi*g1Awg1Bw*kr/((P1.a*P1.a)*kt))

/-- The `(α, β)` written by `fkCSSxcte11` (`panels/multidomain/connections/kCSSxcte.pyx`), in program order. -/
def kSSxcte11_pat : List (ℕ × ℕ) := [(0,0), (1,1), (2,2)]

/-- Value written by `fkCSSxcte11` at `(row+α, col+β)`. -/
def kSSxcte11 (S : Shape K) (I : Tab K) (P1 : Panel K) (kr kt xcte1 : K) (i1 k1 j1 l1 : ℕ) (α β : ℕ) : K :=
  match α, β with
  | 0, 0 => kSSxcte11_00 S I P1 kr kt xcte1 i1 k1 j1 l1
  | 1, 1 => kSSxcte11_11 S I P1 kr kt xcte1 i1 k1 j1 l1
  | 2, 2 => kSSxcte11_22 S I P1 kr kt xcte1 i1 k1 j1 l1
  | _, _ => 0

/-- `panels/multidomain/connections/kCSSxcte.pyx` (`fkCSSxcte12`), line 256; names from lines
217-218, 230, 235, 248. -/
def kSSxcte12_00 (S : Shape K) (I : Tab K) (P1 P2 : Panel K) (kr kt xcte1 xcte2 : K) (i1 k2 j1 l2 : ℕ) : K :=
  let xicte1 := 2*xcte1/P1.a - 1;
  let f1Au := S.f i1 xicte1 P1.xu;
  let xicte2 := 2*xcte2/P2.a - 1;
  let f2Bu := S.f k2 xicte2 P2.xu;
  let g1Aug2Bu := I.ff j1 l2 P1.yu P2.yu;
  -(1/2)*P1.b*f1Au*f2Bu*g1Aug2Bu*kt

/-- `panels/multidomain/connections/kCSSxcte.pyx` (`fkCSSxcte12`), line 260; names from lines
217-218, 231, 236, 249. -/
def kSSxcte12_11 (S : Shape K) (I : Tab K) (P1 P2 : Panel K) (kr kt xcte1 xcte2 : K) (i1 k2 j1 l2 : ℕ) : K :=
  let xicte1 := 2*xcte1/P1.a - 1;
  let f1Av := S.f i1 xicte1 P1.xv;
  let xicte2 := 2*xcte2/P2.a - 1;
  let f2Bv := S.f k2 xicte2 P2.xv;
  let g1Avg2Bv := I.ff j1 l2 P1.yv P2.yv;
  -(1/2)*P1.b*f1Av*f2Bv*g1Avg2Bv*kt

/-- `panels/multidomain/connections/kCSSxcte.pyx` (`fkCSSxcte12`), line 264; names from lines
217-218, 232, 237-238, 250-251. -/
def kSSxcte12_22 (S : Shape K) (I : Tab K) (P1 P2 : Panel K) (kr kt xcte1 xcte2 : K) (i1 k2 j1 l2 : ℕ) : K :=
  let xicte1 := 2*xcte1/P1.a - 1;
  let f1Aw := S.f i1 xicte1 P1.xw;
  let xicte2 := 2*xcte2/P2.a - 1;
  let f2Bw := S.f k2 xicte2 P2.xw;
  let g1Awg2Bw := I.ff j1 l2 P1.yw P2.yw;
  let f1Awxi := S.fp i1 xicte1 P1.xw;
  let f2Bwxi := S.fp k2 xicte2 P2.xw;
  -(1/2)*P1.b*kt*(f1Aw*f2Bw*g1Awg2Bw + 4*f1Awxi*f2Bwxi*g1Awg2Bw*kr/(P1.a*P2.a*kt))

/-- The `(α, β)` written by `fkCSSxcte12` (`panels/multidomain/connections/kCSSxcte.pyx`), in program order. -/
def kSSxcte12_pat : List (ℕ × ℕ) := [(0,0), (1,1), (2,2)]

/-- Value written by `fkCSSxcte12` at `(row+α, col+β)`. -/
def kSSxcte12 (S : Shape K) (I : Tab K) (P1 P2 : Panel K) (kr kt xcte1 xcte2 : K) (i1 k2 j1 l2 : ℕ) (α β : ℕ) : K :=
  match α, β with
  | 0, 0 => kSSxcte12_00 S I P1 P2 kr kt xcte1 xcte2 i1 k2 j1 l2
  | 1, 1 => kSSxcte12_11 S I P1 P2 kr kt xcte1 xcte2 i1 k2 j1 l2
  | 2, 2 => kSSxcte12_22 S I P1 P2 kr kt xcte1 xcte2 i1 k2 j1 l2
  | _, _ => 0

/-- `panels/multidomain/connections/kCSSxcte.pyx` (`fkCSSxcte22`), line 372; names from lines
334, 346, 351, 364. -/
def kSSxcte22_00 (S : Shape K) (I : Tab K) (P1 P2 : Panel K) (kr kt xcte2 : K) (i2 k2 j2 l2 : ℕ) : K :=
  let xicte2 := 2*xcte2/P2.a - 1;
  let f2Au := S.f i2 xicte2 P2.xu;
  let f2Bu := S.f k2 xicte2 P2.xu;
  let g2Aug2Bu := I.ff j2 l2 P2.yu P2.yu;
  (1/2)*P1.b*f2Au*f2Bu*g2Aug2Bu*kt

/-- `panels/multidomain/connections/kCSSxcte.pyx` (`fkCSSxcte22`), line 376; names from lines
334, 347, 352, 365. -/
def kSSxcte22_11 (S : Shape K) (I : Tab K) (P1 P2 : Panel K) (kr kt xcte2 : K) (i2 k2 j2 l2 : ℕ) : K :=
  let xicte2 := 2*xcte2/P2.a - 1;
  let f2Av := S.f i2 xicte2 P2.xv;
  let f2Bv := S.f k2 xicte2 P2.xv;
  let g2Avg2Bv := I.ff j2 l2 P2.yv P2.yv;
  (1/2)*P1.b*f2Av*f2Bv*g2Avg2Bv*kt

/-- `panels/multidomain/connections/kCSSxcte.pyx` (`fkCSSxcte22`), line 380; names from lines
334, 348, 353-354, 366-367. -/
def kSSxcte22_22 (S : Shape K) (I : Tab K) (P1 P2 : Panel K) (kr kt xcte2 : K) (i2 k2 j2 l2 : ℕ) : K :=
  let xicte2 := 2*xcte2/P2.a - 1;
  let f2Aw := S.f i2 xicte2 P2.xw;
  let f2Bw := S.f k2 xicte2 P2.xw;
  let g2Awg2Bw := I.ff j2 l2 P2.yw P2.yw;
  let f2Awxi := S.fp i2 xicte2 P2.xw;
  let f2Bwxi := S.fp k2 xicte2 P2.xw;
  (1/2)*P1.b*kt*(f2Aw*f2Bw*g2Awg2Bw + 4*f2Awxi*f2Bwxi*g2Awg2Bw*kr/((P2.a*P2.a)*kt))

/-- The `(α, β)` written by `fkCSSxcte22` (`panels/multidomain/connections/kCSSxcte.pyx`), in program order. -/
def kSSxcte22_pat : List (ℕ × ℕ) := [(0,0), (1,1), (2,2)]

/-- Value written by `fkCSSxcte22` at `(row+α, col+β)`. -/
def kSSxcte22 (S : Shape K) (I : Tab K) (P1 P2 : Panel K) (kr kt xcte2 : K) (i2 k2 j2 l2 : ℕ) (α β : ℕ) : K :=
  match α, β with
  | 0, 0 => kSSxcte22_00 S I P1 P2 kr kt xcte2 i2 k2 j2 l2
  | 1, 1 => kSSxcte22_11 S I P1 P2 kr kt xcte2 i2 k2 j2 l2
  | 2, 2 => kSSxcte22_22 S I P1 P2 kr kt xcte2 i2 k2 j2 l2
  | _, _ => 0

/-- `panels/multidomain/connections/kCSSycte.pyx` (`fkCSSycte11`), line 128; names from lines
89, 102, 107, 120. -/
def kSSycte11_00 (S : Shape K) (I : Tab K) (P1 : Panel K) (kr kt ycte1 : K) (i1 k1 j1 l1 : ℕ) : K :=
  let f1Auf1Bu := I.ff i1 k1 P1.xu P1.xu;
  let etacte1 := 2*ycte1/P1.b - 1;
  let g1Au := S.f j1 etacte1 P1.yu;
  let g1Bu := S.f l1 etacte1 P1.yu;
  (1/2)*P1.a*f1Auf1Bu*g1Au*g1Bu*kt

/-- `panels/multidomain/connections/kCSSycte.pyx` (`fkCSSycte11`), line 132; names from lines
89, 103, 108, 121. -/
def kSSycte11_11 (S : Shape K) (I : Tab K) (P1 : Panel K) (kr kt ycte1 : K) (i1 k1 j1 l1 : ℕ) : K :=
  let f1Avf1Bv := I.ff i1 k1 P1.xv P1.xv;
  let etacte1 := 2*ycte1/P1.b - 1;
  let g1Av := S.f j1 etacte1 P1.yv;
  let g1Bv := S.f l1 etacte1 P1.yv;
  (1/2)*P1.a*f1Avf1Bv*g1Av*g1Bv*kt

/-- `panels/multidomain/connections/kCSSycte.pyx` (`fkCSSycte11`), line 136; names from lines
89, 104, 109-110, 122-123. -/
def kSSycte11_22 (S : Shape K) (I : Tab K) (P1 : Panel K) (kr kt ycte1 : K) (i1 k1 j1 l1 : ℕ) : K :=
  let f1Awf1Bw := I.ff i1 k1 P1.xw P1.xw;
  let etacte1 := 2*ycte1/P1.b - 1;
  let g1Aw := S.f j1 etacte1 P1.yw;
  let g1Bw := S.f l1 etacte1 P1.yw;
  let g1Aweta := S.fp j1 etacte1 P1.yw;
  let g1Bweta := S.fp l1 etacte1 P1.yw;
  (1/2)*P1.a*kt*(f1Awf1Bw*g1Aw*g1Bw + 4*f1Awf1Bw*g1Aweta*g1Bweta*kr/((P1.b*P1.b)*kt))

/-- The `(α, β)` written by `fkCSSycte11` (`panels/multidomain/connections/kCSSycte.pyx`), in program order. -/
def kSSycte11_pat : List (ℕ × ℕ) := [(0,0), (1,1), (2,2)]

/-- Value written by `fkCSSycte11` at `(row+α, col+β)`. -/
def kSSycte11 (S : Shape K) (I : Tab K) (P1 : Panel K) (kr kt ycte1 : K) (i1 k1 j1 l1 : ℕ) (α β : ℕ) : K :=
  match α, β with
  | 0, 0 => kSSycte11_00 S I P1 kr kt ycte1 i1 k1 j1 l1
  | 1, 1 => kSSycte11_11 S I P1 kr kt ycte1 i1 k1 j1 l1
  | 2, 2 => kSSycte11_22 S I P1 kr kt ycte1 i1 k1 j1 l1
  | _, _ => 0

/-- `panels/multidomain/connections/kCSSycte.pyx` (`fkCSSycte12`), line 260; names from lines
219-220, 233, 239, 252. -/
def kSSycte12_00 (S : Shape K) (I : Tab K) (P1 P2 : Panel K) (kr kt ycte1 ycte2 : K) (i1 k2 j1 l2 : ℕ) : K :=
  let f1Auf2Bu := I.ff i1 k2 P1.xu P2.xu;
  let etacte1 := 2*ycte1/P1.b - 1;
  let g1Au := S.f j1 etacte1 P1.yu;
  let etacte2 := 2*ycte2/P2.b - 1;
  let g2Bu := S.f l2 etacte2 P2.yu;
  -(1/2)*P1.a*f1Auf2Bu*g1Au*g2Bu*kt

/-- `panels/multidomain/connections/kCSSycte.pyx` (`fkCSSycte12`), line 264; names from lines
219-220, 234, 240, 253. -/
def kSSycte12_11 (S : Shape K) (I : Tab K) (P1 P2 : Panel K) (kr kt ycte1 ycte2 : K) (i1 k2 j1 l2 : ℕ) : K :=
  let f1Avf2Bv := I.ff i1 k2 P1.xv P2.xv;
  let etacte1 := 2*ycte1/P1.b - 1;
  let g1Av := S.f j1 etacte1 P1.yv;
  let etacte2 := 2*ycte2/P2.b - 1;
  let g2Bv := S.f l2 etacte2 P2.yv;
  -(1/2)*P1.a*f1Avf2Bv*g1Av*g2Bv*kt

/-- `panels/multidomain/connections/kCSSycte.pyx` (`fkCSSycte12`), line 268; names from lines
219-220, 235, 241-242, 254-255. -/
def kSSycte12_22 (S : Shape K) (I : Tab K) (P1 P2 : Panel K) (kr kt ycte1 ycte2 : K) (i1 k2 j1 l2 : ℕ) : K :=
  let f1Awf2Bw := I.ff i1 k2 P1.xw P2.xw;
  let etacte1 := 2*ycte1/P1.b - 1;
  let g1Aw := S.f j1 etacte1 P1.yw;
  let etacte2 := 2*ycte2/P2.b - 1;
  let g2Bw := S.f l2 etacte2 P2.yw;
  let g1Aweta := S.fp j1 etacte1 P1.yw;
  let g2Bweta := S.fp l2 etacte2 P2.yw;
  -(1/2)*P1.a*kt*(f1Awf2Bw*g1Aw*g2Bw + 4*f1Awf2Bw*g1Aweta*g2Bweta*kr/(P1.b*P2.b*kt))

/-- The `(α, β)` written by `fkCSSycte12` (`panels/multidomain/connections/kCSSycte.pyx`), in program order. -/
def kSSycte12_pat : List (ℕ × ℕ) := [(0,0), (1,1), (2,2)]

/-- Value written by `fkCSSycte12` at `(row+α, col+β)`. -/
def kSSycte12 (S : Shape K) (I : Tab K) (P1 P2 : Panel K) (kr kt ycte1 ycte2 : K) (i1 k2 j1 l2 : ℕ) (α β : ℕ) : K :=
  match α, β with
  | 0, 0 => kSSycte12_00 S I P1 P2 kr kt ycte1 ycte2 i1 k2 j1 l2
  | 1, 1 => kSSycte12_11 S I P1 P2 kr kt ycte1 ycte2 i1 k2 j1 l2
  | 2, 2 => kSSycte12_22 S I P1 P2 kr kt ycte1 ycte2 i1 k2 j1 l2
  | _, _ => 0

/-- `panels/multidomain/connections/kCSSycte.pyx` (`fkCSSycte22`), line 376; names from lines
337, 350, 355, 368. -/
def kSSycte22_00 (S : Shape K) (I : Tab K) (P1 P2 : Panel K) (kr kt ycte2 : K) (i2 k2 j2 l2 : ℕ) : K :=
  let f2Auf2Bu := I.ff i2 k2 P2.xu P2.xu;
  let etacte2 := 2*ycte2/P2.b - 1;
  let g2Au := S.f j2 etacte2 P2.yu;
  let g2Bu := S.f l2 etacte2 P2.yu;
  (1/2)*P1.a*f2Auf2Bu*g2Au*g2Bu*kt

/-- `panels/multidomain/connections/kCSSycte.pyx` (`fkCSSycte22`), line 380; names from lines
337, 351, 356, 369. -/
def kSSycte22_11 (S : Shape K) (I : Tab K) (P1 P2 : Panel K) (kr kt ycte2 : K) (i2 k2 j2 l2 : ℕ) : K :=
  let f2Avf2Bv := I.ff i2 k2 P2.xv P2.xv;
  let etacte2 := 2*ycte2/P2.b - 1;
  let g2Av := S.f j2 etacte2 P2.yv;
  let g2Bv := S.f l2 etacte2 P2.yv;
  (1/2)*P1.a*f2Avf2Bv*g2Av*g2Bv*kt

/-- `panels/multidomain/connections/kCSSycte.pyx` (`fkCSSycte22`), line 384; names from lines
337, 352, 357-358, 370-371. -/
def kSSycte22_22 (S : Shape K) (I : Tab K) (P1 P2 : Panel K) (kr kt ycte2 : K) (i2 k2 j2 l2 : ℕ) : K :=
  let f2Awf2Bw := I.ff i2 k2 P2.xw P2.xw;
  let etacte2 := 2*ycte2/P2.b - 1;
  let g2Aw := S.f j2 etacte2 P2.yw;
  let g2Bw := S.f l2 etacte2 P2.yw;
  let g2Aweta := S.fp j2 etacte2 P2.yw;
  let g2Bweta := S.fp l2 etacte2 P2.yw;
  (1/2)*P1.a*kt*(f2Awf2Bw*g2Aw*g2Bw + 4*f2Awf2Bw*g2Aweta*g2Bweta*kr/((P2.b*P2.b)*kt))

/-- The `(α, β)` written by `fkCSSycte22` (`panels/multidomain/connections/kCSSycte.pyx`), in program order. -/
def kSSycte22_pat : List (ℕ × ℕ) := [(0,0), (1,1), (2,2)]

/-- Value written by `fkCSSycte22` at `(row+α, col+β)`. -/
def kSSycte22 (S : Shape K) (I : Tab K) (P1 P2 : Panel K) (kr kt ycte2 : K) (i2 k2 j2 l2 : ℕ) (α β : ℕ) : K :=
  match α, β with
  | 0, 0 => kSSycte22_00 S I P1 P2 kr kt ycte2 i2 k2 j2 l2
  | 1, 1 => kSSycte22_11 S I P1 P2 kr kt ycte2 i2 k2 j2 l2
  | 2, 2 => kSSycte22_22 S I P1 P2 kr kt ycte2 i2 k2 j2 l2
  | _, _ => 0

/-- `panels/multidomain/connections/kCBFxcte.pyx` (`fkCBFxcte11`), line 123; names from lines
85, 97, 102, 115. -/
def kBFxcte11_00 (S : Shape K) (I : Tab K) (P1 : Panel K) (kr kt xcte1 : K) (i1 k1 j1 l1 : ℕ) : K :=
  let xicte1 := 2*xcte1/P1.a - 1;
  let f1Au := S.f i1 xicte1 P1.xu;
  let f1Bu := S.f k1 xicte1 P1.xu;
  let g1Auf1Bu := I.ff j1 l1 P1.yu P1.yu;
  (1/2)*P1.b*f1Au*f1Bu*g1Auf1Bu*kt

/-- `panels/multidomain/connections/kCBFxcte.pyx` (`fkCBFxcte11`), line 127; names from lines
85, 98, 103, 116. -/
def kBFxcte11_11 (S : Shape K) (I : Tab K) (P1 : Panel K) (kr kt xcte1 : K) (i1 k1 j1 l1 : ℕ) : K :=
  let xicte1 := 2*xcte1/P1.a - 1;
  let f1Av := S.f i1 xicte1 P1.xv;
  let f1Bv := S.f k1 xicte1 P1.xv;
  let g1Avf1Bv := I.ff j1 l1 P1.yv P1.yv;
  (1/2)*P1.b*f1Av*f1Bv*g1Avf1Bv*kt

/-- `panels/multidomain/connections/kCBFxcte.pyx` (`fkCBFxcte11`), line 131; names from lines
85, 99, 104-105, 117-118. -/
def kBFxcte11_22 (S : Shape K) (I : Tab K) (P1 : Panel K) (kr kt xcte1 : K) (i1 k1 j1 l1 : ℕ) : K :=
  let xicte1 := 2*xcte1/P1.a - 1;
  let f1Aw := S.f i1 xicte1 P1.xw;
  let f1Bw := S.f k1 xicte1 P1.xw;
  let g1Awf1Bw := I.ff j1 l1 P1.yw P1.yw;
  let f1Awxi := S.fp i1 xicte1 P1.xw;
  let f1Bwxi := S.fp k1 xicte1 P1.xw;
  (1/2)*P1.b*kt*(f1Aw*f1Bw*g1Awf1Bw + 4*f1Awxi*f1Bwxi*g1Awf1Bw*kr/((P1.a*P1.a)*kt))

/-- The `(α, β)` written by `fkCBFxcte11` (`panels/multidomain/connections/kCBFxcte.pyx`), in program order. -/
def kBFxcte11_pat : List (ℕ × ℕ) := [(0,0), (1,1), (2,2)]

/-- Value written by `fkCBFxcte11` at `(row+α, col+β)`. -/
def kBFxcte11 (S : Shape K) (I : Tab K) (P1 : Panel K) (kr kt xcte1 : K) (i1 k1 j1 l1 : ℕ) (α β : ℕ) : K :=
  match α, β with
  | 0, 0 => kBFxcte11_00 S I P1 kr kt xcte1 i1 k1 j1 l1
  | 1, 1 => kBFxcte11_11 S I P1 kr kt xcte1 i1 k1 j1 l1
  | 2, 2 => kBFxcte11_22 S I P1 kr kt xcte1 i1 k1 j1 l1
  | _, _ => 0

/-- `panels/multidomain/connections/kCBFxcte.pyx` (`fkCBFxcte12`), line 255; names from lines
215-216, 228, 234, 249. -/
def kBFxcte12_02 (S : Shape K) (I : Tab K) (P1 P2 : Panel K) (kr kt xcte1 xcte2 : K) (i1 k2 j1 l2 : ℕ) : K :=
  let xicte1 := 2*xcte1/P1.a - 1;
  let f1Au := S.f i1 xicte1 P1.xu;
  let xicte2 := 2*xcte2/P2.a - 1;
  let f2Bw := S.f k2 xicte2 P2.xw;
  let g1Auf2Bw := I.ff j1 l2 P1.yu P2.yw;
  -(1/2)*P1.b*f1Au*f2Bw*g1Auf2Bw*kt

/-- `panels/multidomain/connections/kCBFxcte.pyx` (`fkCBFxcte12`), line 259; names from lines
215-216, 229, 235, 248. -/
def kBFxcte12_11 (S : Shape K) (I : Tab K) (P1 P2 : Panel K) (kr kt xcte1 xcte2 : K) (i1 k2 j1 l2 : ℕ) : K :=
  let xicte1 := 2*xcte1/P1.a - 1;
  let f1Av := S.f i1 xicte1 P1.xv;
  let xicte2 := 2*xcte2/P2.a - 1;
  let f2Bv := S.f k2 xicte2 P2.xv;
  let g1Avf2Bv := I.ff j1 l2 P1.yv P2.yv;
  -(1/2)*P1.b*f1Av*f2Bv*g1Avf2Bv*kt

/-- `panels/multidomain/connections/kCBFxcte.pyx` (`fkCBFxcte12`), line 263; names from lines
215-216, 230, 236, 247. -/
def kBFxcte12_20 (S : Shape K) (I : Tab K) (P1 P2 : Panel K) (kr kt xcte1 xcte2 : K) (i1 k2 j1 l2 : ℕ) : K :=
  let xicte1 := 2*xcte1/P1.a - 1;
  let f1Aw := S.f i1 xicte1 P1.xw;
  let xicte2 := 2*xcte2/P2.a - 1;
  let f2Bu := S.f k2 xicte2 P2.xu;
  let g1Awf2Bu := I.ff j1 l2 P1.yw P2.yu;
  (1/2)*P1.b*f1Aw*f2Bu*g1Awf2Bu*kt

/-- `panels/multidomain/connections/kCBFxcte.pyx` (`fkCBFxcte12`), line 267; names from lines
215-216, 231, 237, 250. -/
def kBFxcte12_22 (S : Shape K) (I : Tab K) (P1 P2 : Panel K) (kr kt xcte1 xcte2 : K) (i1 k2 j1 l2 : ℕ) : K :=
  let xicte1 := 2*xcte1/P1.a - 1;
  let f1Awxi := S.fp i1 xicte1 P1.xw;
  let xicte2 := 2*xcte2/P2.a - 1;
  let f2Bwxi := S.fp k2 xicte2 P2.xw;
  let g1Awf2Bw := I.ff j1 l2 P1.yw P2.yw;
  -2*P1.b*f1Awxi*f2Bwxi*g1Awf2Bw*kr/(P1.a*P2.a)

/-- The `(α, β)` written by `fkCBFxcte12` (`panels/multidomain/connections/kCBFxcte.pyx`), in program order. -/
def kBFxcte12_pat : List (ℕ × ℕ) := [(0,2), (1,1), (2,0), (2,2)]

/-- Value written by `fkCBFxcte12` at `(row+α, col+β)`. -/
def kBFxcte12 (S : Shape K) (I : Tab K) (P1 P2 : Panel K) (kr kt xcte1 xcte2 : K) (i1 k2 j1 l2 : ℕ) (α β : ℕ) : K :=
  match α, β with
  | 0, 2 => kBFxcte12_02 S I P1 P2 kr kt xcte1 xcte2 i1 k2 j1 l2
  | 1, 1 => kBFxcte12_11 S I P1 P2 kr kt xcte1 xcte2 i1 k2 j1 l2
  | 2, 0 => kBFxcte12_20 S I P1 P2 kr kt xcte1 xcte2 i1 k2 j1 l2
  | 2, 2 => kBFxcte12_22 S I P1 P2 kr kt xcte1 xcte2 i1 k2 j1 l2
  | _, _ => 0

/-- `panels/multidomain/connections/kCBFxcte.pyx` (`fkCBFxcte22`), line 372; names from lines
334, 346, 351, 364. -/
def kBFxcte22_00 (S : Shape K) (I : Tab K) (P1 P2 : Panel K) (kr kt xcte2 : K) (i2 k2 j2 l2 : ℕ) : K :=
  let xicte2 := 2*xcte2/P2.a - 1;
  let f2Au := S.f i2 xicte2 P2.xu;
  let f2Bu := S.f k2 xicte2 P2.xu;
  let g2Auf2Bu := I.ff j2 l2 P2.yu P2.yu;
  (1/2)*P1.b*f2Au*f2Bu*g2Auf2Bu*kt

/-- `panels/multidomain/connections/kCBFxcte.pyx` (`fkCBFxcte22`), line 376; names from lines
334, 347, 352, 365. -/
def kBFxcte22_11 (S : Shape K) (I : Tab K) (P1 P2 : Panel K) (kr kt xcte2 : K) (i2 k2 j2 l2 : ℕ) : K :=
  let xicte2 := 2*xcte2/P2.a - 1;
  let f2Av := S.f i2 xicte2 P2.xv;
  let f2Bv := S.f k2 xicte2 P2.xv;
  let g2Avf2Bv := I.ff j2 l2 P2.yv P2.yv;
  (1/2)*P1.b*f2Av*f2Bv*g2Avf2Bv*kt

/-- `panels/multidomain/connections/kCBFxcte.pyx` (`fkCBFxcte22`), line 380; names from lines
334, 348, 353-354, 366-367. -/
def kBFxcte22_22 (S : Shape K) (I : Tab K) (P1 P2 : Panel K) (kr kt xcte2 : K) (i2 k2 j2 l2 : ℕ) : K :=
  let xicte2 := 2*xcte2/P2.a - 1;
  let f2Aw := S.f i2 xicte2 P2.xw;
  let f2Bw := S.f k2 xicte2 P2.xw;
  let g2Awf2Bw := I.ff j2 l2 P2.yw P2.yw;
  let f2Awxi := S.fp i2 xicte2 P2.xw;
  let f2Bwxi := S.fp k2 xicte2 P2.xw;
  (1/2)*P1.b*kt*(f2Aw*f2Bw*g2Awf2Bw + 4*f2Awxi*f2Bwxi*g2Awf2Bw*kr/((P2.a*P2.a)*kt))

/-- The `(α, β)` written by `fkCBFxcte22` (`panels/multidomain/connections/kCBFxcte.pyx`), in program order. -/
def kBFxcte22_pat : List (ℕ × ℕ) := [(0,0), (1,1), (2,2)]

/-- Value written by `fkCBFxcte22` at `(row+α, col+β)`. -/
def kBFxcte22 (S : Shape K) (I : Tab K) (P1 P2 : Panel K) (kr kt xcte2 : K) (i2 k2 j2 l2 : ℕ) (α β : ℕ) : K :=
  match α, β with
  | 0, 0 => kBFxcte22_00 S I P1 P2 kr kt xcte2 i2 k2 j2 l2
  | 1, 1 => kBFxcte22_11 S I P1 P2 kr kt xcte2 i2 k2 j2 l2
  | 2, 2 => kBFxcte22_22 S I P1 P2 kr kt xcte2 i2 k2 j2 l2
  | _, _ => 0

/-- `panels/multidomain/connections/kCBFycte.pyx` (`fkCBFycte11`), line 122; names from lines
84, 96, 101, 114. -/
def kBFycte11_00 (S : Shape K) (I : Tab K) (P1 : Panel K) (kr kt ycte1 : K) (i1 k1 j1 l1 : ℕ) : K :=
  let f1Auf1Bu := I.ff i1 k1 P1.xu P1.xu;
  let etacte1 := 2*ycte1/P1.b - 1;
  let g1Au := S.f j1 etacte1 P1.yu;
  let g1Bu := S.f l1 etacte1 P1.yu;
  (1/2)*P1.a*f1Auf1Bu*g1Au*g1Bu*kt

/-- `panels/multidomain/connections/kCBFycte.pyx` (`fkCBFycte11`), line 126; names from lines
84, 97, 102, 115. -/
def kBFycte11_11 (S : Shape K) (I : Tab K) (P1 : Panel K) (kr kt ycte1 : K) (i1 k1 j1 l1 : ℕ) : K :=
  let f1Avf1Bv := I.ff i1 k1 P1.xv P1.xv;
  let etacte1 := 2*ycte1/P1.b - 1;
  let g1Av := S.f j1 etacte1 P1.yv;
  let g1Bv := S.f l1 etacte1 P1.yv;
  (1/2)*P1.a*f1Avf1Bv*g1Av*g1Bv*kt

/-- `panels/multidomain/connections/kCBFycte.pyx` (`fkCBFycte11`), line 130; names from lines
84, 98, 103-104, 116-117. -/
def kBFycte11_22 (S : Shape K) (I : Tab K) (P1 : Panel K) (kr kt ycte1 : K) (i1 k1 j1 l1 : ℕ) : K :=
  let f1Awf1Bw := I.ff i1 k1 P1.xw P1.xw;
  let etacte1 := 2*ycte1/P1.b - 1;
  let g1Aw := S.f j1 etacte1 P1.yw;
  let g1Bw := S.f l1 etacte1 P1.yw;
  let g1Aweta := S.fp j1 etacte1 P1.yw;
  let g1Bweta := S.fp l1 etacte1 P1.yw;
  (1/2)*P1.a*kt*(f1Awf1Bw*g1Aw*g1Bw + 4*f1Awf1Bw*g1Aweta*g1Bweta*kr/((P1.b*P1.b)*kt))

/-- The `(α, β)` written by `fkCBFycte11` (`panels/multidomain/connections/kCBFycte.pyx`), in program order. -/
def kBFycte11_pat : List (ℕ × ℕ) := [(0,0), (1,1), (2,2)]

/-- Value written by `fkCBFycte11` at `(row+α, col+β)`. -/
def kBFycte11 (S : Shape K) (I : Tab K) (P1 : Panel K) (kr kt ycte1 : K) (i1 k1 j1 l1 : ℕ) (α β : ℕ) : K :=
  match α, β with
  | 0, 0 => kBFycte11_00 S I P1 kr kt ycte1 i1 k1 j1 l1
  | 1, 1 => kBFycte11_11 S I P1 kr kt ycte1 i1 k1 j1 l1
  | 2, 2 => kBFycte11_22 S I P1 kr kt ycte1 i1 k1 j1 l1
  | _, _ => 0

/-- `panels/multidomain/connections/kCBFycte.pyx` (`fkCBFycte12`), line 253; names from lines
213-214, 226, 232, 245. -/
def kBFycte12_00 (S : Shape K) (I : Tab K) (P1 P2 : Panel K) (kr kt ycte1 ycte2 : K) (i1 k2 j1 l2 : ℕ) : K :=
  let f1Auf2Bu := I.ff i1 k2 P1.xu P2.xu;
  let etacte1 := 2*ycte1/P1.b - 1;
  let g1Au := S.f j1 etacte1 P1.yu;
  let etacte2 := 2*ycte2/P2.b - 1;
  let g2Bu := S.f l2 etacte2 P2.yu;
  -(1/2)*P1.a*f1Auf2Bu*g1Au*g2Bu*kt

/-- `panels/multidomain/connections/kCBFycte.pyx` (`fkCBFycte12`), line 257; names from lines
213-214, 227, 233, 247. -/
def kBFycte12_12 (S : Shape K) (I : Tab K) (P1 P2 : Panel K) (kr kt ycte1 ycte2 : K) (i1 k2 j1 l2 : ℕ) : K :=
  let f1Avf2Bw := I.ff i1 k2 P1.xv P2.xw;
  let etacte1 := 2*ycte1/P1.b - 1;
  let g1Av := S.f j1 etacte1 P1.yv;
  let etacte2 := 2*ycte2/P2.b - 1;
  let g2Bw := S.f l2 etacte2 P2.yw;
  -(1/2)*P1.a*f1Avf2Bw*g1Av*g2Bw*kt

/-- `panels/multidomain/connections/kCBFycte.pyx` (`fkCBFycte12`), line 261; names from lines
213-214, 228, 234, 246. -/
def kBFycte12_21 (S : Shape K) (I : Tab K) (P1 P2 : Panel K) (kr kt ycte1 ycte2 : K) (i1 k2 j1 l2 : ℕ) : K :=
  let f1Awf2Bv := I.ff i1 k2 P1.xw P2.xv;
  let etacte1 := 2*ycte1/P1.b - 1;
  let g1Aw := S.f j1 etacte1 P1.yw;
  let etacte2 := 2*ycte2/P2.b - 1;
  let g2Bv := S.f l2 etacte2 P2.yv;
  (1/2)*P1.a*f1Awf2Bv*g1Aw*g2Bv*kt

/-- `panels/multidomain/connections/kCBFycte.pyx` (`fkCBFycte12`), line 265; names from lines
213-214, 229, 235, 248. -/
def kBFycte12_22 (S : Shape K) (I : Tab K) (P1 P2 : Panel K) (kr kt ycte1 ycte2 : K) (i1 k2 j1 l2 : ℕ) : K :=
  let f1Awf2Bw := I.ff i1 k2 P1.xw P2.xw;
  let etacte1 := 2*ycte1/P1.b - 1;
  let g1Aweta := S.fp j1 etacte1 P1.yw;
  let etacte2 := 2*ycte2/P2.b - 1;
  let g2Bweta := S.fp l2 etacte2 P2.yw;
  -2*P1.a*f1Awf2Bw*g1Aweta*g2Bweta*kr/(P1.b*P2.b)

/-- The `(α, β)` written by `fkCBFycte12` (`panels/multidomain/connections/kCBFycte.pyx`), in program order. -/
def kBFycte12_pat : List (ℕ × ℕ) := [(0,0), (1,2), (2,1), (2,2)]

/-- Value written by `fkCBFycte12` at `(row+α, col+β)`. -/
def kBFycte12 (S : Shape K) (I : Tab K) (P1 P2 : Panel K) (kr kt ycte1 ycte2 : K) (i1 k2 j1 l2 : ℕ) (α β : ℕ) : K :=
  match α, β with
  | 0, 0 => kBFycte12_00 S I P1 P2 kr kt ycte1 ycte2 i1 k2 j1 l2
  | 1, 2 => kBFycte12_12 S I P1 P2 kr kt ycte1 ycte2 i1 k2 j1 l2
  | 2, 1 => kBFycte12_21 S I P1 P2 kr kt ycte1 ycte2 i1 k2 j1 l2
  | 2, 2 => kBFycte12_22 S I P1 P2 kr kt ycte1 ycte2 i1 k2 j1 l2
  | _, _ => 0

/-- `panels/multidomain/connections/kCBFycte.pyx` (`fkCBFycte22`), line 371; names from lines
333, 345, 350, 363. -/
def kBFycte22_00 (S : Shape K) (I : Tab K) (P1 P2 : Panel K) (kr kt ycte2 : K) (i2 k2 j2 l2 : ℕ) : K :=
  let f2Auf2Bu := I.ff i2 k2 P2.xu P2.xu;
  let etacte2 := 2*ycte2/P2.b - 1;
  let g2Au := S.f j2 etacte2 P2.yu;
  let g2Bu := S.f l2 etacte2 P2.yu;
  (1/2)*P1.a*f2Auf2Bu*g2Au*g2Bu*kt

/-- `panels/multidomain/connections/kCBFycte.pyx` (`fkCBFycte22`), line 375; names from lines
333, 346, 351, 364. -/
def kBFycte22_11 (S : Shape K) (I : Tab K) (P1 P2 : Panel K) (kr kt ycte2 : K) (i2 k2 j2 l2 : ℕ) : K :=
  let f2Avf2Bv := I.ff i2 k2 P2.xv P2.xv;
  let etacte2 := 2*ycte2/P2.b - 1;
  let g2Av := S.f j2 etacte2 P2.yv;
  let g2Bv := S.f l2 etacte2 P2.yv;
  (1/2)*P1.a*f2Avf2Bv*g2Av*g2Bv*kt

/-- `panels/multidomain/connections/kCBFycte.pyx` (`fkCBFycte22`), line 379; names from lines
333, 347, 352-353, 365-366. -/
def kBFycte22_22 (S : Shape K) (I : Tab K) (P1 P2 : Panel K) (kr kt ycte2 : K) (i2 k2 j2 l2 : ℕ) : K :=
  let f2Awf2Bw := I.ff i2 k2 P2.xw P2.xw;
  let etacte2 := 2*ycte2/P2.b - 1;
  let g2Aw := S.f j2 etacte2 P2.yw;
  let g2Bw := S.f l2 etacte2 P2.yw;
  let g2Aweta := S.fp j2 etacte2 P2.yw;
  let g2Bweta := S.fp l2 etacte2 P2.yw;
  (1/2)*P1.a*kt*(f2Awf2Bw*g2Aw*g2Bw + 4*f2Awf2Bw*g2Aweta*g2Bweta*kr/((P2.b*P2.b)*kt))

/-- The `(α, β)` written by `fkCBFycte22` (`panels/multidomain/connections/kCBFycte.pyx`), in program order. -/
def kBFycte22_pat : List (ℕ × ℕ) := [(0,0), (1,1), (2,2)]

/-- Value written by `fkCBFycte22` at `(row+α, col+β)`. -/
def kBFycte22 (S : Shape K) (I : Tab K) (P1 P2 : Panel K) (kr kt ycte2 : K) (i2 k2 j2 l2 : ℕ) (α β : ℕ) : K :=
  match α, β with
  | 0, 0 => kBFycte22_00 S I P1 P2 kr kt ycte2 i2 k2 j2 l2
  | 1, 1 => kBFycte22_11 S I P1 P2 kr kt ycte2 i2 k2 j2 l2
  | 2, 2 => kBFycte22_22 S I P1 P2 kr kt ycte2 i2 k2 j2 l2
  | _, _ => 0

/-- `panels/multidomain/connections/kCSB.pyx` (`fkCSB11`), line 127; names from lines 97, 115.
-/
def kSB11_00 (I : Tab K) (P1 : Panel K) (dsb kt : K) (i1 k1 j1 l1 : ℕ) : K :=
  let f1Auf1Bu := I.ff i1 k1 P1.xu P1.xu;
  let g1Aug1Bu := I.ff j1 l1 P1.yu P1.yu;
  (1/4)*P1.a*P1.b*f1Auf1Bu*g1Aug1Bu*kt

/-- `panels/multidomain/connections/kCSB.pyx` (`fkCSB11`), line 131; names from lines 98, 116.
-/
def kSB11_02 (I : Tab K) (P1 : Panel K) (dsb kt : K) (i1 k1 j1 l1 : ℕ) : K :=
  let f1Auf1Bwxi := I.ffp i1 k1 P1.xu P1.xw;
  let g1Aug1Bw := I.ff j1 l1 P1.yu P1.yw;
  (1/2)*P1.b*dsb*f1Auf1Bwxi*g1Aug1Bw*kt

/-- `panels/multidomain/connections/kCSB.pyx` (`fkCSB11`), line 135; names from lines 99, 117.
-/
def kSB11_11 (I : Tab K) (P1 : Panel K) (dsb kt : K) (i1 k1 j1 l1 : ℕ) : K :=
  let f1Avf1Bv := I.ff i1 k1 P1.xv P1.xv;
  let g1Avg1Bv := I.ff j1 l1 P1.yv P1.yv;
  (1/4)*P1.a*P1.b*f1Avf1Bv*g1Avg1Bv*kt

/-- `panels/multidomain/connections/kCSB.pyx` (`fkCSB11`), line 139; names from lines 100, 118.
-/
def kSB11_12 (I : Tab K) (P1 : Panel K) (dsb kt : K) (i1 k1 j1 l1 : ℕ) : K :=
  let f1Avf1Bw := I.ff i1 k1 P1.xv P1.xw;
  let g1Avg1Bweta := I.ffp j1 l1 P1.yv P1.yw;
  (1/2)*P1.a*dsb*f1Avf1Bw*g1Avg1Bweta*kt

/-- `panels/multidomain/connections/kCSB.pyx` (`fkCSB11`), line 143; names from lines 103, 119.
-/
def kSB11_20 (I : Tab K) (P1 : Panel K) (dsb kt : K) (i1 k1 j1 l1 : ℕ) : K :=
  let f1Awxif1Bu := I.ffp k1 i1 P1.xu P1.xw;
  let g1Awg1Bu := I.ff j1 l1 P1.yw P1.yu;
  (1/2)*P1.b*dsb*f1Awxif1Bu*g1Awg1Bu*kt

/-- `panels/multidomain/connections/kCSB.pyx` (`fkCSB11`), line 147; names from lines 101, 121.
-/
def kSB11_21 (I : Tab K) (P1 : Panel K) (dsb kt : K) (i1 k1 j1 l1 : ℕ) : K :=
  let f1Awf1Bv := I.ff i1 k1 P1.xw P1.xv;
  let g1Awetag1Bv := I.ffp l1 j1 P1.yv P1.yw;
  (1/2)*P1.a*dsb*f1Awf1Bv*g1Awetag1Bv*kt

/-- `panels/multidomain/connections/kCSB.pyx` (`fkCSB11`), line 151; names from lines 102, 104,
120, 122. -/
def kSB11_22 (I : Tab K) (P1 : Panel K) (dsb kt : K) (i1 k1 j1 l1 : ℕ) : K :=
  let f1Awf1Bw := I.ff i1 k1 P1.xw P1.xw;
  let g1Awg1Bw := I.ff j1 l1 P1.yw P1.yw;
  let g1Awetag1Bweta := I.fpfp j1 l1 P1.yw P1.yw;
  let f1Awxif1Bwxi := I.fpfp i1 k1 P1.xw P1.xw;
  (1/4)*P1.a*P1.b*kt*(f1Awf1Bw*g1Awg1Bw + 4*(dsb*dsb)*f1Awf1Bw*g1Awetag1Bweta/(P1.b*P1.b) +
  4*(dsb*dsb)*f1Awxif1Bwxi*g1Awg1Bw/(P1.a*P1.a))

/-- The `(α, β)` written by `fkCSB11` (`panels/multidomain/connections/kCSB.pyx`), in program order. -/
def kSB11_pat : List (ℕ × ℕ) := [(0,0), (0,2), (1,1), (1,2), (2,0), (2,1), (2,2)]

/-- Value written by `fkCSB11` at `(row+α, col+β)`. -/
def kSB11 (I : Tab K) (P1 : Panel K) (dsb kt : K) (i1 k1 j1 l1 : ℕ) (α β : ℕ) : K :=
  match α, β with
  | 0, 0 => kSB11_00 I P1 dsb kt i1 k1 j1 l1
  | 0, 2 => kSB11_02 I P1 dsb kt i1 k1 j1 l1
  | 1, 1 => kSB11_11 I P1 dsb kt i1 k1 j1 l1
  | 1, 2 => kSB11_12 I P1 dsb kt i1 k1 j1 l1
  | 2, 0 => kSB11_20 I P1 dsb kt i1 k1 j1 l1
  | 2, 1 => kSB11_21 I P1 dsb kt i1 k1 j1 l1
  | 2, 2 => kSB11_22 I P1 dsb kt i1 k1 j1 l1
  | _, _ => 0

/-- `panels/multidomain/connections/kCSB.pyx` (`fkCSB12`), line 265; names from lines 241, 256.
-/
def kSB12_00 (I : Tab K) (P1 P2 : Panel K) (dsb kt : K) (i1 k2 j1 l2 : ℕ) : K :=
  let f1Auf2Bu := I.ff i1 k2 P1.xu P2.xu;
  let g1Aug2Bu := I.ff j1 l2 P1.yu P2.yu;
  -(1/4)*P1.a*P1.b*f1Auf2Bu*g1Aug2Bu*kt

/-- `panels/multidomain/connections/kCSB.pyx` (`fkCSB12`), line 269; names from lines 242, 257.
-/
def kSB12_11 (I : Tab K) (P1 P2 : Panel K) (dsb kt : K) (i1 k2 j1 l2 : ℕ) : K :=
  let f1Avf2Bv := I.ff i1 k2 P1.xv P2.xv;
  let g1Avg2Bv := I.ff j1 l2 P1.yv P2.yv;
  -(1/4)*P1.a*P1.b*f1Avf2Bv*g1Avg2Bv*kt

/-- `panels/multidomain/connections/kCSB.pyx` (`fkCSB12`), line 273; names from lines 244, 260.
-/
def kSB12_20 (I : Tab K) (P1 P2 : Panel K) (dsb kt : K) (i1 k2 j1 l2 : ℕ) : K :=
  let f1Awxif2Bu := I.ffp k2 i1 P2.xu P1.xw;
  let g1Awg2Bu := I.ff j1 l2 P1.yw P2.yu;
  -(1/2)*P1.b*dsb*f1Awxif2Bu*g1Awg2Bu*kt

/-- `panels/multidomain/connections/kCSB.pyx` (`fkCSB12`), line 277; names from lines 245, 259.
-/
def kSB12_21 (I : Tab K) (P1 P2 : Panel K) (dsb kt : K) (i1 k2 j1 l2 : ℕ) : K :=
  let f1Awf2Bv := I.ff i1 k2 P1.xw P2.xv;
  let g1Awetag2Bv := I.ffp l2 j1 P2.yv P1.yw;
  -(1/2)*P1.a*dsb*f1Awf2Bv*g1Awetag2Bv*kt

/-- `panels/multidomain/connections/kCSB.pyx` (`fkCSB12`), line 281; names from lines 243, 258.
-/
def kSB12_22 (I : Tab K) (P1 P2 : Panel K) (dsb kt : K) (i1 k2 j1 l2 : ℕ) : K :=
  let f1Awf2Bw := I.ff i1 k2 P1.xw P2.xw;
  let g1Awg2Bw := I.ff j1 l2 P1.yw P2.yw;
  -(1/4)*P1.a*P1.b*f1Awf2Bw*g1Awg2Bw*kt

/-- The `(α, β)` written by `fkCSB12` (`panels/multidomain/connections/kCSB.pyx`), in program order. -/
def kSB12_pat : List (ℕ × ℕ) := [(0,0), (1,1), (2,0), (2,1), (2,2)]

/-- Value written by `fkCSB12` at `(row+α, col+β)`. -/
def kSB12 (I : Tab K) (P1 P2 : Panel K) (dsb kt : K) (i1 k2 j1 l2 : ℕ) (α β : ℕ) : K :=
  match α, β with
  | 0, 0 => kSB12_00 I P1 P2 dsb kt i1 k2 j1 l2
  | 1, 1 => kSB12_11 I P1 P2 dsb kt i1 k2 j1 l2
  | 2, 0 => kSB12_20 I P1 P2 dsb kt i1 k2 j1 l2
  | 2, 1 => kSB12_21 I P1 P2 dsb kt i1 k2 j1 l2
  | 2, 2 => kSB12_22 I P1 P2 dsb kt i1 k2 j1 l2
  | _, _ => 0

/-- `panels/multidomain/connections/kCSB.pyx` (`fkCSB22`), line 375; names from lines 355, 368.
-/
def kSB22_00 (I : Tab K) (P1 P2 : Panel K) (kt : K) (i2 k2 j2 l2 : ℕ) : K :=
  let f2Auf2Bu := I.ff i2 k2 P2.xu P2.xu;
  let g2Aug2Bu := I.ff j2 l2 P2.yu P2.yu;
  (1/4)*P1.a*P1.b*f2Auf2Bu*g2Aug2Bu*kt

/-- `panels/multidomain/connections/kCSB.pyx` (`fkCSB22`), line 379; names from lines 356, 369.
-/
def kSB22_11 (I : Tab K) (P1 P2 : Panel K) (kt : K) (i2 k2 j2 l2 : ℕ) : K :=
  let f2Avf2Bv := I.ff i2 k2 P2.xv P2.xv;
  let g2Avg2Bv := I.ff j2 l2 P2.yv P2.yv;
  (1/4)*P1.a*P1.b*f2Avf2Bv*g2Avg2Bv*kt

/-- `panels/multidomain/connections/kCSB.pyx` (`fkCSB22`), line 383; names from lines 357, 370.
-/
def kSB22_22 (I : Tab K) (P1 P2 : Panel K) (kt : K) (i2 k2 j2 l2 : ℕ) : K :=
  let f2Awf2Bw := I.ff i2 k2 P2.xw P2.xw;
  let g2Awg2Bw := I.ff j2 l2 P2.yw P2.yw;
  (1/4)*P1.a*P1.b*f2Awf2Bw*g2Awg2Bw*kt

/-- The `(α, β)` written by `fkCSB22` (`panels/multidomain/connections/kCSB.pyx`), in program order. -/
def kSB22_pat : List (ℕ × ℕ) := [(0,0), (1,1), (2,2)]

/-- Value written by `fkCSB22` at `(row+α, col+β)`. -/
def kSB22 (I : Tab K) (P1 P2 : Panel K) (kt : K) (i2 k2 j2 l2 : ℕ) (α β : ℕ) : K :=
  match α, β with
  | 0, 0 => kSB22_00 I P1 P2 kt i2 k2 j2 l2
  | 1, 1 => kSB22_11 I P1 P2 kt i2 k2 j2 l2
  | 2, 2 => kSB22_22 I P1 P2 kt i2 k2 j2 l2
  | _, _ => 0

end Verif.Gen.Conn
