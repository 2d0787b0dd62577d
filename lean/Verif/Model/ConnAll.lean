import Verif.Model.Conn

/-!
# The three blocks of a connection, as summed by `get_kC_conn`

`panels/multidomain/multidomain.py`, `get_kC_conn`: the blocks `11`, `12`, `22` of the two panels,
whose first degrees of freedom are `s1` and `s2`; the caller has `s1 < s2`.
-/

namespace Verif.Model

variable {K : Type*} [Field K]

/-- `SSxcte` (`panels/multidomain/multidomain.py` lines 823-833). -/
def connSSxcte (S : Shape K) (I : Tab K) (P1 P2 : Panel K) (kt kr x1 x2 : K) (s1 s2 : ℕ) : Coo K :=
  fkCSSxcte11 S I P1 kt kr x1 s1 s1 ++ (fkCSSxcte12 S I P1 P2 kt kr x1 x2 s1 s2 ++
    fkCSSxcte22 S I P1 P2 kt kr x2 s2 s2)

/-- `SSycte` (`panels/multidomain/multidomain.py` lines 804-821). -/
def connSSycte (S : Shape K) (I : Tab K) (P1 P2 : Panel K) (kt kr y1 y2 : K) (s1 s2 : ℕ) : Coo K :=
  fkCSSycte11 S I P1 kt kr y1 s1 s1 ++ (fkCSSycte12 S I P1 P2 kt kr y1 y2 s1 s2 ++
    fkCSSycte22 S I P1 P2 kt kr y2 s2 s2)

/-- `BFxcte` (`panels/multidomain/multidomain.py` lines 858-869). -/
def connBFxcte (S : Shape K) (I : Tab K) (P1 P2 : Panel K) (kt kr x1 x2 : K) (s1 s2 : ℕ) : Coo K :=
  fkCBFxcte11 S I P1 kt kr x1 s1 s1 ++ (fkCBFxcte12 S I P1 P2 kt kr x1 x2 s1 s2 ++
    fkCBFxcte22 S I P1 P2 kt kr x2 s2 s2)

/-- `BFycte` (`panels/multidomain/multidomain.py` lines 846-857). -/
def connBFycte (S : Shape K) (I : Tab K) (P1 P2 : Panel K) (kt kr y1 y2 : K) (s1 s2 : ℕ) : Coo K :=
  fkCBFycte11 S I P1 kt kr y1 s1 s1 ++ (fkCBFycte12 S I P1 P2 kt kr y1 y2 s1 s2 ++
    fkCBFycte22 S I P1 P2 kt kr y2 s2 s2)

/-- `SB` (`panels/multidomain/multidomain.py` lines 835-845). -/
def connSB (I : Tab K) (P1 P2 : Panel K) (kt dsb : K) (s1 s2 : ℕ) : Coo K :=
  fkCSB11 I P1 kt dsb s1 s1 ++ (fkCSB12 I P1 P2 kt dsb s1 s2 ++ fkCSB22 I P1 P2 kt s2 s2)

end Verif.Model
