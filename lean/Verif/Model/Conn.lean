import Verif.Basic.Cross
import Verif.Gen.Conn
import Verif.Gen.Pd

/-!
# Builders of the penalty connections

`panels/multidomain/connections/*.pyx`: loop nests around the generated entry expressions.
`11`, `22` are diagonal blocks with the skip `row > col`; `12` is written in full.
-/

namespace Verif.Model

variable {K : Type*} [Field K]

/-- `fkCSSxcte11` (`panels/multidomain/connections/kCSSxcte.pyx` lines 28-137). -/
def fkCSSxcte11 (S : Shape K) (I : Tab K) (P1 : Panel K) (kt kr xcte1 : K) (row0 col0 : ℕ) : Coo K :=
  Coo.pad (3 * P1.m * P1.n * P1.m * P1.n)
    (symBuildJL row0 col0 P1.m P1.n Gen.Conn.kSSxcte11_pat (Gen.Conn.kSSxcte11 S I P1 kr kt xcte1))

/-- `fkCSSxcte12` (`panels/multidomain/connections/kCSSxcte.pyx` lines 140-268). -/
def fkCSSxcte12 (S : Shape K) (I : Tab K) (P1 P2 : Panel K) (kt kr xcte1 xcte2 : K)
    (row0 col0 : ℕ) : Coo K :=
  Coo.pad (3 * P1.m * P1.n * P2.m * P2.n)
    (crossBuildJL row0 col0 P1.m P1.n P2.m P2.n Gen.Conn.kSSxcte12_pat
      (Gen.Conn.kSSxcte12 S I P1 P2 kr kt xcte1 xcte2))

/-- `fkCSSxcte22` (`panels/multidomain/connections/kCSSxcte.pyx` lines 271-384). -/
def fkCSSxcte22 (S : Shape K) (I : Tab K) (P1 P2 : Panel K) (kt kr xcte2 : K)
    (row0 col0 : ℕ) : Coo K :=
  Coo.pad (3 * P2.m * P2.n * P2.m * P2.n)
    (symBuildJL row0 col0 P2.m P2.n Gen.Conn.kSSxcte22_pat (Gen.Conn.kSSxcte22 S I P1 P2 kr kt xcte2))

/-- `fkCSSycte11` (`panels/multidomain/connections/kCSSycte.pyx` lines 30-140). -/
def fkCSSycte11 (S : Shape K) (I : Tab K) (P1 : Panel K) (kt kr ycte1 : K) (row0 col0 : ℕ) : Coo K :=
  Coo.pad (3 * P1.m * P1.n * P1.m * P1.n)
    (symBuild row0 col0 P1.m P1.n Gen.Conn.kSSycte11_pat (Gen.Conn.kSSycte11 S I P1 kr kt ycte1))

/-- `fkCSSycte12` (`panels/multidomain/connections/kCSSycte.pyx` lines 143-272). -/
def fkCSSycte12 (S : Shape K) (I : Tab K) (P1 P2 : Panel K) (kt kr ycte1 ycte2 : K)
    (row0 col0 : ℕ) : Coo K :=
  Coo.pad (3 * P1.m * P1.n * P2.m * P2.n)
    (crossBuild row0 col0 P1.m P1.n P2.m P2.n Gen.Conn.kSSycte12_pat
      (Gen.Conn.kSSycte12 S I P1 P2 kr kt ycte1 ycte2))

/-- `fkCSSycte22` (`panels/multidomain/connections/kCSSycte.pyx` lines 275-388). -/
def fkCSSycte22 (S : Shape K) (I : Tab K) (P1 P2 : Panel K) (kt kr ycte2 : K)
    (row0 col0 : ℕ) : Coo K :=
  Coo.pad (3 * P2.m * P2.n * P2.m * P2.n)
    (symBuild row0 col0 P2.m P2.n Gen.Conn.kSSycte22_pat (Gen.Conn.kSSycte22 S I P1 P2 kr kt ycte2))

/-- `fkCBFxcte11` (`panels/multidomain/connections/kCBFxcte.pyx` lines 26-135). -/
def fkCBFxcte11 (S : Shape K) (I : Tab K) (P1 : Panel K) (kt kr xcte1 : K) (row0 col0 : ℕ) : Coo K :=
  Coo.pad (3 * P1.m * P1.n * P1.m * P1.n)
    (symBuildJL row0 col0 P1.m P1.n Gen.Conn.kBFxcte11_pat (Gen.Conn.kBFxcte11 S I P1 kr kt xcte1))

/-- `fkCBFxcte12` (`panels/multidomain/connections/kCBFxcte.pyx` lines 138-271). -/
def fkCBFxcte12 (S : Shape K) (I : Tab K) (P1 P2 : Panel K) (kt kr xcte1 xcte2 : K)
    (row0 col0 : ℕ) : Coo K :=
  Coo.pad (4 * P1.m * P1.n * P2.m * P2.n)
    (crossBuildJL row0 col0 P1.m P1.n P2.m P2.n Gen.Conn.kBFxcte12_pat
      (Gen.Conn.kBFxcte12 S I P1 P2 kr kt xcte1 xcte2))

/-- `fkCBFxcte22` (`panels/multidomain/connections/kCBFxcte.pyx` lines 274-384). -/
def fkCBFxcte22 (S : Shape K) (I : Tab K) (P1 P2 : Panel K) (kt kr xcte2 : K)
    (row0 col0 : ℕ) : Coo K :=
  Coo.pad (3 * P2.m * P2.n * P2.m * P2.n)
    (symBuildJL row0 col0 P2.m P2.n Gen.Conn.kBFxcte22_pat (Gen.Conn.kBFxcte22 S I P1 P2 kr kt xcte2))

/-- `fkCBFycte11` (`panels/multidomain/connections/kCBFycte.pyx` lines 25-134). -/
def fkCBFycte11 (S : Shape K) (I : Tab K) (P1 : Panel K) (kt kr ycte1 : K) (row0 col0 : ℕ) : Coo K :=
  Coo.pad (3 * P1.m * P1.n * P1.m * P1.n)
    (symBuild row0 col0 P1.m P1.n Gen.Conn.kBFycte11_pat (Gen.Conn.kBFycte11 S I P1 kr kt ycte1))

/-- `fkCBFycte12` (`panels/multidomain/connections/kCBFycte.pyx` lines 137-269). -/
def fkCBFycte12 (S : Shape K) (I : Tab K) (P1 P2 : Panel K) (kt kr ycte1 ycte2 : K)
    (row0 col0 : ℕ) : Coo K :=
  Coo.pad (4 * P1.m * P1.n * P2.m * P2.n)
    (crossBuild row0 col0 P1.m P1.n P2.m P2.n Gen.Conn.kBFycte12_pat
      (Gen.Conn.kBFycte12 S I P1 P2 kr kt ycte1 ycte2))

/-- `fkCBFycte22` (`panels/multidomain/connections/kCBFycte.pyx` lines 272-383). -/
def fkCBFycte22 (S : Shape K) (I : Tab K) (P1 P2 : Panel K) (kt kr ycte2 : K)
    (row0 col0 : ℕ) : Coo K :=
  Coo.pad (3 * P2.m * P2.n * P2.m * P2.n)
    (symBuild row0 col0 P2.m P2.n Gen.Conn.kBFycte22_pat (Gen.Conn.kBFycte22 S I P1 P2 kr kt ycte2))

/-- `fkCSB11` (`panels/multidomain/connections/kCSB.pyx` lines 29-155). -/
def fkCSB11 (I : Tab K) (P1 : Panel K) (kt dsb : K) (row0 col0 : ℕ) : Coo K :=
  Coo.pad (7 * P1.m * P1.n * P1.m * P1.n)
    (symBuild row0 col0 P1.m P1.n Gen.Conn.kSB11_pat (Gen.Conn.kSB11 I P1 dsb kt))

/-- `fkCSB12` (`panels/multidomain/connections/kCSB.pyx` lines 159-285). -/
def fkCSB12 (I : Tab K) (P1 P2 : Panel K) (kt dsb : K) (row0 col0 : ℕ) : Coo K :=
  Coo.pad (5 * P1.m * P1.n * P2.m * P2.n)
    (crossBuild row0 col0 P1.m P1.n P2.m P2.n Gen.Conn.kSB12_pat (Gen.Conn.kSB12 I P1 P2 dsb kt))

/-- `fkCSB22` (`panels/multidomain/connections/kCSB.pyx` lines 288-387). -/
def fkCSB22 (I : Tab K) (P1 P2 : Panel K) (kt : K) (row0 col0 : ℕ) : Coo K :=
  Coo.pad (3 * P2.m * P2.n * P2.m * P2.n)
    (symBuild row0 col0 P2.m P2.n Gen.Conn.kSB22_pat (Gen.Conn.kSB22 I P1 P2 kt))

/-- `fkCpd` (`panels/multidomain/connections/kCpd.pyx` lines 25-151). -/
def fkCpd (S : Shape K) (P : Panel K) (ku kv kw xp yp : K) (row0 col0 : ℕ) : Coo K :=
  Coo.pad (3 * P.m * P.n * P.m * P.n)
    (symBuildJL row0 col0 P.m P.n Gen.Pd.fkCpd_pat (Gen.Pd.fkCpd S P ku kv kw xp yp))

/-- `fkCld_xcte` (`panels/multidomain/connections/kCpd.pyx` lines 154-274). -/
def fkCldXcte (S : Shape K) (I : Tab K) (P : Panel K) (ku kv kw xp : K) (row0 col0 : ℕ) : Coo K :=
  Coo.pad (3 * P.m * P.n * P.m * P.n)
    (symBuildWJL row0 col0 P.m P.n (Gen.Pd.fkCld_xcte_pat.zip
      [Gen.Pd.fkCld_xcte_w0 S I P ku kv kw xp, Gen.Pd.fkCld_xcte_w1 S I P ku kv kw xp,
        Gen.Pd.fkCld_xcte_w2 S I P ku kv kw xp]))

/-- `fkCld_ycte` (`panels/multidomain/connections/kCpd.pyx` lines 277-397). -/
def fkCldYcte (S : Shape K) (I : Tab K) (P : Panel K) (ku kv kw yp : K) (row0 col0 : ℕ) : Coo K :=
  Coo.pad (3 * P.m * P.n * P.m * P.n)
    (symBuildW row0 col0 P.m P.n (Gen.Pd.fkCld_ycte_pat.zip
      [Gen.Pd.fkCld_ycte_w0 S I P ku kv kw yp, Gen.Pd.fkCld_ycte_w1 S I P ku kv kw yp,
        Gen.Pd.fkCld_ycte_w2 S I P ku kv kw yp]))

end Verif.Model
