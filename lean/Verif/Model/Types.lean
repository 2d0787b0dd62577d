import Verif.Basic.Assembly

/-!
# Data read by the builders
-/

namespace Verif

/-- The four edge flags of one displacement field along one axis, e.g.
`(x1u, x1ur, x2u, x2ur)`; `panels/shell.py` lines 128-160. -/
structure Flags (K : Type*) where
  t1 : K
  r1 : K
  t2 : K
  r2 : K

/-- The functions `f`, `fp`, `fpp` of `panels/core/src/bardell_functions.cpp`
(`i`, `xi`, four flags), as an interface; the tables themselves are in `Verif.Gen.Bardell*`. -/
structure Shape (K : Type*) where
  f : ℕ → K → Flags K → K
  fp : ℕ → K → Flags K → K
  fpp : ℕ → K → Flags K → K

/-- The functions `integral_ff` … `integral_fppfpp` of `panels/core/src/bardell.cpp`
(`i`, `j`, flags of the first factor, flags of the second factor). -/
structure Tab (K : Type*) where
  ff : ℕ → ℕ → Flags K → Flags K → K
  ffp : ℕ → ℕ → Flags K → Flags K → K
  ffpp : ℕ → ℕ → Flags K → Flags K → K
  fpfp : ℕ → ℕ → Flags K → Flags K → K
  fpfpp : ℕ → ℕ → Flags K → Flags K → K
  fppfpp : ℕ → ℕ → Flags K → Flags K → K

/-- The attributes of `Shell` read by the builders (`panels/shell.py` lines 94-224).
`x1 x2 y1 y2` is the integration sub-domain, `-1` meaning "not given". -/
structure Panel (K : Type*) where
  a : K
  b : K
  r : K
  m : ℕ
  n : ℕ
  x1 : K
  x2 : K
  y1 : K
  y2 : K
  xu : Flags K
  xv : Flags K
  xw : Flags K
  yu : Flags K
  yv : Flags K
  yw : Flags K

/-- The eighteen laminate constants as named in the builders. -/
structure Lam (K : Type*) where
  A11 : K
  A12 : K
  A16 : K
  A22 : K
  A26 : K
  A66 : K
  B11 : K
  B12 : K
  B16 : K
  B22 : K
  B26 : K
  B66 : K
  D11 : K
  D12 : K
  D16 : K
  D22 : K
  D26 : K
  D66 : K

/-- Reads the constants from a 6×6 ABD matrix (`plate_clpt_donnell_bardell.pyx` lines 91-110;
the same positions in every builder, checked by the translator). -/
def Lam.ofABD {K : Type*} (F : ℕ → ℕ → K) : Lam K where
  A11 := F 0 0
  A12 := F 0 1
  A16 := F 0 2
  A22 := F 1 1
  A26 := F 1 2
  A66 := F 2 2
  B11 := F 0 3
  B12 := F 0 4
  B16 := F 0 5
  B22 := F 1 4
  B26 := F 1 5
  B66 := F 2 5
  D11 := F 3 3
  D12 := F 3 4
  D16 := F 3 5
  D22 := F 4 4
  D26 := F 4 5
  D66 := F 5 5

/-- `leggauss_quad(n, points, weights)`: point and weight number `i` of the `n`-point
rule (`panels/core/src/legendre_gauss_quadrature.cpp`). -/
structure GaussTab (K : Type*) where
  pt : ℕ → ℕ → K
  wt : ℕ → ℕ → K

end Verif
