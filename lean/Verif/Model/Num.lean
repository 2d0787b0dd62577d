import Verif.Basic.Accum
import Verif.Gen.PlateNum
import Verif.Gen.CylNum

/-!
# The numerically integrated builders

`panels/models/plate_clpt_donnell_bardell_num.pyx` and
`panels/models/cylshell_clpt_donnell_bardell_num.pyx`.  The quadrature points and weights
are read from `G` (`leggauss_quad`, `panels/core/src/legendre_gauss_quadrature.cpp`; the tables
are in `Verif.Gen.Gauss`).  Scalar accumulations `x += …` over `j`, `i` are finite sums (the order of
additions is irrelevant in exact arithmetic).
-/

namespace Verif

open Finset

/-- Exceptions that the modelled code raises, as values. -/
inductive Err
  | valueError
  | typeError
  | attributeError
  | nameError
  | runtimeError
  | notImplemented
  | importError
  | indexError
  | assertionError
deriving DecidableEq, Repr

/-- `Finput` of the numerical builders: one 6×6 matrix, an array of shape `(sx, sy, 6, 6)`, or
an array of any other shape. -/
inductive LamInput (K : Type*)
  | one (F : ℕ → ℕ → K)
  | field (sx sy : ℕ) (F : ℕ → ℕ → ℕ → ℕ → K)
  | other

namespace Model

variable {K : Type*} [Field K] [DecidableEq K]

/-- Integration limits in natural coordinates and side lengths
(`plate_clpt_donnell_bardell_num.pyx` lines 108-131; same text in every numerical builder). -/
structure Sub (K : Type*) where
  xi1 : K
  xi2 : K
  eta1 : K
  eta2 : K
  intx : K
  inty : K

/-- `plate_clpt_donnell_bardell_num.pyx` lines 108-131. -/
def sub (P : Panel K) : Sub K :=
  let x : K × K × K × K :=
    if P.x1 ≠ -1 ∧ P.x2 ≠ -1 then
      ((P.x1 - 0) / (P.a - 0) * 2 - 1, (P.x2 - 0) / (P.a - 0) * 2 - 1, P.x1, P.x2)
    else (-1, 1, 0, P.a)
  let y : K × K × K × K :=
    if P.y1 ≠ -1 ∧ P.y2 ≠ -1 then
      ((P.y1 - 0) / (P.b - 0) * 2 - 1, (P.y2 - 0) / (P.b - 0) * 2 - 1, P.y1, P.y2)
    else (-1, 1, 0, P.b)
  { xi1 := x.1, xi2 := x.2.1, eta1 := y.1, eta2 := y.2.1,
    intx := x.2.2.2 - x.2.2.1, inty := y.2.2.2 - y.2.2.1 }

/-- `xi = (xi - (-1))/2 * (xi2 - xi1) + xi1` (line 140). -/
def xiAt (G : GaussTab K) (P : Panel K) (nx ptx : ℕ) : K :=
  (G.pt nx ptx - (-1)) / 2 * ((sub P).xi2 - (sub P).xi1) + (sub P).xi1

/-- `eta = (eta - (-1))/2 * (eta2 - eta1) + eta1` (line 141). -/
def etaAt (G : GaussTab K) (P : Panel K) (ny pty : ℕ) : K :=
  (G.pt ny pty - (-1)) / 2 * ((sub P).eta2 - (sub P).eta1) + (sub P).eta1

/-- `weight = weights_xi[ptx] * weights_eta[pty]` (line 143). -/
def weightAt (G : GaussTab K) (nx ny ptx pty : ℕ) : K := G.wt nx ptx * G.wt ny pty

/-- Shape test of `Finput` (lines 62-76): the matrix used at each integration point. -/
def lamAt (nx ny : ℕ) : LamInput K → Except Err (ℕ → ℕ → ℕ → ℕ → K)
  | .one F => .ok fun _ _ => F
  | .field sx sy F => if sx = nx ∧ sy = ny then .ok F else .error .valueError
  | .other => .error .valueError

/-- `wxi` of `fkC_num` (lines 145-160). -/
def wxiC (S : Shape K) (P : Panel K) (cs : ℕ → K) (col0 NLgeom : ℕ) (xi eta : K) : K :=
  if NLgeom = 1 then ∑ j ∈ range P.n, ∑ i ∈ range P.m,
    Gen.PlateNum.fkC_num_wxi S P (cs (col0 + dof P.m i j + 2)) eta xi i j else 0

/-- `weta` of `fkC_num` (lines 145-160). -/
def wetaC (S : Shape K) (P : Panel K) (cs : ℕ → K) (col0 NLgeom : ℕ) (xi eta : K) : K :=
  if NLgeom = 1 then ∑ j ∈ range P.n, ∑ i ∈ range P.m,
    Gen.PlateNum.fkC_num_weta S P (cs (col0 + dof P.m i j + 2)) eta xi i j else 0

/-- `fkC_num` (`plate_clpt_donnell_bardell_num.pyx` lines 26-285) once the laminate at each point is
known. -/
def plateFkCnumF (S : Shape K) (G : GaussTab K) (P : Panel K) (F : ℕ → ℕ → ℕ → ℕ → K)
    (cs : ℕ → K) (row0 col0 nx ny NLgeom : ℕ) : Coo K :=
  Coo.pad (9 * P.m * P.m * P.n * P.n) <| accum (grid nx ny) fun p =>
    let xi := xiAt G P nx p.1
    let eta := etaAt G P ny p.2
    symBuild row0 col0 P.m P.n Gen.PlateNum.fkC_num_pat
      (Gen.PlateNum.fkC_num S P (Lam.ofABD (F p.1 p.2)) eta (sub P).intx (sub P).inty
        (weightAt G nx ny p.1 p.2) (wetaC S P cs col0 NLgeom xi eta)
        (wxiC S P cs col0 NLgeom xi eta) xi)

/-- `fkC_num` of the plate, with the shape test of `Finput`. -/
def plateFkCnum (S : Shape K) (G : GaussTab K) (P : Panel K) (Finput : LamInput K)
    (cs : ℕ → K) (row0 col0 nx ny NLgeom : ℕ) : Except Err (Coo K) :=
  (lamAt nx ny Finput).map fun F => plateFkCnumF S G P F cs row0 col0 nx ny NLgeom

/-- `wxi` of the cylindrical `fkC_num` (`cylshell_clpt_donnell_bardell_num.pyx` lines 144-160). -/
def wxiCcyl (S : Shape K) (P : Panel K) (cs : ℕ → K) (col0 NLgeom : ℕ) (xi eta : K) : K :=
  if NLgeom = 1 then ∑ j ∈ range P.n, ∑ i ∈ range P.m,
    Gen.CylNum.fkC_num_wxi S P (cs (col0 + dof P.m i j + 2)) eta xi i j else 0

/-- `weta` of the cylindrical `fkC_num`. -/
def wetaCcyl (S : Shape K) (P : Panel K) (cs : ℕ → K) (col0 NLgeom : ℕ) (xi eta : K) : K :=
  if NLgeom = 1 then ∑ j ∈ range P.n, ∑ i ∈ range P.m,
    Gen.CylNum.fkC_num_weta S P (cs (col0 + dof P.m i j + 2)) eta xi i j else 0

/-- `fkC_num` (`cylshell_clpt_donnell_bardell_num.pyx` lines 26-283). -/
def cylFkCnumF (S : Shape K) (G : GaussTab K) (P : Panel K) (F : ℕ → ℕ → ℕ → ℕ → K)
    (cs : ℕ → K) (row0 col0 nx ny NLgeom : ℕ) : Coo K :=
  Coo.pad (9 * P.m * P.m * P.n * P.n) <| accum (grid nx ny) fun p =>
    let xi := xiAt G P nx p.1
    let eta := etaAt G P ny p.2
    symBuild row0 col0 P.m P.n Gen.CylNum.fkC_num_pat
      (Gen.CylNum.fkC_num S P (Lam.ofABD (F p.1 p.2)) eta (sub P).intx (sub P).inty
        (weightAt G nx ny p.1 p.2) (wetaCcyl S P cs col0 NLgeom xi eta)
        (wxiCcyl S P cs col0 NLgeom xi eta) xi)

/-- `fkC_num` of the cylinder, with the shape test of `Finput`. -/
def cylFkCnum (S : Shape K) (G : GaussTab K) (P : Panel K) (Finput : LamInput K)
    (cs : ℕ → K) (row0 col0 nx ny NLgeom : ℕ) : Except Err (Coo K) :=
  (lamAt nx ny Finput).map fun F => cylFkCnumF S G P F cs row0 col0 nx ny NLgeom

/-- Strain state of one integration point. -/
structure Strain (K : Type*) where
  exx : K
  eyy : K
  gxy : K
  kxx : K
  kyy : K
  kxy : K

/-- Strains inside `fkG_num` (`plate_clpt_donnell_bardell_num.pyx` lines 425-476). -/
def strainG (S : Shape K) (P : Panel K) (cs : ℕ → K) (col0 NLgeom : ℕ) (xi eta : K) : Strain K :=
  let wxi := if NLgeom = 1 then ∑ j ∈ range P.n, ∑ i ∈ range P.m,
    Gen.PlateNum.fkG_num_wxi S P (cs (col0 + dof P.m i j + 2)) eta xi i j else 0
  let weta := if NLgeom = 1 then ∑ j ∈ range P.n, ∑ i ∈ range P.m,
    Gen.PlateNum.fkG_num_weta S P (cs (col0 + dof P.m i j + 2)) eta xi i j else 0
  let acc := fun (e : Shape K → Panel K → K → K → K → K → K → K → K → ℕ → ℕ → K) =>
    ∑ j ∈ range P.n, ∑ i ∈ range P.m, e S P (cs (col0 + dof P.m i j + 0))
      (cs (col0 + dof P.m i j + 1)) (cs (col0 + dof P.m i j + 2)) eta weta wxi xi i j
  { exx := acc Gen.PlateNum.fkG_num_exx, eyy := acc Gen.PlateNum.fkG_num_eyy,
    gxy := acc Gen.PlateNum.fkG_num_gxy, kxx := acc Gen.PlateNum.fkG_num_kxx,
    kyy := acc Gen.PlateNum.fkG_num_kyy, kxy := acc Gen.PlateNum.fkG_num_kxy }

/-- Strains inside `fkG_num` (`cylshell_clpt_donnell_bardell_num.pyx` lines 424-477). -/
def strainGcyl (S : Shape K) (P : Panel K) (cs : ℕ → K) (col0 NLgeom : ℕ) (xi eta : K) :
    Strain K :=
  let wxi := if NLgeom = 1 then ∑ j ∈ range P.n, ∑ i ∈ range P.m,
    Gen.CylNum.fkG_num_wxi S P (cs (col0 + dof P.m i j + 2)) eta xi i j else 0
  let weta := if NLgeom = 1 then ∑ j ∈ range P.n, ∑ i ∈ range P.m,
    Gen.CylNum.fkG_num_weta S P (cs (col0 + dof P.m i j + 2)) eta xi i j else 0
  let acc := fun (e : Shape K → Panel K → K → K → K → K → K → K → K → ℕ → ℕ → K) =>
    ∑ j ∈ range P.n, ∑ i ∈ range P.m, e S P (cs (col0 + dof P.m i j + 0))
      (cs (col0 + dof P.m i j + 1)) (cs (col0 + dof P.m i j + 2)) eta weta wxi xi i j
  { exx := acc Gen.CylNum.fkG_num_exx, eyy := acc Gen.CylNum.fkG_num_eyy,
    gxy := acc Gen.CylNum.fkG_num_gxy, kxx := acc Gen.CylNum.fkG_num_kxx,
    kyy := acc Gen.CylNum.fkG_num_kyy, kxy := acc Gen.CylNum.fkG_num_kxy }

/-- `fkG_num` (`plate_clpt_donnell_bardell_num.pyx` lines 288-516), loop order `j, l, i, k`. -/
def plateFkGnumF (S : Shape K) (G : GaussTab K) (P : Panel K) (F : ℕ → ℕ → ℕ → ℕ → K)
    (cs : ℕ → K) (row0 col0 nx ny NLgeom : ℕ) (Nxx0 Nyy0 Nxy0 : K) : Coo K :=
  Coo.pad (1 * P.m * P.m * P.n * P.n) <| accum (grid nx ny) fun p =>
    let xi := xiAt G P nx p.1
    let eta := etaAt G P ny p.2
    let L := Lam.ofABD (F p.1 p.2)
    let e := strainG S P cs col0 NLgeom xi eta
    symBuildJL row0 col0 P.m P.n Gen.PlateNum.fkG_num_pat
      (Gen.PlateNum.fkG_num S P
        (Gen.PlateNum.fkG_num_Nxx L Nxx0 Nxy0 Nyy0 e.exx e.eyy e.gxy e.kxx e.kxy e.kyy)
        (Gen.PlateNum.fkG_num_Nxy L Nxx0 Nxy0 Nyy0 e.exx e.eyy e.gxy e.kxx e.kxy e.kyy)
        (Gen.PlateNum.fkG_num_Nyy L Nxx0 Nxy0 Nyy0 e.exx e.eyy e.gxy e.kxx e.kxy e.kyy)
        eta (sub P).intx (sub P).inty (weightAt G nx ny p.1 p.2) xi)

/-- `fkG_num` of the plate, with the shape test of `Finput`. -/
def plateFkGnum (S : Shape K) (G : GaussTab K) (P : Panel K) (Finput : LamInput K)
    (cs : ℕ → K) (row0 col0 nx ny NLgeom : ℕ) (Nxx0 Nyy0 Nxy0 : K) : Except Err (Coo K) :=
  (lamAt nx ny Finput).map fun F =>
    plateFkGnumF S G P F cs row0 col0 nx ny NLgeom Nxx0 Nyy0 Nxy0

/-- `fkG_num` (`cylshell_clpt_donnell_bardell_num.pyx` lines 286-518). -/
def cylFkGnumF (S : Shape K) (G : GaussTab K) (P : Panel K) (F : ℕ → ℕ → ℕ → ℕ → K)
    (cs : ℕ → K) (row0 col0 nx ny NLgeom : ℕ) (Nxx0 Nyy0 Nxy0 : K) : Coo K :=
  Coo.pad (1 * P.m * P.m * P.n * P.n) <| accum (grid nx ny) fun p =>
    let xi := xiAt G P nx p.1
    let eta := etaAt G P ny p.2
    let L := Lam.ofABD (F p.1 p.2)
    let e := strainGcyl S P cs col0 NLgeom xi eta
    symBuildJL row0 col0 P.m P.n Gen.CylNum.fkG_num_pat
      (Gen.CylNum.fkG_num S P
        (Gen.CylNum.fkG_num_Nxx L Nxx0 Nxy0 Nyy0 e.exx e.eyy e.gxy e.kxx e.kxy e.kyy)
        (Gen.CylNum.fkG_num_Nxy L Nxx0 Nxy0 Nyy0 e.exx e.eyy e.gxy e.kxx e.kxy e.kyy)
        (Gen.CylNum.fkG_num_Nyy L Nxx0 Nxy0 Nyy0 e.exx e.eyy e.gxy e.kxx e.kxy e.kyy)
        eta (sub P).intx (sub P).inty (weightAt G nx ny p.1 p.2) xi)

/-- `fkG_num` of the cylinder, with the shape test of `Finput`. -/
def cylFkGnum (S : Shape K) (G : GaussTab K) (P : Panel K) (Finput : LamInput K)
    (cs : ℕ → K) (row0 col0 nx ny NLgeom : ℕ) (Nxx0 Nyy0 Nxy0 : K) : Except Err (Coo K) :=
  (lamAt nx ny Finput).map fun F =>
    cylFkGnumF S G P F cs row0 col0 nx ny NLgeom Nxx0 Nyy0 Nxy0

/-- `fkM_num` (`plate_clpt_donnell_bardell_num.pyx` lines 519-710); the cylindrical version
delegates to it (`cylshell_clpt_donnell_bardell_num.pyx` lines 521-524).  `h`, `rho` per point. -/
def fkMnumF (S : Shape K) (G : GaussTab K) (P : Panel K) (offset : K) (h rho : ℕ → ℕ → K)
    (row0 col0 nx ny : ℕ) : Coo K :=
  Coo.pad (7 * P.m * P.m * P.n * P.n) <| accum (grid nx ny) fun p =>
    symBuild row0 col0 P.m P.n Gen.PlateNum.fkM_num_pat
      (Gen.PlateNum.fkM_num S P offset (etaAt G P ny p.2) (h p.1 p.2) (sub P).intx (sub P).inty
        (rho p.1 p.2) (weightAt G nx ny p.1 p.2) (xiAt G P nx p.1))

/-- `hrho_input`: one pair or an array of shape `(sx, sy, 2)`
(`plate_clpt_donnell_bardell_num.pyx` lines 554-565). -/
inductive HRho (K : Type*)
  | one (h rho : K)
  | field (sx sy : ℕ) (h rho : ℕ → ℕ → K)
  | other

/-- `fkM_num` with the shape test of `hrho_input`. -/
def fkMnum (S : Shape K) (G : GaussTab K) (P : Panel K) (offset : K) (inp : HRho K)
    (row0 col0 nx ny : ℕ) : Except Err (Coo K) :=
  match inp with
  | .one h rho => .ok (fkMnumF S G P offset (fun _ _ => h) (fun _ _ => rho) row0 col0 nx ny)
  | .field sx sy h rho =>
    if sx = nx ∧ sy = ny then .ok (fkMnumF S G P offset h rho row0 col0 nx ny)
    else .error .valueError
  | .other => .error .valueError

/-- `fkAx_num` (`plate_clpt_donnell_bardell_num.pyx` lines 713-826). -/
def plateFkAxNum (S : Shape K) (G : GaussTab K) (P : Panel K) (beta gamma : K)
    (row0 col0 nx ny : ℕ) : Coo K :=
  Coo.pad (1 * P.m * P.m * P.n * P.n) <| accum (grid nx ny) fun p =>
    symBuild row0 col0 P.m P.n Gen.PlateNum.fkAx_num_pat
      (Gen.PlateNum.fkAx_num S P beta (etaAt G P ny p.2) gamma (sub P).intx (sub P).inty
        (weightAt G nx ny p.1 p.2) (xiAt G P nx p.1))

/-- `fkAx_num` (`cylshell_clpt_donnell_bardell_num.pyx` lines 527-640). -/
def cylFkAxNum (S : Shape K) (G : GaussTab K) (P : Panel K) (beta gamma : K)
    (row0 col0 nx ny : ℕ) : Coo K :=
  Coo.pad (1 * P.m * P.m * P.n * P.n) <| accum (grid nx ny) fun p =>
    symBuild row0 col0 P.m P.n Gen.CylNum.fkAx_num_pat
      (Gen.CylNum.fkAx_num S P beta (etaAt G P ny p.2) gamma (sub P).intx (sub P).inty
        (weightAt G nx ny p.1 p.2) (xiAt G P nx p.1))

/-- `fkAy_num` (`plate_clpt_donnell_bardell_num.pyx` lines 829-940; the cylindrical version
delegates to it, `cylshell_clpt_donnell_bardell_num.pyx` lines 643-645). -/
def fkAyNum (S : Shape K) (G : GaussTab K) (P : Panel K) (beta : K)
    (row0 col0 nx ny : ℕ) : Coo K :=
  Coo.pad (1 * P.m * P.m * P.n * P.n) <| accum (grid nx ny) fun p =>
    symBuild row0 col0 P.m P.n Gen.PlateNum.fkAy_num_pat
      (Gen.PlateNum.fkAy_num S P beta (etaAt G P ny p.2) (sub P).intx (sub P).inty
        (weightAt G nx ny p.1 p.2) (xiAt G P nx p.1))

/-- Strains inside `calc_fint` (`plate_clpt_donnell_bardell_num.pyx` lines 1081-1133). -/
def strainF (S : Shape K) (P : Panel K) (cs : ℕ → K) (col0 : ℕ) (xi eta : K) :
    K × K × Strain K :=
  let wxi := ∑ j ∈ range P.n, ∑ i ∈ range P.m,
    Gen.PlateNum.fint_wxi S P (cs (col0 + dof P.m i j + 2)) eta xi i j
  let weta := ∑ j ∈ range P.n, ∑ i ∈ range P.m,
    Gen.PlateNum.fint_weta S P (cs (col0 + dof P.m i j + 2)) eta xi i j
  let acc := fun (e : Shape K → Panel K → K → K → K → K → K → K → K → ℕ → ℕ → K) =>
    ∑ j ∈ range P.n, ∑ i ∈ range P.m, e S P (cs (col0 + dof P.m i j + 0))
      (cs (col0 + dof P.m i j + 1)) (cs (col0 + dof P.m i j + 2)) eta weta wxi xi i j
  (wxi, weta,
  { exx := acc Gen.PlateNum.fint_exx, eyy := acc Gen.PlateNum.fint_eyy,
    gxy := acc Gen.PlateNum.fint_gxy, kxx := acc Gen.PlateNum.fint_kxx,
    kyy := acc Gen.PlateNum.fint_kyy, kxy := acc Gen.PlateNum.fint_kxy })

/-- Strains inside `calc_fint` (`cylshell_clpt_donnell_bardell_num.pyx` lines 786-838). -/
def strainFcyl (S : Shape K) (P : Panel K) (cs : ℕ → K) (col0 : ℕ) (xi eta : K) :
    K × K × Strain K :=
  let wxi := ∑ j ∈ range P.n, ∑ i ∈ range P.m,
    Gen.CylNum.fint_wxi S P (cs (col0 + dof P.m i j + 2)) eta xi i j
  let weta := ∑ j ∈ range P.n, ∑ i ∈ range P.m,
    Gen.CylNum.fint_weta S P (cs (col0 + dof P.m i j + 2)) eta xi i j
  let acc := fun (e : Shape K → Panel K → K → K → K → K → K → K → K → ℕ → ℕ → K) =>
    ∑ j ∈ range P.n, ∑ i ∈ range P.m, e S P (cs (col0 + dof P.m i j + 0))
      (cs (col0 + dof P.m i j + 1)) (cs (col0 + dof P.m i j + 2)) eta weta wxi xi i j
  (wxi, weta,
  { exx := acc Gen.CylNum.fint_exx, eyy := acc Gen.CylNum.fint_eyy,
    gxy := acc Gen.CylNum.fint_gxy, kxx := acc Gen.CylNum.fint_kxx,
    kyy := acc Gen.CylNum.fint_kyy, kxy := acc Gen.CylNum.fint_kxy })

/-- Writes into a vector: `v[idx] += val`, in program order. -/
abbrev VecW (K : Type*) := List (ℕ × K)

/-- Component `r` of the vector obtained from zero by the writes. -/
def vget (L : VecW K) (r : ℕ) : K := (L.map fun t => if t.1 = r then t.2 else 0).sum

/-- Product of the vector with `d`. -/
def vdot (L : VecW K) (d : ℕ → K) : K := (L.map fun t => t.2 * d t.1).sum

/-- `calc_fint` (`plate_clpt_donnell_bardell_num.pyx` lines 943-1168), laminate known at each
point. -/
def plateFintF (S : Shape K) (G : GaussTab K) (P : Panel K) (F : ℕ → ℕ → ℕ → ℕ → K)
    (cs : ℕ → K) (col0 nx ny : ℕ) : VecW K :=
  (grid nx ny).flatMap fun p =>
    let xi := xiAt G P nx p.1
    let eta := etaAt G P ny p.2
    let L := Lam.ofABD (F p.1 p.2)
    let w := strainF S P cs col0 xi eta
    let e := w.2.2
    let st := fun (g : Lam K → K → K → K → K → K → K → K) =>
      g L e.exx e.eyy e.gxy e.kxx e.kxy e.kyy
    let val := fun (g : Shape K → Panel K → K → K → K → K → K → K → K → K → K → K → K → K → K →
        ℕ → ℕ → K) => g S P (st Gen.PlateNum.fint_Mxx) (st Gen.PlateNum.fint_Mxy)
      (st Gen.PlateNum.fint_Myy) (st Gen.PlateNum.fint_Nxx) (st Gen.PlateNum.fint_Nxy)
      (st Gen.PlateNum.fint_Nyy) eta (sub P).intx (sub P).inty (weightAt G nx ny p.1 p.2)
      w.2.1 w.1 xi
    (List.range P.n).flatMap fun j => (List.range P.m).flatMap fun i =>
      [(col0 + dof P.m i j + 0, val Gen.PlateNum.fint_fint_0 i j),
       (col0 + dof P.m i j + 1, val Gen.PlateNum.fint_fint_1 i j),
       (col0 + dof P.m i j + 2, val Gen.PlateNum.fint_fint_2 i j)]

/-- `calc_fint` (`cylshell_clpt_donnell_bardell_num.pyx` lines 648-871). -/
def cylFintF (S : Shape K) (G : GaussTab K) (P : Panel K) (F : ℕ → ℕ → ℕ → ℕ → K)
    (cs : ℕ → K) (col0 nx ny : ℕ) : VecW K :=
  (grid nx ny).flatMap fun p =>
    let xi := xiAt G P nx p.1
    let eta := etaAt G P ny p.2
    let L := Lam.ofABD (F p.1 p.2)
    let w := strainFcyl S P cs col0 xi eta
    let e := w.2.2
    let st := fun (g : Lam K → K → K → K → K → K → K → K) =>
      g L e.exx e.eyy e.gxy e.kxx e.kxy e.kyy
    let val := fun (g : Shape K → Panel K → K → K → K → K → K → K → K → K → K → K → K → K → K →
        ℕ → ℕ → K) => g S P (st Gen.CylNum.fint_Mxx) (st Gen.CylNum.fint_Mxy)
      (st Gen.CylNum.fint_Myy) (st Gen.CylNum.fint_Nxx) (st Gen.CylNum.fint_Nxy)
      (st Gen.CylNum.fint_Nyy) eta (sub P).intx (sub P).inty (weightAt G nx ny p.1 p.2)
      w.2.1 w.1 xi
    (List.range P.n).flatMap fun j => (List.range P.m).flatMap fun i =>
      [(col0 + dof P.m i j + 0, val Gen.CylNum.fint_fint_0 i j),
       (col0 + dof P.m i j + 1, val Gen.CylNum.fint_fint_1 i j),
       (col0 + dof P.m i j + 2, val Gen.CylNum.fint_fint_2 i j)]

/-- `calc_fint` with the shape test of `Finput`. -/
def plateFint (S : Shape K) (G : GaussTab K) (P : Panel K) (Finput : LamInput K)
    (cs : ℕ → K) (col0 nx ny : ℕ) : Except Err (VecW K) :=
  (lamAt nx ny Finput).map fun F => plateFintF S G P F cs col0 nx ny

/-- Cylindrical `calc_fint` with the shape test of `Finput`. -/
def cylFint (S : Shape K) (G : GaussTab K) (P : Panel K) (Finput : LamInput K)
    (cs : ℕ → K) (col0 nx ny : ℕ) : Except Err (VecW K) :=
  (lamAt nx ny Finput).map fun F => cylFintF S G P F cs col0 nx ny

end Model
end Verif
