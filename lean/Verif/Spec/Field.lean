import Verif.Model.Types
import Verif.Basic.Mean

/-!
# Specification: displacement fields and strains

The Ritz displacement field of a panel and its partial derivatives with respect to the
physical coordinates `x = a (ξ+1)/2`, `y = b (η+1)/2`.  Nothing here refers to the matrix
builders.
-/

namespace Verif

open Finset

variable {K : Type*} [Field K]

/-- `p`-th derivative of shape function `i`. -/
def Shape.D (S : Shape K) (p i : ℕ) (x : K) (fl : Flags K) : K :=
  match p with
  | 0 => S.f i x fl
  | 1 => S.fp i x fl
  | _ => S.fpp i x fl

/-- Flags along `x` of displacement component `α` (0 = u, 1 = v, 2 = w). -/
def Panel.xf (P : Panel K) (α : ℕ) : Flags K :=
  match α with
  | 0 => P.xu
  | 1 => P.xv
  | _ => P.xw

/-- Flags along `y` of displacement component `α`. -/
def Panel.yf (P : Panel K) (α : ℕ) : Flags K :=
  match α with
  | 0 => P.yu
  | 1 => P.yv
  | _ => P.yw

namespace Spec

/-- `∂^(p+q) u_α / ∂x^p ∂y^q` of the field
`u_α = ∑ c_{ijα} f_i(ξ) g_j(η)`, where the coefficients of a panel start at position `s0`
of the vector `c` and are ordered `j` (slow), `i`, component (fast). -/
def disp (S : Shape K) (P : Panel K) (s0 : ℕ) (c : ℕ → K) (α p q : ℕ) (ξ η : K) : K :=
  (2 / P.a) ^ p * (2 / P.b) ^ q *
    ∑ i ∈ range P.m, ∑ j ∈ range P.n,
      c (s0 + 3 * (j * P.m + i) + α) * (S.D p i ξ (P.xf α) * S.D q j η (P.yf α))

/-- Linear Donnell strains of a flat plate:
`exx = u,x ; eyy = v,y ; gxy = u,y + v,x ; kxx = -w,xx ; kyy = -w,yy ; kxy = -2 w,xy`. -/
def plateStrain (S : Shape K) (P : Panel K) (s0 : ℕ) (c : ℕ → K) (s : ℕ) (ξ η : K) : K :=
  match s with
  | 0 => disp S P s0 c 0 1 0 ξ η
  | 1 => disp S P s0 c 1 0 1 ξ η
  | 2 => disp S P s0 c 0 0 1 ξ η + disp S P s0 c 1 1 0 ξ η
  | 3 => - disp S P s0 c 2 2 0 ξ η
  | 4 => - disp S P s0 c 2 0 2 ξ η
  | _ => - 2 * disp S P s0 c 2 1 1 ξ η

/-- Linear Donnell strains of a cylindrical panel of radius `r`: only
`eyy = v,y + w/r` differs. -/
def cylStrain (S : Shape K) (P : Panel K) (s0 : ℕ) (c : ℕ → K) (s : ℕ) (ξ η : K) : K :=
  match s with
  | 1 => disp S P s0 c 1 0 1 ξ η + disp S P s0 c 2 0 0 ξ η / P.r
  | s => plateStrain S P s0 c s ξ η

/-- The 6×6 matrix is a classical-laminate `ABD` matrix: symmetric, with symmetric coupling
block. -/
structure ABDSym (F : ℕ → ℕ → K) : Prop where
  symm : ∀ s t, F s t = F t s
  b12 : F 1 3 = F 0 4
  b16 : F 2 3 = F 0 5
  b26 : F 2 4 = F 1 5

/-- `∑_{s,t} F s t ε_s ε_t`. -/
def dens (N : ℕ) (F : ℕ → ℕ → K) (e : ℕ → K) : K :=
  ∑ s ∈ range N, ∑ t ∈ range N, F s t * e s * e t

end Spec

/-- The integral tables hold the values of the functional `M` on products of shape
functions. -/
structure Tab.Exact (I : Tab K) (S : Shape K) (M : Mean K) : Prop where
  ff : ∀ i j fa fb, I.ff i j fa fb = M.L fun x => S.f i x fa * S.f j x fb
  ffp : ∀ i j fa fb, I.ffp i j fa fb = M.L fun x => S.f i x fa * S.fp j x fb
  ffpp : ∀ i j fa fb, I.ffpp i j fa fb = M.L fun x => S.f i x fa * S.fpp j x fb
  fpfp : ∀ i j fa fb, I.fpfp i j fa fb = M.L fun x => S.fp i x fa * S.fp j x fb
  fpfpp : ∀ i j fa fb, I.fpfpp i j fa fb = M.L fun x => S.fp i x fa * S.fpp j x fb
  fppfpp : ∀ i j fa fb, I.fppfpp i j fa fb = M.L fun x => S.fpp i x fa * S.fpp j x fb

/-- The shape functions belong to the class on which `M` is linear. -/
def Shape.In (S : Shape K) (M : Mean K) : Prop :=
  ∀ p i fl, (fun x => S.D p i x fl) ∈ M.C

end Verif
