import Verif.Spec.Field

/-!
# Specification: tensor-product Gauss rules on a rectangle, von Karman strains
-/

namespace Verif.Spec

open Finset

variable {K : Type*} [Field K]

/-- Point `i` of the `n`-point rule, mapped from `[-1, 1]` to `[lo, hi]`. -/
def node (G : GaussTab K) (n : ℕ) (lo hi : K) (i : ℕ) : K :=
  (lo + hi) / 2 + (hi - lo) / 2 * G.pt n i

/-- The `nx × ny` Gauss rule on `[x1, x2] × [y1, y2]` applied to `g p q x y` (the integrand may
depend on the number of the point, as when laminate data are tabulated). -/
def gauss (G : GaussTab K) (nx ny : ℕ) (x1 x2 y1 y2 : K) (g : ℕ → ℕ → K → K → K) : K :=
  ∑ p ∈ range nx, ∑ q ∈ range ny,
    (G.wt nx p * ((x2 - x1) / 2)) * (G.wt ny q * ((y2 - y1) / 2)) *
      g p q (node G nx x1 x2 p) (node G ny y1 y2 q)

/-- Integration domain of a panel along `x`: `[x1, x2]` if both limits are given (different from
`-1`), otherwise the whole side. -/
def xdom [DecidableEq K] (P : Panel K) : K × K :=
  if P.x1 ≠ -1 ∧ P.x2 ≠ -1 then (P.x1, P.x2) else (0, P.a)

/-- Integration domain of a panel along `y`. -/
def ydom [DecidableEq K] (P : Panel K) : K × K :=
  if P.y1 ≠ -1 ∧ P.y2 ≠ -1 then (P.y1, P.y2) else (0, P.b)

/-- `gauss` over the integration domain of a panel. -/
def gaussP [DecidableEq K] (G : GaussTab K) (nx ny : ℕ) (P : Panel K)
    (g : ℕ → ℕ → K → K → K) : K :=
  gauss G nx ny (xdom P).1 (xdom P).2 (ydom P).1 (ydom P).2 g

/-- Linear Donnell strains on a surface of curvature `kappa`, at a physical point. -/
def lin (kappa : K) (S : Shape K) (P : Panel K) (s0 : ℕ) (c : ℕ → K) (s : ℕ) (x y : K) : K :=
  let D := fun α p q => disp S P s0 c α p q (2 / P.a * x - 1) (2 / P.b * y - 1)
  match s with
  | 0 => D 0 1 0
  | 1 => D 1 0 1 + kappa * D 2 0 0
  | 2 => D 0 0 1 + D 1 1 0
  | 3 => - D 2 2 0
  | 4 => - D 2 0 2
  | _ => - 2 * D 2 1 1

/-- First variation of the von Karman strains at the deflection of `c` in the direction `d`:
linear strain of `d` plus `w,x δw,x`, `w,y δw,y`, `w,x δw,y + w,y δw,x`. -/
def vkVar (kappa : K) (S : Shape K) (P : Panel K) (s0 : ℕ) (c d : ℕ → K) (s : ℕ) (x y : K) : K :=
  let W := fun p q => disp S P s0 c 2 p q (2 / P.a * x - 1) (2 / P.b * y - 1)
  let D := fun p q => disp S P s0 d 2 p q (2 / P.a * x - 1) (2 / P.b * y - 1)
  lin kappa S P s0 d s x y +
    match s with
    | 0 => W 1 0 * D 1 0
    | 1 => W 0 1 * D 0 1
    | 2 => W 1 0 * D 0 1 + W 0 1 * D 1 0
    | _ => 0

/-- Strains with the squares of the slopes, the product `w,x w,y` in the shear strain being
multiplied by `g`. -/
def vkWith (g kappa : K) (S : Shape K) (P : Panel K) (s0 : ℕ) (c : ℕ → K) (s : ℕ) (x y : K) : K :=
  let W := fun p q => disp S P s0 c 2 p q (2 / P.a * x - 1) (2 / P.b * y - 1)
  lin kappa S P s0 c s x y +
    match s with
    | 0 => W 1 0 ^ 2 / 2
    | 1 => W 0 1 ^ 2 / 2
    | 2 => g * (W 1 0 * W 0 1)
    | _ => 0

/-- Von Karman strains (Green-Lagrange strains with only the squares and products of the slopes
kept): `½ w,x²`, `½ w,y²`, `w,x w,y` added to the linear strains. -/
def vk (kappa : K) (S : Shape K) (P : Panel K) (s0 : ℕ) (c : ℕ → K) (s : ℕ) (x y : K) : K :=
  vkWith 1 kappa S P s0 c s x y

/-- Stress resultant `s` (`Nxx, Nyy, Nxy, Mxx, Myy, Mxy`) of a strain state. -/
def resultant (F : ℕ → ℕ → K) (e : ℕ → K) (s : ℕ) : K := ∑ t ∈ range 6, F s t * e t

end Verif.Spec
