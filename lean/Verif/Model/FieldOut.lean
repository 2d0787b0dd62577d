import Verif.Basic.Assembly
import Verif.Model.Types
import Verif.Model.Num

/-!
# Displacement, strain and stress output

`panels/models/clpt_bardell_field.pyx` and the methods of `panels/shell.py` that call it.
The shape functions are those of `vec_f`, `vec_fp`, `vec_fpp` (`S` here; the tables are
`Model.vecShape`).  The arrays allocated with `malloc(NMAX …)`, `NMAX = 30`, hold at most 30 terms:
the model covers `m, n ≤ 30`.  The threads of `prange` write to different rows, so they are
modelled as a loop over the rows.
-/

namespace Verif.Model

variable {K : Type*} [Field K]

/-- `for j in range(n): for i in range(m): s += t(i, j)`, starting from 0
(`clpt_bardell_field.pyx` lines 220-229). -/
def acc (m n : ℕ) (t : ℕ → ℕ → K) : K :=
  ((List.range n).flatMap fun j => (List.range m).map fun i => t i j).foldl (· + ·) 0

/-- Values returned by `fuvw` at one point. -/
structure UVW (K : Type*) where
  u : K
  v : K
  w : K
  phix : K
  phiy : K

/-- `cfuvw`, `cfwx`, `cfwy` (`clpt_bardell_field.pyx` lines 182-310) at one point, and the change of
sign of the rotations (lines 96-99). -/
def uvwAt (S : Shape K) (P : Panel K) (c : ℕ → K) (x y : K) : UVW K :=
  let xi := 2 * x / P.a - 1
  let eta := 2 * y / P.b - 1
  { u := acc P.m P.n fun i j => c (dof P.m i j + 0) * S.f i xi P.xu * S.f j eta P.yu
    v := acc P.m P.n fun i j => c (dof P.m i j + 1) * S.f i xi P.xv * S.f j eta P.yv
    w := acc P.m P.n fun i j => c (dof P.m i j + 2) * S.f i xi P.xw * S.f j eta P.yw
    phix := (acc P.m P.n fun i j =>
      (2 / P.a) * c (dof P.m i j + 2) * S.fp i xi P.xw * S.f j eta P.yw) * -1
    phiy := (acc P.m P.n fun i j =>
      (2 / P.b) * c (dof P.m i j + 2) * S.f i xi P.xw * S.fp j eta P.yw) * -1 }

/-- `np.hstack((xs, np.zeros(add_size)))` when the number of points is no multiple of `num_cores`
(`clpt_bardell_field.pyx` lines 54-65). -/
def padPts (cores : ℕ) (xs : List K) : List K :=
  let add := cores - xs.length % cores
  let add := if add = cores then 0 else add
  if xs.length % cores ≠ 0 then xs ++ List.replicate add 0 else xs

/-- `reshape(rows, -1)` (`clpt_bardell_field.pyx` lines 61-65). -/
def reshape {α : Type*} (rows : ℕ) (l : List α) : List (List α) :=
  (List.range rows).map fun r => (l.drop (r * (l.length / rows))).take (l.length / rows)

/-- `fuvw` (`clpt_bardell_field.pyx` lines 26-101): the rows of points are treated by different
cores, the results are joined and cut to the number of points.  `xs` and `ys` have the same length
(checked by `_default_field`), `cores` is positive. -/
def fuvw (S : Shape K) (P : Panel K) (c : ℕ → K) (xs ys : List K) (cores : ℕ) : List (UVW K) :=
  let xsCore := reshape cores (padPts cores xs)
  let ysCore := reshape cores (padPts cores ys)
  ((List.zipWith (fun rx ry => List.zipWith (uvwAt S P c) rx ry) xsCore ysCore).flatten).take
    xs.length

/-- `cfstrain` (`clpt_bardell_field.pyx` lines 399-534) at one point; component `s` is
`exx, eyy, gxy, kxx, kyy, kxy`. -/
def strainAt [DecidableEq K] (S : Shape K) (P : Panel K) (c : ℕ → K) (NLgeom : ℕ) (s : ℕ)
    (x y : K) : K :=
  let a := P.a
  let b := P.b
  let r := P.r
  let xi := 2 * x / P.a - 1
  let eta := 2 * y / P.b - 1
  let wxi := acc P.m P.n fun i j => c (dof P.m i j + 2) * S.fp i xi P.xw * S.f j eta P.yw
  let weta := acc P.m P.n fun i j => c (dof P.m i j + 2) * S.f i xi P.xw * S.fp j eta P.yw
  match s with
  | 0 => acc P.m P.n fun i j =>
      c (dof P.m i j + 0) * S.fp i xi P.xu * S.f j eta P.yu * (2 / a)
        + NLgeom * 2 / (a * a) * c (dof P.m i j + 2) * S.fp i xi P.xw * S.f j eta P.yw * wxi
  | 1 => acc P.m P.n fun i j =>
      if r ≠ 0 then
        c (dof P.m i j + 1) * S.f i xi P.xv * S.fp j eta P.yv * (2 / b)
          + 1 / r * c (dof P.m i j + 2) * S.f i xi P.xw * S.f j eta P.yw
          + NLgeom * 2 / (b * b) * c (dof P.m i j + 2) * S.f i xi P.xw * S.fp j eta P.yw * weta
      else
        c (dof P.m i j + 1) * S.f i xi P.xv * S.fp j eta P.yv * (2 / b)
          + NLgeom * 2 / (b * b) * c (dof P.m i j + 2) * S.f i xi P.xw * S.fp j eta P.yw * weta
  | 2 => acc P.m P.n fun i j =>
      c (dof P.m i j + 0) * S.f i xi P.xu * S.fp j eta P.yu * (2 / b)
        + c (dof P.m i j + 1) * S.fp i xi P.xv * S.f j eta P.yv * (2 / a)
        + NLgeom * 4 / (a * b) * (
            c (dof P.m i j + 2) * S.fp i xi P.xw * S.f j eta P.yw * weta +
            wxi * c (dof P.m i j + 2) * S.f i xi P.xw * S.fp j eta P.yw)
  | 3 => acc P.m P.n fun i j =>
      -c (dof P.m i j + 2) * S.fpp i xi P.xw * S.f j eta P.yw * 4 / (a * a)
  | 4 => acc P.m P.n fun i j =>
      -c (dof P.m i j + 2) * S.f i xi P.xw * S.fpp j eta P.yw * 4 / (b * b)
  | _ => acc P.m P.n fun i j =>
      -2 * c (dof P.m i j + 2) * S.fp i xi P.xw * S.fp j eta P.yw * 4 / (a * b)

/-- `fstrain` (`clpt_bardell_field.pyx` lines 104-179): all six components of every point. -/
def fstrain [DecidableEq K] (S : Shape K) (P : Panel K) (c : ℕ → K) (xs ys : List K)
    (cores NLgeom : ℕ) : List (ℕ → K) :=
  let xsCore := reshape cores (padPts cores xs)
  let ysCore := reshape cores (padPts cores ys)
  ((List.zipWith (fun rx ry => List.zipWith (fun x y s => strainAt S P c NLgeom s x y) rx ry)
    xsCore ysCore).flatten).take xs.length

/-! ## `Shell.uvw`, `Shell.strain`, `Shell.stress` -/

/-- A NumPy array: its shape and its elements in row-major order. -/
structure Arr (K : Type*) where
  shape : List ℕ
  data : List K

/-- `np.linspace(lo, hi, num)`. -/
def linspace (lo hi : K) (num : ℕ) : List K :=
  (List.range num).map fun i : ℕ => lo + (i : K) * ((hi - lo) / ((num : K) - 1))

/-- `Shell._default_field` (`panels/shell.py` lines 306-322).  Giving only one of `xs`, `ys` counts
as giving none (line 307). -/
def defaultField (P : Panel K) (xs ys : Option (Arr K)) (gridx gridy : ℕ) :
    Except Err (List K × List K × List ℕ) :=
  let p : Arr K × Arr K :=
    match xs, ys with
    | some xs, some ys => (xs, ys)
    | _, _ =>
      let lx := linspace 0 P.a gridx
      let ly := linspace 0 P.b gridy
      (⟨[gridy, gridx], ly.flatMap fun _ => lx⟩,
       ⟨[gridy, gridx], ly.flatMap fun y => lx.map fun _ => y⟩)
  if p.1.shape ≠ p.2.shape then .error .valueError
  else .ok (p.1.data, p.2.data, p.1.shape)

/-- `Shell.uvw` (`panels/shell.py` lines 705-750): shape and values of the fields. -/
def shellUvw (S : Shape K) (P : Panel K) (c : ℕ → K) (xs ys : Option (Arr K))
    (gridx gridy cores : ℕ) : Except Err (List ℕ × List (UVW K)) := do
  let d ← defaultField P xs ys gridx gridy
  return (d.2.2, fuvw S P c d.1 d.2.1 cores)

/-- `Shell.strain` (`panels/shell.py` lines 753-796). -/
def shellStrain [DecidableEq K] (S : Shape K) (P : Panel K) (c : ℕ → K) (xs ys : Option (Arr K))
    (gridx gridy cores : ℕ) (NLgeom : Bool) : Except Err (List ℕ × List (ℕ → K)) := do
  let d ← defaultField P xs ys gridx gridy
  return (d.2.2, fstrain S P c d.1 d.2.1 cores NLgeom.toNat)

/-- One row of the products in `Shell.stress` (`panels/shell.py` lines 845-850). -/
def stressRow (ABD : ℕ → ℕ → K) (e : ℕ → K) (s : ℕ) : K :=
  e 0 * ABD s 0 + e 1 * ABD s 1 + e 2 * ABD s 2 + e 3 * ABD s 3 + e 4 * ABD s 4 + e 5 * ABD s 5

/-- `Shell.stress` (`panels/shell.py` lines 799-852); `own` is `self.ABD`. -/
def shellStress [DecidableEq K] (S : Shape K) (P : Panel K) (c : ℕ → K)
    (own ABD : Option (ℕ → ℕ → K)) (xs ys : Option (Arr K)) (gridx gridy cores : ℕ)
    (NLgeom : Bool) : Except Err (List ℕ × List (ℕ → K)) := do
  let e ← shellStrain S P c xs ys gridx gridy cores NLgeom
  match ABD.orElse (fun _ => own) with
  | none => .error .valueError
  | some A => return (e.1, e.2.map fun e => stressRow A e)

/-! ## Interpolation matrix for loads and constraints -/

/-- `g[r, c] = v`. -/
def put2 (g : ℕ → ℕ → K) (w : (ℕ × ℕ) × K) : ℕ → ℕ → K :=
  fun r c => if r = w.1.1 ∧ c = w.1.2 then w.2 else g r c

/-- The assignments of `cfg` in program order (`clpt_bardell_field.pyx` lines 377-384). -/
def cfgWrites (S : Shape K) (P : Panel K) (x y : K) : List ((ℕ × ℕ) × K) :=
  let xi := 2 * x / P.a - 1
  let eta := 2 * y / P.b - 1
  (List.range P.n).flatMap fun j => (List.range P.m).flatMap fun i =>
    let col := dof P.m i j
    [((0, col + 0), S.f i xi P.xu * S.f j eta P.yu),
     ((1, col + 1), S.f i xi P.xv * S.f j eta P.yv),
     ((2, col + 2), S.f i xi P.xw * S.f j eta P.yw),
     ((3, col + 2), -(2 / P.a) * S.fp i xi P.xw * S.f j eta P.yw),
     ((4, col + 2), -(2 / P.b) * S.f i xi P.xw * S.fp j eta P.yw)]

/-- `fg(g, x, y, shell)` (`clpt_bardell_field.pyx` lines 313-393): overwrites entries of `g`. -/
def fg (S : Shape K) (P : Panel K) (g : ℕ → ℕ → K) (x y : K) : ℕ → ℕ → K :=
  (cfgWrites S P x y).foldl put2 g

/-- `Shell.get_size` (`panels/shell.py` lines 282-303) with `dofs = 3` (`panels/modelDB.py`). -/
def getSize (P : Panel K) : ℕ := 3 * P.m * P.n

/-- `Shell.calc_stiffness_point_constraint` (`panels/shell.py` lines 1048-1092): the entry `(p, q)`
of the returned matrix, of shape `get_size() × get_size()`. -/
def pointConstraint (S : Shape K) (P : Panel K) (x y : K) (u v w phix phiy : Bool)
    (kuvw kphi : K) (p q : ℕ) : K :=
  let g := fg S P (fun _ _ => 0) x y
  let k := (0 : K)
  let k := if u then k + kuvw * (g 0 p * g 0 q) else k
  let k := if v then k + kuvw * (g 1 p * g 1 q) else k
  let k := if w then k + kuvw * (g 2 p * g 2 q) else k
  let k := if phix then k + kphi * (g 3 p * g 3 q) else k
  let k := if phiy then k + kphi * (g 4 p * g 4 q) else k
  k

end Verif.Model
