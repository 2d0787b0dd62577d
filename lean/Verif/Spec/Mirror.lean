import Verif.Spec.Gauss
import Verif.Spec.Work

/-!
# A structure and its mirror image

`X` / `Y` tell whether the structure is mirrored in the middle line `x = a / 2` / `y = b / 2`; both
together turn it by half a turn.
-/

namespace Verif.Spec

open Model

variable {K : Type*} [Field K]

/-- The sign of a quantity that changes sign with the axis. -/
def sgn (b : Bool) : K := if b then -1 else 1

/-- The two edges exchanged. -/
def turnFlags (b : Bool) (fl : Flags K) : Flags K := if b then ⟨fl.t2, fl.r2, fl.t1, fl.r1⟩ else fl

/-- The mirrored coordinate. -/
def across (b : Bool) (len x : K) : K := if b then len - x else x

/-- `P'` is the mirror image of `P`. -/
structure Turned [DecidableEq K] (X Y : Bool) (P P' : Panel K) : Prop where
  m : P'.m = P.m
  n : P'.n = P.n
  a : P'.a = P.a
  b : P'.b = P.b
  r : P'.r = P.r
  xf : ∀ α, P'.xf α = turnFlags X (P.xf α)
  yf : ∀ α, P'.yf α = turnFlags Y (P.yf α)
  xdom : xdom P' = if X then (P.a - (xdom P).2, P.a - (xdom P).1) else xdom P
  ydom : ydom P' = if Y then (P.b - (ydom P).2, P.b - (ydom P).1) else ydom P

/-- `u` changes sign with `x`, `v` with `y`. -/
def uSign (X Y : Bool) (α : ℕ) : K :=
  match α with
  | 0 => sgn X
  | 1 => sgn Y
  | _ => 1

/-- Shear strain and twist change sign with either axis. -/
def eSign (X Y : Bool) (s : ℕ) : K :=
  match s with
  | 2 => sgn X * sgn Y
  | 5 => sgn X * sgn Y
  | _ => 1

/-- The mirrored laminate: the terms `16`, `26` of the three blocks change sign with either axis. -/
def turnLam (X Y : Bool) (F : ℕ → ℕ → K) (s t : ℕ) : K := eSign X Y s * eSign X Y t * F s t

/-- The mirrored place in a list of `n`. -/
def back (b : Bool) (n p : ℕ) : ℕ := if b then n - 1 - p else p

/-- A mirrored force. -/
def turnPoint (X Y : Bool) (a b : K) (l : PLoad K) : PLoad K :=
  ⟨across X a l.x, across Y b l.y, sgn X * l.fx, sgn Y * l.fy, l.fz⟩

/-- A mirrored force per length: the line, and the functions of the coordinate along it. -/
def turnLine (X Y : Bool) (a b : K) (l : DLoad K) : DLoad K :=
  let t := if l.x.isSome then across Y b else across X a
  ⟨l.x.map (across X a), l.y.map (across Y b), l.fx.map fun f s => sgn X * f (t s),
    l.fy.map fun f s => sgn Y * f (t s), l.fz.map fun f s => f (t s)⟩

/-- Mirrored loads. -/
def turnLoads (X Y : Bool) (a b : K) (L : Loads K) : Loads K where
  pointLoads := L.pointLoads.map (turnPoint X Y a b)
  pointLoadsInc := L.pointLoadsInc.map (turnPoint X Y a b)
  distrLoads := L.distrLoads.map (turnLine X Y a b)
  distrLoadsInc := L.distrLoadsInc.map (turnLine X Y a b)
  pointPds := L.pointPds.map (turnPoint X Y a b)
  pointPdsInc := L.pointPdsInc.map (turnPoint X Y a b)
  distrPds := L.distrPds.map (turnLine X Y a b)
  distrPdsInc := L.distrPdsInc.map (turnLine X Y a b)

/-- Mirrored functions: the function number `i` becomes, up to sign, the function number `twin b i`. -/
def twin (b : Bool) (i : ℕ) : ℕ :=
  if b then
    match i with
    | 0 => 2
    | 1 => 3
    | 2 => 0
    | 3 => 1
    | i => i
  else i

/-- Number of the mirrored term. -/
def twinNo (X Y : Bool) (m n s k : ℕ) : ℕ :=
  if s ≤ k ∧ k < s + 3 * (m * n) then
    s + 3 * (twin Y ((k - s) / 3 / m) * m + twin X ((k - s) / 3 % m)) + (k - s) % 3
  else k

/-- Its sign. -/
def signNo (X Y : Bool) (m n s k : ℕ) : K :=
  if s ≤ k ∧ k < s + 3 * (m * n) then
    uSign X Y ((k - s) % 3) * sgn X ^ ((k - s) / 3 % m) * sgn Y ^ ((k - s) / 3 / m)
  else 1

/-- Mirrored amplitudes of a panel whose block starts at `s`. -/
def turn (X Y : Bool) (m n s : ℕ) (c : ℕ → K) (k : ℕ) : K := signNo X Y m n s k * c (twinNo X Y m n s k)

end Verif.Spec
