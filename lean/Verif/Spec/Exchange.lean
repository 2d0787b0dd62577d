import Verif.Spec.Gauss
import Verif.Spec.Work

/-!
# A plate described with the axes exchanged

`x` and `y`, `u` and `v`, length and width, the two numbers of terms and the edges are exchanged; the plate
is the same.
-/

namespace Verif.Spec

open Model

variable {K : Type*} [Field K]

/-- `u` and `v` exchanged. -/
def other (α : ℕ) : ℕ :=
  match α with
  | 0 => 1
  | 1 => 0
  | α => α

/-- `exx` and `eyy`, `kxx` and `kyy` exchanged. -/
def pair (s : ℕ) : ℕ :=
  match s with
  | 0 => 1
  | 1 => 0
  | 3 => 4
  | 4 => 3
  | s => s

/-- `P'` is `P` with the axes exchanged. -/
structure Exchanged [DecidableEq K] (P P' : Panel K) : Prop where
  m : P'.m = P.n
  n : P'.n = P.m
  a : P'.a = P.b
  b : P'.b = P.a
  xf : ∀ α, P'.xf α = P.yf (other α)
  yf : ∀ α, P'.yf α = P.xf (other α)
  xdom : Spec.xdom P' = Spec.ydom P
  ydom : Spec.ydom P' = Spec.xdom P

/-- The laminate seen from the exchanged axes. -/
def flipLam (F : ℕ → ℕ → K) (s t : ℕ) : K := F (pair s) (pair t)

/-- The same force. -/
def flipPoint (l : PLoad K) : PLoad K := ⟨l.y, l.x, l.fy, l.fx, l.fz⟩

/-- The same force per length. -/
def flipLine (l : DLoad K) : DLoad K := ⟨l.y, l.x, l.fy, l.fx, l.fz⟩

/-- The same loads. -/
def flipLoads (L : Loads K) : Loads K where
  pointLoads := L.pointLoads.map flipPoint
  pointLoadsInc := L.pointLoadsInc.map flipPoint
  distrLoads := L.distrLoads.map flipLine
  distrLoadsInc := L.distrLoadsInc.map flipLine
  pointPds := L.pointPds.map flipPoint
  pointPdsInc := L.pointPdsInc.map flipPoint
  distrPds := L.distrPds.map flipLine
  distrPdsInc := L.distrPdsInc.map flipLine

/-- Number `k` of a plate with `m × n` terms belongs to this number of the exchanged one. -/
def flipNo (m n s k : ℕ) : ℕ :=
  if s ≤ k ∧ k < s + 3 * (m * n) then
    s + 3 * ((k - s) / 3 % m * n + (k - s) / 3 / m) + other ((k - s) % 3)
  else k

/-- Amplitudes of the exchanged plate, from those of the plate with `m × n` terms. -/
def flipped (m n s : ℕ) (c : ℕ → K) (k : ℕ) : K := c (flipNo n m s k)

end Verif.Spec
