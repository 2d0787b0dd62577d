import Verif.Model.Bay

/-!
# Piston theory: `calc_kA`

`Shell.calc_kA` (`panels/shell.py` lines 628-681) and `StiffPanelBay.calc_kA`
(`panels/stiffpanelbay/stiffpanelbay.py` lines 696-756).  `x**0.5` is a parameter `root` (there is no
square root in an arbitrary field; the theorems about real numbers use `Real.sqrt`).  The asserts on
`nan` and `inf` have no counterpart in exact arithmetic.
-/

namespace Verif.Model

variable {K : Type} [Field K] [LinearOrder K]

/-- The Mach number used: `1` becomes `1.0001` (`panels/shell.py` lines 644-651). -/
def machOf : Option K → Except Fail K
  | none => .error (.raised .valueError)
  | some M =>
    if M < 1 then .error (.raised .valueError)
    else if M = 1 then .ok (10001 / 10000)
    else .ok M

/-- The parameters `beta`, `gamma` (`panels/shell.py` lines 644-662): calculated if `self.beta` is
`None`, otherwise the stored ones.  `self.r` is a number here (line 642).  Result: `beta`, `gamma` and
the attribute `Mach` afterwards. -/
def Shell.piston (root : K → K) (s : Shell K) : Except Fail (K × K × Option K) :=
  match s.beta with
  | some b => .ok (b, s.gamma.getD 0, s.Mach)
  | none => do
    let M ← machOf s.Mach
    let V ← number s.V
    let rho ← number s.rhoAir
    let beta := rho * V ^ 2 / root (M ^ 2 - 1)
    let gamma := if s.r.getD 0 ≠ 0 then beta * 1 / (2 * s.r.getD 0 * root (M ^ 2 - 1)) else 0
    return (beta, gamma, some M)

/-- The builder for the flow direction (`panels/shell.py` lines 664-669). -/
def Shell.fkA (E : Env K) (k : Kind) (s : Shell K) (beta gamma : K) (row0 col0 : ℕ) :
    Except Fail (Coo K) :=
  if lower s.flow = "x" then
    .ok (match k with
      | .plate => plateFkAxNum E.S E.G s.panel beta gamma row0 col0 s.nx s.ny
      | .cyl => cylFkAxNum E.S E.G s.panel beta gamma row0 col0 s.nx s.ny)
  else if lower s.flow = "y" then .ok (fkAyNum E.S E.G s.panel beta row0 col0 s.nx s.ny)
  else .error (.raised .valueError)

/-- `make_skew_symmetric` if asked for. -/
def finSkew (finalize : Bool) (L : Coo K) : Coo K := if finalize then Coo.finalizeSkew L else L

/-- `Shell.calc_kA` (`panels/shell.py` lines 628-681). -/
def Shell.calcKA (root : K → K) (E : Env K) (s : Shell K) (size : SizeArg) (row0 col0 : ℕ)
    (finalize : Bool := true) : Except Fail (Coo K × Shell K) := do
  let k ← key (s.model.bind kindOf)
  let size := size.value (3 * s.pan.m * s.pan.n)
  let s := s.fixR
  let (beta, gamma, M) ← s.piston root
  let s := { s with beta := some beta, gamma := some gamma, Mach := M }
  let L ← s.fkA E k beta gamma row0 col0
  let kA ← toSparse size L
  return (finSkew finalize kA, s)

/-- A `StiffPanelBay` with the attributes that only `calc_kA` needs.  `size` is set by `get_size`
(line 218) and does not exist before (`stiffpanelbay.py` lines 41-117). -/
structure AeroBay (K : Type*) extends Bay K where
  flow : String
  gamma : Option K
  aeromu : Option K
  size : Option ℕ

/-- The flight condition in `StiffPanelBay.calc_kA` (lines 705-723).  The numbers calculated are not
used; what remains are the failures and `self.Mach = 1.0001`.  `Mach*ainf = 0` would be a
`ZeroDivisionError`, which is not modelled. -/
def AeroBay.flight (B : AeroBay K) : Except Fail (Option K) :=
  match B.beta with
  | some _ => .ok B.Mach
  | none => do
    let M ← number B.Mach
    let M ← machOf (some M)
    let _ ← number B.rhoAir
    let _ ← number B.V
    let _ ← number B.speedSound
    return some M

/-- `StiffPanelBay.calc_kA` (lines 696-756): the matrix, its number of rows and the bay afterwards. -/
def AeroBay.calcKA (root : K → K) (E : BayEnv K) (B : AeroBay K) :
    Except Fail (Coo K × ℕ × AeroBay K) := do
  let B' ← B.toBay.rebuild E
  let B : AeroBay K := { B with toBay := B' }
  let M ← B.flight
  let B : AeroBay K := { B with Mach := M }
  match B.panels with
  | [] => .error (.raised .indexError)
  | p :: ps =>
    match B.size with
    | none => .error (.raised .attributeError)
    | some n =>
      let p := { p with flow := B.flow, Mach := B.Mach, rhoAir := B.rhoAir, size := some n, V := B.V,
                        r := B.r }
      let (L, p) ← p.calcKA root E.toEnv .none 0 0 false
      return (Coo.finalizeSkew L, 3 * p.pan.m * p.pan.n, { B with panels := p :: ps })

/-- A call of `calc_kC`, which also calls `get_size`. -/
def AeroBay.calcKC (E : BayEnv K) (B : AeroBay K) : Except Fail (Coo K × AeroBay K) := do
  let (L, B') ← B.toBay.calcKC E
  let n ← B'.getSize
  return (L, { B with toBay := B', size := some n })

end Verif.Model
