import Verif.Spec.UnitsMulti
import Verif.Model.TStiff

/-!
# Specification: the ready-made assemblies in other units
-/

namespace Verif.Spec.UnitSys

open Model

variable {K : Type} [Field K] [LinearOrder K] (U : UnitSys K)

/-- A panel with its position and its loads. -/
def part (p : Part K) : Part K where
  group := p.group
  x0 := U.len * p.x0
  y0 := U.len * p.y0
  shell := U.shell p.shell
  loads := U.loads p.loads

/-- An assembly and its list of connections. -/
def assy (A : Assy K) : Assy K where
  part := fun i => U.part (A.part i)
  count := A.count
  conns := A.conns.map U.connD

/-- Arguments of the cylinders: numbers of panels and terms and angles have no dimension. -/
def cylArgs (q : CylArgs K) : CylArgs K :=
  { q with
    height := U.len * q.height
    r := U.len * q.r
    plyt := U.len * q.plyt
    laminaprop := U.lamina q.laminaprop }

/-- Arguments of the panels with a T stiffener: the defect is given as a part of the length. -/
def tArgs (q : TArgs K) : TArgs K :=
  { q with
    a := U.len * q.a
    b := U.len * q.b
    ys := U.len * q.ys
    bb := U.len * q.bb
    bf := U.len * q.bf
    rho := U.rho * q.rho
    plyt := U.len * q.plyt
    laminaprop := U.lamina q.laminaprop
    NxxSkin := U.line * q.NxxSkin
    NxxBase := U.line * q.NxxBase
    NxxFlange := U.line * q.NxxFlange
    r := q.r.map (U.len * ·)
    airSpeed := q.airSpeed.map (U.speed * ·)
    rhoAir := q.rhoAir.map (U.rho * ·) }

/-- A solver of linear equations does not care about units. -/
def Linear (solve : Coo K → (ℕ → K) → Except Fail (ℕ → K)) : Prop := ∀ L f,
  solve (scale U.line L) (fun k => U.force * f k) = (solve L f).map fun c k => U.len * c k

end Verif.Spec.UnitSys
