import Verif.Spec.Units
import Verif.Model.Shell

/-!
# Specification: a panel in other units

Every attribute of a `Shell` and every argument of its methods, multiplied according to its dimension.
-/

namespace Verif.Spec.UnitSys

open Model

variable {K : Type} [Field K] [DecidableEq K] (U : UnitSys K)

/-- A velocity. -/
def speed : K := U.len / U.time

/-- The properties of a ply, `(E1, E2, nu12, G12, G13, G23, …)`: moduli, except for Poisson's ratio at
position 2 and what follows the six. -/
def lamina (l : List K) : List K := l.mapIdx fun i x => if i = 2 ∨ 6 ≤ i then x else U.area * x

/-- A laminate: `intrho` is mass per area. -/
def lamObj (l : LamObj K) : LamObj K where
  ABD := U.abd l.ABD
  h := U.len * l.h
  intrho := U.rho * U.len * l.intrho

/-- A panel with everything it carries. -/
def shell (s : Shell K) : Shell K :=
  { s with
    pan := U.panel s.pan
    r := s.r.map (U.len * ·)
    plyt := s.plyt.map (U.len * ·)
    plyts := s.plyts.map (U.len * ·)
    laminaprop := U.lamina s.laminaprop
    laminaprops := s.laminaprops.map U.lamina
    rho := U.rho * s.rho
    rhos := s.rhos.map (U.rho * ·)
    offset := U.len * s.offset
    lam := s.lam.map U.lamObj
    ABD := s.ABD.map U.abd
    Nxx := U.line * s.Nxx
    Nyy := U.line * s.Nyy
    Nxy := U.line * s.Nxy
    NxxCte := U.line * s.NxxCte
    NyyCte := U.line * s.NyyCte
    NxyCte := U.line * s.NxyCte
    beta := s.beta.map (U.area * ·)
    gamma := s.gamma.map (U.vol * ·)
    rhoAir := s.rhoAir.map (U.rho * ·)
    V := s.V.map (U.speed * ·) }

/-- Amplitudes are lengths. -/
def amps : CArg K → CArg K
  | .vec n f => .vec n fun i => U.len * f i
  | .otherDim => .otherDim
  | .notArray => .notArray

/-- Matrices given per integration point. -/
def lamIn : LamInput K → LamInput K
  | .one F => .one (U.abd F)
  | .field sx sy F => .field sx sy fun p q => U.abd (F p q)
  | .other => .other

/-- Arguments of `calc_kC`, `calc_kG`, `calc_kT`. -/
def kargs (A : KArgs K) : KArgs K :=
  { A with c := A.c.map U.amps, cCte := A.cCte.map U.amps, ABDnxny := A.ABDnxny.map U.lamIn }

/-- Thickness or density per integration point. -/
def field2 (k : K) (f : Field2 K) : Field2 K := ⟨f.sx, f.sy, fun p q => k * f.v p q⟩

/-- The laminate calculator does not care about units: thicknesses, moduli, densities and the offset in
other units give the same laminate in other units (or the same failure). -/
def Homog (E : Env K) : Prop := ∀ stack plyts props rhos offset,
  E.mkLam stack (plyts.map (U.len * ·)) (props.map U.lamina) (rhos.map (U.rho * ·)) (U.len * offset)
    = (E.mkLam stack plyts props rhos offset).map U.lamObj

/-- A point load; prescribed displacements are stored as the forces of their springs. -/
def pload (l : PLoad K) : PLoad K :=
  ⟨U.len * l.x, U.len * l.y, U.force * l.fx, U.force * l.fy, U.force * l.fz⟩

/-- A load per length as a function of the position. -/
def lineFun (f : K → K) (t : K) : K := U.line * f (t / U.len)

/-- A load along a line. -/
def dload (l : DLoad K) : DLoad K :=
  ⟨l.x.map (U.len * ·), l.y.map (U.len * ·), l.fx.map U.lineFun, l.fy.map U.lineFun, l.fz.map U.lineFun⟩

/-- All loads. -/
def loads (L : Loads K) : Loads K where
  pointLoads := L.pointLoads.map U.pload
  pointLoadsInc := L.pointLoadsInc.map U.pload
  distrLoads := L.distrLoads.map U.dload
  distrLoadsInc := L.distrLoadsInc.map U.dload
  pointPds := L.pointPds.map U.pload
  pointPdsInc := L.pointPdsInc.map U.pload
  distrPds := L.distrPds.map U.dload
  distrPdsInc := L.distrPdsInc.map U.dload

/-- Displacements; rotations have no dimension. -/
def uvw (t : UVW K) : UVW K := ⟨U.len * t.u, U.len * t.v, U.len * t.w, t.phix, t.phiy⟩

/-- Strains have no dimension, curvatures are the inverse of a length. -/
def strain (e : ℕ → K) (s : ℕ) : K := if s < 3 then e s else U.len⁻¹ * e s

/-- Membrane forces per length, moments per length. -/
def stress (t : ℕ → K) (s : ℕ) : K := if s < 3 then U.line * t s else U.force * t s

/-- An array of coordinates. -/
def arr (A : Arr K) : Arr K := ⟨A.shape, A.data.map (U.len * ·)⟩

end Verif.Spec.UnitSys
