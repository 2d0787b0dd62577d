import Verif.Spec.UnitsShell
import Verif.Model.Bay
import Verif.Model.Aero
import Verif.Model.BayOut

/-!
# Specification: a stiffened bay in other units
-/

namespace Verif.Spec.UnitSys

open Model

variable {K : Type} [Field K] [LinearOrder K] (U : UnitSys K)

/-- A ply: a thickness and moduli. -/
def ply (p : Ply K) : Ply K :=
  ⟨U.len * p.h, U.area * p.q11, U.area * p.q12, U.area * p.q16, U.area * p.q22⟩

/-- The constants of a flange: `E1` is a force per length, `F1` a moment, `S1` a force. -/
def sect (c : Section K) : Section K :=
  ⟨U.len * c.hf, U.line * c.E1, U.force * U.len * c.F1, U.force * c.S1⟩

/-- A stiffener with a flange as a beam; `Jxx` is a second moment of area. -/
def blade1 (s : Blade1 K) : Blade1 K :=
  { s with
    rho := U.rho * s.rho
    ys := U.len * s.ys
    bb := s.bb.map (U.len * ·)
    bf := s.bf.map (U.len * ·)
    bplyts := s.bplyts.map (U.len * ·)
    blaminaprops := s.blaminaprops.map U.lamina
    fplyts := s.fplyts.map (U.len * ·)
    flaminaprops := s.flaminaprops.map U.lamina
    Fx := s.Fx.map (U.force * ·)
    base := s.base.map U.shell
    sec := s.sec.map U.sect
    dbf := U.len * s.dbf
    Jxx := U.len ^ 4 * s.Jxx }

/-- A stiffener with a flange as a panel. -/
def blade2 (s : Blade2 K) : Blade2 K :=
  { s with
    rho := U.rho * s.rho
    ys := U.len * s.ys
    bplyts := s.bplyts.map (U.len * ·)
    blaminaprops := s.blaminaprops.map U.lamina
    base := s.base.map U.shell
    flange := s.flange.map U.shell }

/-- A bay with its panels and stiffeners. -/
def bay (B : Bay K) : Bay K :=
  { B with
    skin := U.panel B.skin
    r := B.r.map (U.len * ·)
    plyt := B.plyt.map (U.len * ·)
    plyts := B.plyts.map (U.len * ·)
    laminaprop := U.lamina B.laminaprop
    laminaprops := B.laminaprops.map U.lamina
    rho := U.rho * B.rho
    beta := B.beta.map (U.area * ·)
    V := B.V.map (U.speed * ·)
    rhoAir := B.rhoAir.map (U.rho * ·)
    speedSound := B.speedSound.map (U.speed * ·)
    panels := B.panels.map U.shell
    blade1 := B.blade1.map U.blade1
    blade2 := B.blade2.map U.blade2 }

/-- A bay in a flow; `aeromu` is a pressure per velocity. -/
def aeroBay (B : AeroBay K) : AeroBay K :=
  { B with
    toBay := U.bay B.toBay
    gamma := B.gamma.map (U.vol * ·)
    aeromu := B.aeromu.map (U.area / U.speed * ·) }

/-- A bay with forces on the skin. -/
def outBay (B : OutBay K) : OutBay K :=
  { B with
    toBay := U.bay B.toBay
    forcesSkin := B.forcesSkin.map U.pload }

/-- What is given of a laminate. -/
def lamArgs (A : LamArgs K) : LamArgs K :=
  { A with
    plyts := A.plyts.map (List.map (U.len * ·))
    plyt := A.plyt.map (U.len * ·)
    laminaprops := A.laminaprops.map (List.map U.lamina)
    laminaprop := A.laminaprop.map U.lamina }

/-- The laminate calculator does not care about units, neither for laminates nor for plies. -/
def HomogBay (E : BayEnv K) : Prop :=
  U.Homog E.toEnv ∧ ∀ stack plyts props,
    E.plies stack (plyts.map (U.len * ·)) (props.map U.lamina)
      = (E.plies stack plyts props).map (List.map U.ply)

/-- A position that is not the mark `-1`, in neither system. -/
def Off (y : K) : Prop := y ≠ -1 ∧ U.len * y ≠ -1

/-- No limit of a panel, a base or a flange, and no edge of a strip below a stiffener, is taken for the mark
`-1`. -/
structure ClearBay (B : Bay K) : Prop where
  panels : ∀ p ∈ B.panels, U.Clear p.pan
  strips : ∀ s ∈ B.blade1, ∀ bb, s.bb = some bb → U.Off (s.ys - bb / 2) ∧ U.Off (s.ys + bb / 2)
  bases1 : ∀ s ∈ B.blade1, ∀ b, s.base = some b → U.Clear b.pan
  bases2 : ∀ s ∈ B.blade2, ∀ b, s.base = some b → U.Clear b.pan
  flanges : ∀ s ∈ B.blade2, ∀ f, s.flange = some f → U.Clear f.pan

end Verif.Spec.UnitSys
