import Verif.Spec.UnitsShell
import Verif.Model.MultiForce
import Verif.Model.MultiField

/-!
# Specification: an assembly in other units
-/

namespace Verif.Spec.UnitSys

open Model

variable {K : Type} [Field K] [LinearOrder K] (U : UnitSys K)

/-- A connection: its positions are lengths. -/
def connD (d : ConnD K) : ConnD K :=
  { d with
    xcte1 := d.xcte1.map (U.len * ·)
    xcte2 := d.xcte2.map (U.len * ·)
    ycte1 := d.ycte1.map (U.len * ·)
    ycte2 := d.ycte2.map (U.len * ·) }

/-- An assembly: its panels, its connections and the stored matrix of the connections. -/
def multi (M : Multi K) : Multi K :=
  { M with
    shells := fun p => U.shell (M.shells p)
    conn := M.conn.map (List.map U.connD)
    kCconn := M.kCconn.map (scale U.line) }

/-- Forces on the unknowns. -/
def forces (f : VecW K) : VecW K := f.map fun w => (w.1, U.force * w.2)

/-- The part of a panel in a field. -/
def sampled {α β : Type} (g : α → β) (t : Sampled K α) : Sampled K β :=
  ⟨t.panel, t.x.map (U.len * ·), t.y.map (U.len * ·), g t.val⟩

end Verif.Spec.UnitSys
