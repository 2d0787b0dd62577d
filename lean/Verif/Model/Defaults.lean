import Verif.Model.Types

/-!
# Edge flags of new panels and bays
-/

namespace Verif.Model

variable {K : Type*} [Zero K] [One K]

/-- A panel with the flags of `Shell.__init__` (`panels/shell.py` lines 165-188): the displacements
vanish at the four edges, which are free to rotate. -/
def shellDefault (P : Panel K) : Panel K :=
  { P with
    xu := ⟨0, 1, 0, 1⟩, xv := ⟨0, 1, 0, 1⟩, xw := ⟨0, 1, 0, 1⟩
    yu := ⟨0, 1, 0, 1⟩, yv := ⟨0, 1, 0, 1⟩, yw := ⟨0, 1, 0, 1⟩ }

/-- A panel with the flags of `StiffPanelBay.__init__` (`panels/stiffpanelbay/stiffpanelbay.py` lines
79-103): the membrane displacements have no boundary terms at all. -/
def bayDefault (P : Panel K) : Panel K :=
  { P with
    xu := ⟨0, 0, 0, 0⟩, xv := ⟨0, 0, 0, 0⟩, xw := ⟨0, 1, 0, 1⟩
    yu := ⟨0, 0, 0, 0⟩, yv := ⟨0, 0, 0, 0⟩, yw := ⟨0, 1, 0, 1⟩ }

end Verif.Model
