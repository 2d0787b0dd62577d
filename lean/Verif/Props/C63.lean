import Verif.Model.BayOut
import Verif.Props.C53
import Verif.Props.C46

/-!
# C63: saving a bay

A bay that is saved should be read back.  `save` first clears the matrices, and for every panel assigns
attributes that a `Shell` cannot have: with a panel nothing is written (`panel_fails`).
-/

set_option linter.unusedSectionVars false

namespace Verif.C63

open Model

variable {K : Type} [Field K] [LinearOrder K]

/-- `kC` is no attribute of a panel. -/
theorem no_slot : slot "kC" = .error (.raised .attributeError) := by decide

/-- With a panel: `AttributeError`. -/
theorem panel_fails (B : Bay K) (hp : B.panels ≠ []) (fs : Files (Bay K)) (name : List Char) :
    B.save fs name = .error (.raised .attributeError) := by
  unfold Bay.save Bay.clearMatrices
  cases h : B.panels with
  | nil => exact absurd h hp
  | cons p ps =>
    unfold List.forM
    rw [no_slot]
    rfl

/-- When saving succeeds, and what is then on the disk. -/
theorem ok_iff (B : Bay K) (fs fs' : Files (Bay K)) (name : List Char) :
    B.save fs name = .ok fs' ↔
      B.panels = [] ∧ fs' = fun f => if f = name ++ bayExt then some B else fs f := by
  constructor
  · intro h
    by_cases hp : B.panels = []
    · refine ⟨hp, ?_⟩
      unfold Bay.save Bay.clearMatrices at h
      rw [hp] at h
      cases h
      rfl
    · rw [panel_fails B hp] at h
      cases h
  · rintro ⟨hp, rfl⟩
    unfold Bay.save Bay.clearMatrices
    rw [hp]
    rfl

/-- A bay without panels is read back, for names as in C53.  Missing: every bay with a panel. -/
theorem round_trip_partial (B : Bay K) (fs fs' : Files (Bay K)) (name : List Char)
    (h : B.save fs name = .ok fs') (hn : ¬ bayExt <:+: name) : load bayExt fs' name = .obj B := by
  obtain ⟨-, rfl⟩ := (ok_iff B fs fs' name).1 h
  exact C53.round_trip_partial bayExt id fs name B hn

/-- The claim fails, for every name, for every bay after `add_panel`. -/
theorem claim_violated (B : Bay K) (y1 y2 : K) (stack plyts plyt laminaprops laminaprop model rho)
    (fs : Files (Bay K)) (name : List Char) :
    (B.addPanel y1 y2 stack plyts plyt laminaprops laminaprop model rho).save fs name
      = .error (.raised .attributeError) :=
  panel_fails _ (by simp [Bay.addPanel]) fs name

example : ∃ fs', C46.bay.save (fun _ => none) ['a'] = .ok fs' ∧ ¬ bayExt <:+: ['a'] :=
  ⟨_, (ok_iff _ _ _ _).2 ⟨rfl, rfl⟩, by decide⟩

example : (C46.bay.addPanel 0 1 none none none none none none none).panels ≠ [] := by
  simp [Bay.addPanel]

end Verif.C63
