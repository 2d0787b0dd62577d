import Verif.Model.Bay
import Verif.Props.C45

/-!
# C46: entry points that never return

The claim is violated for every input: the keyword `inc` (`MultiDomain.calc_kT`), the function `fcA`
(`Shell.calc_cA`) and the keywords `row0`, `col0` (`StiffPanelBay.calc_cA`) do not exist.
-/

set_option linter.unusedSectionVars false

namespace Verif.C46

open Model

variable {K : Type} [Field K] [LinearOrder K]

/-- `Shell.calc_cA` of a panel with a model of the data base raises `AttributeError`. -/
theorem shell_cA (E : Env K) (s : Shell K) (k : Kind) (hk : s.model.bind kindOf = some k) (mu : K)
    (size : Option ℕ) (finalize : Bool) :
    s.calcCA E mu size finalize = .error (.raised .attributeError) := by
  unfold Shell.calcCA Shell.getSize
  cases size <;> cases k <;> simp [hk, bind, Except.bind, numNames]

/-- `Shell.calc_cA` never returns a matrix. -/
theorem shell_cA_never (E : Env K) (s : Shell K) (mu : K) (size : Option ℕ) (finalize : Bool)
    (L : Coo K) : s.calcCA E mu size finalize ≠ .ok L := by
  cases hk : s.model.bind kindOf with
  | some k => rw [shell_cA E s k hk]; exact fun h => by cases h
  | none =>
    unfold Shell.calcCA Shell.getSize
    cases size <;> simp [hk, bind, Except.bind]

/-- `MultiDomain.calc_kT` raises `TypeError` for every assembly with a panel, whatever the panels,
the connections and the state are. -/
theorem multi_kT (E : Env K) (shells : ℕ → Shell K) (place : ℕ → Option Place) (p : ℕ)
    (ps : List ℕ) (conn : Option (List (ConnD K))) (c : Option (CArg K)) (finalize : Bool) :
    (Multi.init shells place (p :: ps) conn).calcKT E c finalize = .error (.raised .typeError) := by
  have hp : ∃ q, (Multi.init shells place (p :: ps) conn).place p = some q := by
    have key : ∀ (l : List ℕ) (st : ℕ × ℕ × (ℕ → Option Place)), (∃ q, st.2.2 p = some q) →
        ∃ q, (l.foldl (placeStep shells) st).2.2 p = some q := by
      intro l
      induction l with
      | nil => exact fun st h => h
      | cons a l ih =>
        intro st h
        refine ih _ ?_
        simp only [placeStep]
        split
        · exact ⟨_, rfl⟩
        · exact h
    exact key ps _ ⟨_, if_pos rfl⟩
  obtain ⟨q, hq⟩ := hp
  unfold Multi.calcKT
  have : (Multi.init shells place (p :: ps) conn).panels = p :: ps := rfl
  rw [this]
  unfold panelLoop
  simp only [hq]
  have hb : bindArgs kCparams kTkeywords = .error (.raised .typeError) := by decide
  simp only [hb, bind, Except.bind]

/-- `StiffPanelBay.calc_cA` never returns a matrix. -/
theorem bay_cA_never (E : BayEnv K) (B : Bay K) (R : Coo K × Bay K) : B.calcCA E ≠ .ok R := by
  intro h
  unfold Bay.calcCA at h
  have hb : bindArgs cAparams ["size", "row0", "col0", "silent"] = .error (.raised .typeError) := by
    decide
  simp only [bind, Except.bind, hb] at h
  split at h
  · cases h
  split at h
  · cases h
  split at h
  · cases h
  split at h <;> cases h

/-- `StiffPanelBay.calc_cA` of a bay that can be rebuilt, with panels, a size and a complete flight
condition raises `TypeError`. -/
theorem bay_cA (E : BayEnv K) (B B' : Bay K) (h1 : B.rebuild E = .ok B') (n : ℕ)
    (h2 : B'.getSize = .ok n) (h3 : B'.aeroChecks = .ok ()) (h4 : B'.panels ≠ []) :
    B.calcCA E = .error (.raised .typeError) := by
  unfold Bay.calcCA
  have hb : bindArgs cAparams ["size", "row0", "col0", "silent"] = .error (.raised .typeError) := by
    decide
  simp only [bind, Except.bind, h1, h2, h3]
  cases h : B'.panels with
  | nil => exact absurd h h4
  | cons p ps => simp [hb]

/-- A flat bay with one panel, in a flow of Mach 2. -/
def bay : Bay ℚ where
  skin := Witness.panel
  r := some 5
  model := none
  stack := [0]
  plyt := some (1 / 2)
  plyts := []
  laminaprop := [1]
  laminaprops := []
  rho := 1
  beta := none
  Mach := some 2
  V := some 3
  rhoAir := some 1
  speedSound := some 1
  panels := []
  blade1 := []
  blade2 := []

/-- Surroundings with one ply per laminate. -/
def benv : BayEnv ℚ where
  toEnv := C54.env
  plies := fun _ t _ => .ok (t.map fun h => ⟨h, 2, 1, 0, 3⟩)

example : C54.shell.model.bind kindOf = none ∧
    (C54.shell.rebuild C54.env).toOption.bind (fun t => t.model.bind kindOf) = some .plate := by
  decide +kernel

example : C45.two.panels = 0 :: [1] := rfl

example : ∃ B', (bay.addPanel 0 1 none none none none none none none).rebuild benv = .ok B' ∧
    B'.getSize = .ok (3 * bay.skin.m * bay.skin.n) ∧ B'.aeroChecks = .ok () ∧ B'.panels ≠ [] := by
  refine ⟨_, rfl, rfl, ?_, by simp⟩
  decide +kernel

end Verif.C46
