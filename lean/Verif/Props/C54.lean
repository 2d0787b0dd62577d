import Verif.Model.Shell
import Mathlib.Tactic.NormNum
import Mathlib.Algebra.Order.Ring.Rat
import Verif.Spec.Witness

/-!
# C54: rebuilding

The claim that a rebuild uses the current definition of the laminate and of `r` does not hold for
edit sequences: the model name and the lists per ply are filled once and kept.
-/

namespace Verif.C54

open Model

variable {K : Type} [Field K] [DecidableEq K]

/-- Success of `_rebuild`, spelled out. -/
theorem rebuild_ok_iff (E : Env K) (s t : Shell K) : s.rebuild E = .ok t ↔
    (∃ k, kindOf (s.model.getD (defaultModel s.r)) = some k) ∧ s.stack ≠ [] ∧
    (s.laminaprops ≠ [] ∨ s.laminaprop ≠ []) ∧ (s.plyts ≠ [] ∨ s.plyt ≠ none) ∧
    ∃ lam, E.mkLam s.stack (orFill s.plyts (s.plyt.getD 0) s.stack)
        (orFill s.laminaprops s.laminaprop s.stack) (orFill s.rhos s.rho s.stack) s.offset = .ok lam ∧
      t = { s with
          nx := max s.nx s.pan.m
          ny := max s.ny s.pan.n
          model := some (s.model.getD (defaultModel s.r))
          laminaprops := orFill s.laminaprops s.laminaprop s.stack
          rhos := orFill s.rhos s.rho s.stack
          plyts := orFill s.plyts (s.plyt.getD 0) s.stack
          lam := some { lam with ABD := lamABD (s.forceOrtho && E.shared) lam.ABD }
          ABD := some (lamABD s.forceOrtho lam.ABD)
          size := some (3 * s.pan.m * s.pan.n) } := by
  constructor
  · intro h
    unfold Shell.rebuild at h
    simp only at h
    split at h; · cases h
    rename_i h1
    split at h; · cases h
    rename_i h2
    split at h; · cases h
    rename_i h3
    split at h; · cases h
    rename_i h4
    split at h; · cases h
    rename_i lam hl
    cases h
    refine ⟨?_, ?_, ?_, ?_, lam, hl, rfl⟩
    · exact Option.isSome_iff_exists.1 (by simpa [Option.isSome_iff_ne_none] using h1)
    · simpa using h2
    · rw [Bool.and_eq_true, not_and_or] at h3
      simpa using h3
    · rw [Bool.and_eq_true, not_and_or] at h4
      simpa using h4
  · rintro ⟨⟨k, hk⟩, h2, h3, h4, lam, hl, rfl⟩
    unfold Shell.rebuild
    simp only
    rw [if_neg (by simp [hk]), if_neg (by simpa using h2), if_neg, if_neg, hl]
    · rw [Bool.and_eq_true, not_and_or]; simpa using h4
    · rw [Bool.and_eq_true, not_and_or]; simpa using h3

theorem orFill_ne_nil {α : Type} (l : List α) (x : α) {stack : List K} (h : stack ≠ []) :
    orFill l x stack ≠ [] := by
  unfold orFill
  split
  · simpa using h
  · rename_i h; simpa using h

theorem orFill_of_ne {α : Type} {l : List α} (h : l ≠ []) (x : α) (stack : List K) :
    orFill l x stack = l := by
  unfold orFill
  rw [if_neg (by simpa using h)]

/-- Re-running the rebuild changes nothing. -/
theorem idempotent (E : Env K) (s t : Shell K) (h : s.rebuild E = .ok t) : t.rebuild E = .ok t := by
  obtain ⟨⟨k, hk⟩, h2, h3, h4, lam, hl, rfl⟩ := (rebuild_ok_iff E s t).1 h
  have e1 := orFill_ne_nil s.laminaprops s.laminaprop h2
  have e2 := orFill_ne_nil s.rhos s.rho h2
  have e3 := orFill_ne_nil s.plyts (s.plyt.getD 0) h2
  refine (rebuild_ok_iff E _ _).2 ⟨⟨k, hk⟩, h2, .inl e1, .inl e3, lam, ?_, ?_⟩
  · simp only [orFill_of_ne e1, orFill_of_ne e2, orFill_of_ne e3, hl]
  · simp only [orFill_of_ne e1, orFill_of_ne e2, orFill_of_ne e3, Option.getD_some, max_assoc,
      max_self]

/-- Enough integration points for the number of terms. -/
theorem points (E : Env K) (s t : Shell K) (h : s.rebuild E = .ok t) :
    t.pan.m ≤ t.nx ∧ t.pan.n ≤ t.ny ∧ s.nx ≤ t.nx ∧ s.ny ≤ t.ny := by
  obtain ⟨-, -, -, -, lam, -, rfl⟩ := (rebuild_ok_iff E s t).1 h
  exact ⟨le_max_right .., le_max_right .., le_max_left .., le_max_left ..⟩

/-- Geometry, flags, loads and the definition given by the user are not touched. -/
theorem untouched (E : Env K) (s t : Shell K) (h : s.rebuild E = .ok t) :
    t.pan = s.pan ∧ t.r = s.r ∧ t.stack = s.stack ∧ t.plyt = s.plyt ∧ t.laminaprop = s.laminaprop ∧
    t.rho = s.rho ∧ t.offset = s.offset ∧ t.forceOrtho = s.forceOrtho ∧ t.beta = s.beta ∧
    t.gamma = s.gamma ∧ (s.model ≠ none → t.model = s.model) ∧ (s.plyts ≠ [] → t.plyts = s.plyts) ∧
    (s.laminaprops ≠ [] → t.laminaprops = s.laminaprops) ∧ (s.rhos ≠ [] → t.rhos = s.rhos) := by
  obtain ⟨-, -, -, -, lam, -, rfl⟩ := (rebuild_ok_iff E s t).1 h
  refine ⟨rfl, rfl, rfl, rfl, rfl, rfl, rfl, rfl, rfl, rfl, fun h => ?_, fun h => orFill_of_ne h _ _,
    fun h => orFill_of_ne h _ _, fun h => orFill_of_ne h _ _⟩
  cases hm : s.model with
  | none => exact absurd hm h
  | some x => simp [hm]

/-- The size is three times the number of terms. -/
theorem size_eq (E : Env K) (s t : Shell K) (h : s.rebuild E = .ok t) :
    t.size = some (3 * t.pan.m * t.pan.n) ∧ t.getSize = .ok (3 * t.pan.m * t.pan.n) := by
  obtain ⟨⟨k, hk⟩, -, -, -, lam, -, rfl⟩ := (rebuild_ok_iff E s t).1 h
  refine ⟨rfl, ?_⟩
  unfold Shell.getSize
  simp [hk]

/-- The part of the claim that holds: the first rebuild of a panel selects the plate exactly when `r`
is `None`, and uses the current stack, ply thickness, properties and density.  Missing: later
rebuilds after an edit, see `edits_ignored` and `model_kept`. -/
theorem first_rebuild_partial (E : Env K) (s t : Shell K) (h : s.rebuild E = .ok t)
    (hm : s.model = none) (hp : s.plyts = []) (hl : s.laminaprops = []) (hr : s.rhos = []) :
    (t.model = some "plate_clpt_donnell_bardell" ↔ s.r = none) ∧
    (t.model = some "cylshell_clpt_donnell_bardell" ↔ s.r ≠ none) ∧
    ∃ h lam lam', s.plyt = some h ∧
      E.mkLam s.stack (s.stack.map fun _ => h) (s.stack.map fun _ => s.laminaprop)
        (s.stack.map fun _ => s.rho) s.offset = .ok lam ∧
      t.lam = some lam' ∧ lam'.h = lam.h ∧ lam'.intrho = lam.intrho ∧
      t.ABD = some (lamABD s.forceOrtho lam.ABD) := by
  obtain ⟨-, h2, h3, h4, lam, hlam, rfl⟩ := (rebuild_ok_iff E s t).1 h
  refine ⟨?_, ?_, ?_⟩
  · cases hr : s.r <;> simp [hm, hr, defaultModel]
  · cases hr : s.r <;> simp [hm, hr, defaultModel]
  · rw [hp] at h4
    obtain ⟨x, hx⟩ := Option.ne_none_iff_exists'.1 (h4.resolve_left fun h => h rfl)
    refine ⟨x, lam, _, hx, ?_, rfl, rfl, rfl, rfl⟩
    simpa [hp, hl, hr, hx, orFill] using hlam

/-- Finding: once rebuilt, new values of `plyt`, `laminaprop` and `rho` change nothing else. -/
theorem edits_ignored (E : Env K) (s t : Shell K) (h : s.rebuild E = .ok t) (plyt : Option K)
    (laminaprop : List K) (rho : K) :
    Shell.rebuild E { t with plyt := plyt, laminaprop := laminaprop, rho := rho }
      = .ok { t with plyt := plyt, laminaprop := laminaprop, rho := rho } := by
  obtain ⟨⟨k, hk⟩, h2, h3, h4, lam, hl, rfl⟩ := (rebuild_ok_iff E s t).1 h
  have e1 := orFill_ne_nil s.laminaprops s.laminaprop h2
  have e2 := orFill_ne_nil s.rhos s.rho h2
  have e3 := orFill_ne_nil s.plyts (s.plyt.getD 0) h2
  refine (rebuild_ok_iff E _ _).2 ⟨⟨k, hk⟩, h2, .inl e1, .inl e3, lam, ?_, ?_⟩
  · simp only [orFill_of_ne e1, orFill_of_ne e2, orFill_of_ne e3, hl]
  · simp only [orFill_of_ne e1, orFill_of_ne e2, orFill_of_ne e3, Option.getD_some, max_assoc,
      max_self]

/-- Finding: the model chosen first is kept whatever happens to `r`. -/
theorem model_kept (E : Env K) (s t : Shell K) (h : s.rebuild E = .ok t) (r : Option K) :
    Shell.rebuild E { t with r := r } = .ok { t with r := r } := by
  obtain ⟨⟨k, hk⟩, h2, h3, h4, lam, hl, rfl⟩ := (rebuild_ok_iff E s t).1 h
  have e1 := orFill_ne_nil s.laminaprops s.laminaprop h2
  have e2 := orFill_ne_nil s.rhos s.rho h2
  have e3 := orFill_ne_nil s.plyts (s.plyt.getD 0) h2
  refine (rebuild_ok_iff E _ _).2 ⟨⟨k, hk⟩, h2, .inl e1, .inl e3, lam, ?_, ?_⟩
  · simp only [orFill_of_ne e1, orFill_of_ne e2, orFill_of_ne e3, hl]
  · simp only [orFill_of_ne e1, orFill_of_ne e2, orFill_of_ne e3, Option.getD_some, max_assoc,
      max_self]

/-- Finding: after a change of the stack the lists per ply keep their old lengths. -/
theorem stack_edit (E : Env K) (s t t' : Shell K) (h : s.rebuild E = .ok t) (stack : List K)
    (h' : Shell.rebuild E { t with stack := stack } = .ok t') :
    t'.plyts = t.plyts ∧ t'.laminaprops = t.laminaprops ∧ t'.rhos = t.rhos := by
  obtain ⟨-, h2, -, -, lam, hl, rfl⟩ := (rebuild_ok_iff E s t).1 h
  have e1 := orFill_ne_nil s.laminaprops s.laminaprop h2
  have e2 := orFill_ne_nil s.rhos s.rho h2
  have e3 := orFill_ne_nil s.plyts (s.plyt.getD 0) h2
  obtain ⟨-, -, -, -, lam', -, rfl⟩ := (rebuild_ok_iff E _ t').1 h'
  exact ⟨orFill_of_ne e3 _ _, orFill_of_ne e1 _ _, orFill_of_ne e2 _ _⟩

/-! ## Concrete case -/

/-- A laminate program that only adds up thickness and mass. -/
def env : Env ℚ where
  S := ⟨fun _ _ _ => 0, fun _ _ _ => 0, fun _ _ _ => 0⟩
  I := ⟨fun _ _ _ _ => 0, fun _ _ _ _ => 0, fun _ _ _ _ => 0, fun _ _ _ _ => 0, fun _ _ _ _ => 0,
    fun _ _ _ _ => 0⟩
  G := ⟨fun _ _ => 0, fun _ _ => 0⟩
  mkLam := fun _ plyts _ rhos _ =>
    .ok ⟨fun i j => if i = j then plyts.sum else 0, plyts.sum, (List.zipWith (· * ·) plyts rhos).sum⟩
  shared := true

/-- A flat panel of four plies, as the user gives it. -/
def shell : Shell ℚ where
  pan := Witness.panel
  r := none
  model := none
  nx := 3
  ny := 20
  stack := [0, 45, 45, 0]
  plyt := some (1 / 8)
  plyts := []
  laminaprop := [142, 9, 1 / 3, 5, 5, 5]
  laminaprops := []
  rho := 3
  rhos := []
  offset := 0
  lam := none
  ABD := none
  forceOrtho := false
  size := none
  Nxx := 0
  Nyy := 0
  Nxy := 0
  NxxCte := 0
  NyyCte := 0
  NxyCte := 0
  flow := "x"
  beta := none
  gamma := none
  rhoAir := none
  Mach := none
  V := none

theorem shell_ok : ∃ t, shell.rebuild env = .ok t ∧ t.lam.map LamObj.h = some (1 / 2) ∧ t.nx = 5 := by
  refine ⟨_, rfl, ?_, rfl⟩
  simp [shell, env, orFill]
  norm_num

/-- Doubling the ply thickness after the first rebuild leaves the laminate half a unit thick. -/
theorem claim_violated : ∃ t t', shell.rebuild env = .ok t ∧
    Shell.rebuild env { t with plyt := some (1 / 4) } = .ok t' ∧
    t'.lam.map LamObj.h = some (1 / 2) ∧ t'.plyt = some (1 / 4) := by
  obtain ⟨t, h, h2, -⟩ := shell_ok
  exact ⟨t, _, h, edits_ignored env shell t h (some (1 / 4)) t.laminaprop t.rho, h2, rfl⟩

example : ∃ t, shell.rebuild env = .ok t ∧ t.rebuild env = .ok t := by
  obtain ⟨t, h, -⟩ := shell_ok
  exact ⟨t, h, idempotent env shell t h⟩

end Verif.C54
