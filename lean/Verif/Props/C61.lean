import Verif.Model.BayOut
import Verif.Proofs.Fext
import Verif.Props.C52

/-!
# C61: the external forces of a bay

`calc_fext` of a bay should give the vector whose product with the amplitudes is the work of the
forces on the skin (list `forces_skin`).  It succeeds only for a bay without such forces and without 2D
stiffeners (`ok_iff`): the interpolation function refuses an object that is no `Shell`, and a flange
has no list `forces`.
-/

set_option linter.unusedSectionVars false

namespace Verif.C61

open Model Spec Finset

variable {K : Type} [Field K] [LinearOrder K]

/-- `f` is the vector of the forces `F` on the skin `P`: its work on every vector of amplitudes. -/
def Works (S : Shape K) (P : Panel K) (F : List (PLoad K)) (n : ℕ) (f : ℕ → K) : Prop :=
  ∀ c, ∑ k ∈ range n, f k * c k = (F.map (pointWork (Spec.field S P 0 c))).sum

theorem no_forces_slot : slot "forces" = .error (.raised .attributeError) := by decide

/-- A force on the skin is refused. -/
theorem force_fails {S : Shape K} {forces : Shell K → List (PLoad K)} {B : OutBay K} {n : ℕ}
    (hn : B.skinSize = .ok n) (hF : B.forcesSkin ≠ []) :
    B.calcFext S forces = .error (.raised .valueError) := by
  unfold OutBay.calcFext
  rw [hn]
  cases h : B.forcesSkin with
  | nil => exact absurd h hF
  | cons l ls =>
    unfold skinForces fgOf
    rw [if_pos (by decide)]
    rfl

theorem flangeForces_cons {S : Shape K} {forces : Shell K → List (PLoad K)} {s : Blade2 K}
    {l : List (Blade2 K)} (f : ℕ × (ℕ → K)) (x : ℕ × (ℕ → K)) :
    flangeForces S forces (s :: l) f ≠ .ok x := by
  intro h
  unfold flangeForces at h
  split at h
  · cases h
  · obtain ⟨n, -, h⟩ := bind_ok.1 h
    obtain ⟨u, hu, h⟩ := bind_ok.1 h
    rw [no_forces_slot] at hu
    cases hu

/-- A bay with a 2D stiffener has no vector of forces. -/
theorem stiffened_fails {S : Shape K} {forces : Shell K → List (PLoad K)} {B : OutBay K}
    (h2 : B.blade2 ≠ []) (x : ℕ × (ℕ → K)) : B.calcFext S forces ≠ .ok x := by
  intro h
  unfold OutBay.calcFext at h
  obtain ⟨n, -, h⟩ := bind_ok.1 h
  obtain ⟨f, -, h⟩ := bind_ok.1 h
  cases hb : B.blade2 with
  | nil => exact h2 hb
  | cons s l =>
    rw [hb] at h
    exact flangeForces_cons _ _ h

/-- When the call succeeds, and with what. -/
theorem ok_iff {S : Shape K} {forces : Shell K → List (PLoad K)} {B : OutBay K} (x : ℕ × (ℕ → K)) :
    B.calcFext S forces = .ok x ↔ B.model.bind kindOf ≠ none ∧ B.forcesSkin = [] ∧ B.blade2 = [] ∧
      x = (3 * B.skin.m * B.skin.n, fun _ => 0) := by
  constructor
  · intro h
    have h2 : B.blade2 = [] := by
      by_contra h2
      exact stiffened_fails h2 x h
    have hn : ∃ n, B.skinSize = .ok n := by
      unfold OutBay.calcFext at h
      obtain ⟨n, hn, h⟩ := bind_ok.1 h
      exact ⟨n, hn⟩
    obtain ⟨n, hn⟩ := hn
    have hF : B.forcesSkin = [] := by
      by_contra hF
      rw [force_fails hn hF] at h
      cases h
    have hn' : B.model.bind kindOf ≠ none ∧ n = 3 * B.skin.m * B.skin.n := by
      unfold Bay.skinSize at hn
      split at hn
      · cases hn
      · next hk => cases hn; exact ⟨by simp [hk], rfl⟩
    unfold OutBay.calcFext at h
    rw [hn, hF, h2] at h
    refine ⟨hn'.1, hF, h2, ?_⟩
    cases h
    rw [hn'.2]
  · rintro ⟨hk, hF, h2, rfl⟩
    unfold OutBay.calcFext Bay.skinSize
    cases hk' : B.model.bind kindOf with
    | none => exact absurd hk' hk
    | some k =>
      rw [hF, h2]
      rfl

/-- What is returned has the size of the bay and does the work of the (absent) forces.  Missing: every
bay with a force or a flange. -/
theorem work_partial {S : Shape K} {forces : Shell K → List (PLoad K)} {B : OutBay K} {n : ℕ}
    {f : ℕ → K} (h : B.calcFext S forces = .ok (n, f)) :
    B.getSize = .ok n ∧ Works S B.skin B.forcesSkin n f := by
  obtain ⟨hk, hF, h2, e⟩ := (ok_iff _).1 h
  cases e
  constructor
  · refine (C52.size_iff B.toBay _).2 ⟨hk, ?_, ?_⟩
    · rw [h2]; simp
    · rw [h2]; simp
  · intro c
    rw [hF]
    simp

/-- If `fg` took the bay and had rows for the rotations, the loop would be right: the vector does the
work of the forces. -/
theorem skin_loop (S : Shape K) (P : Panel K) (F : List (PLoad K)) :
    ∃ f, skinForces "Shell" S P F (fun _ _ => 0) (fun _ => 0) = .ok f ∧
      Works S P F (3 * P.m * P.n) f := by
  have key : ∀ (F : List (PLoad K)) (g : ℕ → ℕ → K) (f0 : ℕ → K), CleanG P g →
      ∃ f, skinForces "Shell" S P F g f0 = .ok f ∧ ∀ c, ∑ k ∈ range (3 * P.m * P.n), f k * c k
        = ∑ k ∈ range (3 * P.m * P.n), f0 k * c k + (F.map (pointWork (Spec.field S P 0 c))).sum := by
    intro F
    induction F with
    | nil => intro g f0 _; exact ⟨f0, rfl, fun c => by simp⟩
    | cons l F ih =>
      intro g f0 hg
      obtain ⟨f, hf, hw⟩ := ih (fg S P g l.x l.y)
        (fun k => f0 k + (l.fx * fg S P g l.x l.y 0 k + l.fy * fg S P g l.x l.y 1 k
          + l.fz * fg S P g l.x l.y 2 k)) (hg.fg l.x l.y)
      refine ⟨f, ?_, fun c => ?_⟩
      · unfold skinForces fgOf
        rw [if_neg (by decide)]
        exact hf
      · have h : ∀ r < 5, ∑ k ∈ range (3 * P.m * P.n), fg S P g l.x l.y r k * c k
            = rowField S P 0 c r l.x l.y := fun r hr => by
          have := fg_dot_field S P g hg l.x l.y r hr 0 c
          simpa only [zero_add, getSize] using this
        have e : ∀ k, (f0 k + (l.fx * fg S P g l.x l.y 0 k + l.fy * fg S P g l.x l.y 1 k
            + l.fz * fg S P g l.x l.y 2 k)) * c k
            = f0 k * c k + (l.fx * (fg S P g l.x l.y 0 k * c k)
              + l.fy * (fg S P g l.x l.y 1 k * c k) + l.fz * (fg S P g l.x l.y 2 k * c k)) :=
          fun k => by ring
        rw [hw]
        simp only [e, sum_add_distrib, ← mul_sum, h 0 (by omega), h 1 (by omega), h 2 (by omega),
          List.map_cons, List.sum_cons, pointWork, rowField, Spec.field]
        ring
  obtain ⟨f, hf, hw⟩ := key F (fun _ _ => 0) (fun _ => 0) (cleanG_zero P)
  exact ⟨f, hf, fun c => by rw [hw c]; simp⟩

/-- A bay of one panel with a force of `3` normal to the skin. -/
def loaded : OutBay ℚ where
  toBay := { C46.bay.addPanel 0 1 none none none none none none none with
    model := some "plate_clpt_donnell_bardell" }
  forcesSkin := [⟨1, 1 / 2, 0, 0, 3⟩]
  stiffeners := []

/-- The claim fails for this bay. -/
theorem claim_violated (S : Shape ℚ) (forces : Shell ℚ → List (PLoad ℚ)) :
    ¬ ∃ n f, loaded.calcFext S forces = .ok (n, f) ∧ Works S loaded.skin loaded.forcesSkin n f := by
  rintro ⟨n, f, h, -⟩
  have := ((ok_iff _).1 h).2.1
  cases this

example : loaded.skinSize = .ok 105 ∧ loaded.forcesSkin ≠ [] := by decide +kernel

example (S : Shape ℚ) (forces : Shell ℚ → List (PLoad ℚ)) :
    ({ loaded with forcesSkin := [] } : OutBay ℚ).calcFext S forces = .ok (105, fun _ => 0) :=
  (ok_iff _).2 ⟨by decide +kernel, rfl, rfl, rfl⟩

example : ∃ B : OutBay ℚ, B.blade2 ≠ [] ∧ B.skinSize.isOk = true := by
  obtain ⟨B, hB⟩ := exists_ok (x := (C52.stiffened C52.ply C52.ply) >>= fun B => B.rebuild C52.env)
    (by decide +kernel)
  have e : ((C52.stiffened C52.ply C52.ply) >>= fun B => B.rebuild C52.env).toOption.map
      (fun B => decide (B.blade2 ≠ []) && B.skinSize.isOk) = some true := by decide +kernel
  rw [hB] at e
  simp only [Except.toOption, Option.map_some, Option.some.injEq, Bool.and_eq_true,
    decide_eq_true_eq] at e
  exact ⟨⟨B, [], []⟩, e⟩

end Verif.C61
