import Verif.Props.C70

/-!
# C47: strains and stresses at integration points

The values that go with the grids of `C47`: for every panel of the group, in order, the strains and stress
resultants of the panel at its points, computed from its own part of the amplitudes.  With both grids given
the points are those of the caller.
-/

set_option linter.unusedSectionVars false

namespace Verif.C47

open Model Spec C70

variable {S : Shape ℝ} {M : Multi ℝ} {c : ℕ → ℝ} {groupOf : ℕ → String} {group : String}

/-- Every panel has points and the values of the field `g` there. -/
def Fields (M : Multi ℝ) (groupOf : ℕ → String) (group : String) (g : ℕ → ℕ → ℝ → ℝ → ℝ)
    (R : List (Sampled ℝ (List (ℕ → ℝ)))) : Prop :=
  R.map Sampled.panel = M.panels.filter (fun p => groupOf p = group) ∧
  ∀ s ∈ R, s.x.length = s.y.length ∧ Values id 6 (g s.panel) s.x s.y s.val

/-- The points of every panel are the mesh of the grids `x`, `y`. -/
def At (x y : List ℝ) (R : List (Sampled ℝ (List (ℕ → ℝ)))) : Prop :=
  ∀ s ∈ R, s.x = meshX x y ∧ s.y = meshY x y

theorem loop_vals {f : ℕ → List ℝ → List ℝ → Except Fail (List (ℕ → ℝ))} {xg yg : Option (List ℝ)}
    {R : List (Sampled ℝ (List (ℕ → ℝ)))} (h : gaussLoop M groupOf group f M.panels xg yg = .ok R) :
    ∀ s ∈ R, s.x.length = s.y.length ∧ f s.panel s.x s.y = .ok s.val := by
  intro s hs
  obtain ⟨s0, h0⟩ : ∃ s0, R.head? = some s0 := by
    cases R with
    | nil => cases hs
    | cons a _ => exact ⟨a, rfl⟩
  obtain ⟨e1, e2, e3⟩ := first M groupOf group _ M.panels xg yg R h s0 h0 s hs
  exact ⟨by rw [e1, e2, mesh_length], e3⟩

/-- `strain_gauss_points`. -/
theorem strain_values (hS : S.C2) {xg yg : Option (List ℝ)} {cores : ℕ} (hc : 0 < cores) {NL : Bool}
    {R : List (Sampled ℝ (List (ℕ → ℝ)))} (h : M.strainGauss S groupOf c group xg yg cores NL = .ok R) :
    Fields M groupOf group (fun p => strain S (M.shells p).panel (start M p) c NL) R ∧
    ∀ x y, xg = some x → yg = some y → At x y R := by
  refine ⟨⟨panels_of M groupOf group _ M.panels xg yg R h, fun s hs => ?_⟩, ?_⟩
  · obtain ⟨hl, hv⟩ := loop_vals h s hs
    exact ⟨hl, strain_of hS hc hl hv⟩
  · rintro x y rfl rfl s hs
    exact ⟨(given M groupOf group _ M.panels x y R h s hs).1, (given M groupOf group _ M.panels x y R h s hs).2.1⟩

/-- `stress_gauss_points`; every panel of the group has a matrix. -/
theorem stress_values (hS : S.C2) {xg yg : Option (List ℝ)} {cores : ℕ} (hc : 0 < cores) {NL : Bool}
    {R : List (Sampled ℝ (List (ℕ → ℝ)))} (h : M.stressGauss S groupOf c group xg yg cores NL = .ok R) :
    (∀ p ∈ M.panels, groupOf p = group → (M.shells p).ABD ≠ none) ∧
    Fields M groupOf group (fun p => stress S (M.shells p).panel (start M p) (abd M p) c NL) R ∧
    ∀ x y, xg = some x → yg = some y → At x y R := by
  have h1 := panels_of M groupOf group _ M.panels xg yg R h
  have key : ∀ s ∈ R, s.x.length = s.y.length ∧ ∃ F, (M.shells s.panel).ABD = some F ∧
      Values id 6 (stress S (M.shells s.panel).panel (start M s.panel) F c NL) s.x s.y s.val := by
    intro s hs
    obtain ⟨hl, hv⟩ := loop_vals h s hs
    exact ⟨hl, stress_of hS hc hl hv⟩
  refine ⟨fun p hp hg => ?_, ⟨h1, fun s hs => ?_⟩, ?_⟩
  · have : p ∈ R.map Sampled.panel := by rw [h1]; exact List.mem_filter.2 ⟨hp, by simpa using hg⟩
    obtain ⟨s, hs, rfl⟩ := List.mem_map.1 this
    obtain ⟨-, F, hF, -⟩ := key s hs
    rw [hF]; simp
  · obtain ⟨hl, F, hF, hv⟩ := key s hs
    have e : abd M s.panel = F := by simp [abd, hF]
    exact ⟨hl, by simpa only [e] using hv⟩
  · rintro x y rfl rfl s hs
    exact ⟨(given M groupOf group _ M.panels x y R h s hs).1, (given M groupOf group _ M.panels x y R h s hs).2.1⟩

example : ∃ R, wing.stressGauss (bardellShape ℝ) groups (fun k => k) "skin" (some [0, 1 / 2]) (some [1, 2, 3])
      4 true = .ok R ∧ R.map Sampled.panel = [4, 0] ∧ At [0, 1 / 2] [1, 2, 3] R := by
  obtain ⟨R, h⟩ : ∃ R, wing.stressGauss (bardellShape ℝ) groups (fun k => k) "skin" (some [0, 1 / 2])
      (some [1, 2, 3]) 4 true = .ok R := ⟨_, rfl⟩
  obtain ⟨-, h1, h2⟩ := stress_values bardellShape_C2 (by norm_num) h
  exact ⟨R, h, h1.1, h2 _ _ rfl rfl⟩

end Verif.C47
