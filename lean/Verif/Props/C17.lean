import Verif.Proofs.VkEnergy
import Verif.Spec.Witness

/-!
# C17: the internal force linearises to the linear stiffness
-/

namespace Verif.C17

open Spec Model

theorem disp_zero (S : Shape ℝ) (P : Panel ℝ) (s0 α p q : ℕ) (ξ η : ℝ) :
    disp S P s0 (fun _ => 0) α p q ξ η = 0 := by
  simp [disp]

theorem lin_zero (κ : ℝ) (S : Shape ℝ) (P : Panel ℝ) (s0 s : ℕ) (x y : ℝ) :
    lin κ S P s0 (fun _ => 0) s x y = 0 := by
  unfold lin
  simp only [disp_zero]
  split <;> norm_num

theorem vkWith_zero (g κ : ℝ) (S : Shape ℝ) (P : Panel ℝ) (s0 s : ℕ) (x y : ℝ) :
    vkWith g κ S P s0 (fun _ => 0) s x y = 0 := by
  unfold vkWith
  simp only [lin_zero, disp_zero]
  split <;> norm_num

theorem vkVarWith_zero (g κ : ℝ) (S : Shape ℝ) (P : Panel ℝ) (s0 : ℕ) (d : ℕ → ℝ) (s : ℕ)
    (x y : ℝ) : vkVarWith g κ S P s0 (fun _ => 0) d s x y = lin κ S P s0 d s x y := by
  unfold vkVarWith
  simp only [disp_zero]
  split <;> norm_num

theorem vkVar_zero (κ : ℝ) (S : Shape ℝ) (P : Panel ℝ) (s0 : ℕ) (d : ℕ → ℝ) (s : ℕ)
    (x y : ℝ) : vkVar κ S P s0 (fun _ => 0) d s x y = lin κ S P s0 d s x y := by
  rw [← vkVarWith_one, vkVarWith_zero]

theorem work_zero (F : ℕ → ℕ → ℝ) (e : ℕ → ℝ) : work F (fun _ => 0) e = 0 := by
  simp [work, resultant]

theorem line (G : GaussTab ℝ) (nx ny : ℕ) (P : Panel ℝ) (F : ℕ → ℕ → ℕ → ℕ → ℝ)
    (κ : ℝ) (S : Shape ℝ) (s0 : ℕ) (c d : ℕ → ℝ) : ∃ A B : ℝ, ∀ t : ℝ,
    (gaussP G nx ny P fun p q x y => work (F p q)
        (fun s => vkWith 2 κ S P s0 (fun k => t * c k) s x y)
        (fun s => vkVar κ S P s0 (fun k => t * c k) d s x y))
      = t * (gaussP G nx ny P fun p q x y => work (F p q)
          (fun s => lin κ S P s0 c s x y) (fun s => lin κ S P s0 d s x y))
        + t ^ 2 * A + t ^ 3 * B := by
  have h := fint_line G nx ny P F 2 κ S s0 (fun _ => 0) d c
  have z : (gaussP G nx ny P fun _ _ _ _ => (0 : ℝ)) = 0 := by simp [gaussP, gauss]
  simp only [zero_add, vkWith_zero, vkVarWith_zero, vkVar_zero, work_zero, add_zero, z] at h
  exact ⟨_, _, h⟩

/-- Plate and cylinder, all Ritz vectors: along `t c` the internal force is the numerically
integrated *linear* stiffness (`NLgeom = False`, any state) times `t c`, plus terms in `t²` and
`t³` whose coefficients do not depend on `t`; there is no constant term. -/
theorem fint_linearises (S : Shape ℝ) (G : GaussTab ℝ) (P : Panel ℝ) (ha : P.a ≠ 0)
    (hb : P.b ≠ 0) (F : ℕ → ℕ → ℕ → ℕ → ℝ) (hF : ∀ p q, ABDSym (F p q)) (cs c d : ℕ → ℝ)
    (s0 nx ny : ℕ) :
    (∃ A B : ℝ, ∀ t : ℝ, vdot (plateFintF S G P F (fun k => t * c k) s0 nx ny) d
      = t * Coo.bilin (Coo.finalizeSym (plateFkCnumF S G P F cs s0 s0 nx ny 0)) d c
        + t ^ 2 * A + t ^ 3 * B) ∧
    (P.r ≠ 0 → ∃ A B : ℝ, ∀ t : ℝ, vdot (cylFintF S G P F (fun k => t * c k) s0 nx ny) d
      = t * Coo.bilin (Coo.finalizeSym (cylFkCnumF S G P F cs s0 s0 nx ny 0)) d c
        + t ^ 2 * A + t ^ 3 * B) := by
  constructor
  · obtain ⟨A, B, h⟩ := line G nx ny P F 0 S s0 c d
    refine ⟨A, B, fun t => ?_⟩
    rw [plateFint_work S G P ha hb F hF, plateFkCnum_bilin S G P ha hb F hF]
    simp only [zero_ne_one, if_false]
    exact h t
  · intro hr
    obtain ⟨A, B, h⟩ := line G nx ny P F (1 / P.r) S s0 c d
    refine ⟨A, B, fun t => ?_⟩
    rw [cylFint_work S G P ha hb hr F hF, cylFkCnum_bilin S G P ha hb hr F hF]
    simp only [zero_ne_one, if_false]
    exact h t

theorem vdot_single (L : VecW ℝ) (r : ℕ) : vdot L (fun k => if k = r then 1 else 0) = vget L r := by
  induction L with
  | nil => rfl
  | cons t L ih =>
    simp only [vdot, vget, List.map_cons, List.sum_cons] at ih ⊢
    rw [ih]
    congr 1
    by_cases h : t.1 = r <;> simp [h]

/-- The same for each component of the vector, as a statement on the derivative. -/
theorem fint_derivative_at_zero (S : Shape ℝ) (G : GaussTab ℝ) (P : Panel ℝ) (ha : P.a ≠ 0)
    (hb : P.b ≠ 0) (F : ℕ → ℕ → ℕ → ℕ → ℝ) (hF : ∀ p q, ABDSym (F p q)) (c : ℕ → ℝ)
    (s0 nx ny r : ℕ) :
    vget (plateFintF S G P F (fun _ => 0) s0 nx ny) r = 0 ∧
    HasDerivAt (fun t : ℝ => vget (plateFintF S G P F (fun k => t * c k) s0 nx ny) r)
      (Coo.bilin (Coo.finalizeSym (plateFkCnumF S G P F (fun _ => 0) s0 s0 nx ny 0))
        (fun k => if k = r then 1 else 0) c) 0 ∧
    (P.r ≠ 0 → vget (cylFintF S G P F (fun _ => 0) s0 nx ny) r = 0 ∧
      HasDerivAt (fun t : ℝ => vget (cylFintF S G P F (fun k => t * c k) s0 nx ny) r)
      (Coo.bilin (Coo.finalizeSym (cylFkCnumF S G P F (fun _ => 0) s0 s0 nx ny 0))
        (fun k => if k = r then 1 else 0) c) 0) := by
  obtain ⟨⟨A, B, h1⟩, h2⟩ := fint_linearises S G P ha hb F hF (fun _ => 0) c
    (fun k => if k = r then 1 else 0) s0 nx ny
  simp only [vdot_single] at h1 h2
  refine ⟨by simpa using h1 0, ?_, fun hr => ?_⟩
  · simp only [h1]
    simpa using hasDerivAt_poly 0 (Coo.bilin (Coo.finalizeSym
      (plateFkCnumF S G P F (fun _ => 0) s0 s0 nx ny 0)) (fun k => if k = r then 1 else 0) c) A B 0
  · obtain ⟨A, B, h⟩ := h2 hr
    refine ⟨by simpa using h 0, ?_⟩
    simp only [h]
    simpa using hasDerivAt_poly 0 (Coo.bilin (Coo.finalizeSym
      (cylFkCnumF S G P F (fun _ => 0) s0 s0 nx ny 0)) (fun k => if k = r then 1 else 0) c) A B 0

/-- A matrix times a vector, in coordinates: row `r` of the linear stiffness times `c`. -/
theorem bilin_single (L : Coo ℝ) (c : ℕ → ℝ) (r : ℕ) :
    Coo.bilin L (fun k => if k = r then 1 else 0) c
      = (L.map fun t => if t.row = r then t.val * c t.col else 0).sum := by
  induction L with
  | nil => simp
  | cons t L ih =>
    rw [Coo.bilin_cons, ih, List.map_cons, List.sum_cons]
    congr 1
    by_cases h : t.row = r <;> simp [h]

example (c d : ℕ → ℝ) : let S := Spec.bardellShape ℝ
    ∃ A B : ℝ, ∀ t : ℝ, vdot (cylFintF S (gaussTab ℝ) Witness.panel (fun _ _ => Witness.abd)
        (fun k => t * c k) 12 6 8) d
      = t * Coo.bilin (Coo.finalizeSym (cylFkCnumF S (gaussTab ℝ) Witness.panel
          (fun _ _ => Witness.abd) c 12 12 6 8 0)) d c + t ^ 2 * A + t ^ 3 * B :=
  (fint_linearises _ (gaussTab ℝ) Witness.panel (by simp [Witness.panel])
    (by simp [Witness.panel]) (fun _ _ => Witness.abd) (fun _ _ => Witness.abd_sym) c c d 12 6 8).2
    (by simp [Witness.panel])

end Verif.C17
