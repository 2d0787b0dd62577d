import Verif.Props.C13
import Verif.Proofs.GeoMass

/-!
# C20: the mass matrix is the kinetic energy of a through-thickness rotation field
-/

namespace Verif.C20

open Spec Model Finset

/-- Twice the kinetic energy per unit area of a layer of thickness `h` and density `rho` at offset
`d`, velocity field `(u, v, w)`; `0.0833333333333333` is the decimal printed in the code for
`1/12`. -/
noncomputable def kinetic (rho h d : ℝ) (u v w : ℝ → ℝ → ℝ) (x y : ℝ) : ℝ :=
  rho * h * ((u x y + d * dx w x y) ^ 2 + (v x y + d * dy w x y) ^ 2 + w x y ^ 2
    + 0.0833333333333333 * h ^ 2 * (dx w x y ^ 2 + dy w x y ^ 2))

theorem c12_eq : (c12 : ℝ) = 0.0833333333333333 := by unfold c12; norm_num

theorem kinetic_disp {S : Shape ℝ} (hS : S.C2) (P : Panel ℝ) (s0 : ℕ) (c : ℕ → ℝ) (rho h d : ℝ)
    (x y : ℝ) : kinetic rho h d (u S P s0 c 0) (u S P s0 c 1) (u S P s0 c 2) x y =
      let D := fun α i j => disp S P s0 c α i j (2 / P.a * x - 1) (2 / P.b * y - 1)
      rho * h * ((D 0 0 0 + d * D 2 1 0) ^ 2 + (D 1 0 0 + d * D 2 0 1) ^ 2 + D 2 0 0 ^ 2)
        + rho * h * (c12 * h ^ 2) * (D 2 1 0 ^ 2 + D 2 0 1 ^ 2) := by
  have e : ∀ α, u S P s0 c α x y = disp S P s0 c α 0 0 (2 / P.a * x - 1) (2 / P.b * y - 1) := by
    intro α; rw [← phys_zero]; rfl
  simp only [kinetic, u_dx hS, u_dy hS, e, ← c12_eq]
  ring

/-- Analytical mass matrices of the plate and of the cylinder. -/
theorem fkM_kinetic {I : Tab ℝ} {S : Shape ℝ} (hI : I.Exact S Mean.integral) (hS : S.C2)
    (P : Panel ℝ) (ha : P.a ≠ 0) (hb : P.b ≠ 0) (d h rho : ℝ) (s0 : ℕ) (c : ℕ → ℝ) :
    let T := ∫ x in (0 : ℝ)..P.a, ∫ y in (0 : ℝ)..P.b,
      kinetic rho h d (u S P s0 c 0) (u S P s0 c 1) (u S P s0 c 2) x y
    Coo.quad (Coo.finalizeSym (plateFkM I P d h rho s0 s0)) c = T ∧
    Coo.quad (Coo.finalizeSym (cylFkM I P d h rho s0 s0)) c = T := by
  intro T
  have hT : T = P.a * P.b / 4 * Mean.integral.L (fun ξ => Mean.integral.L (fun η =>
      Spec.dens 5 (inertia (rho * h) (rho * h * (c12 * h ^ 2)))
        fun s => applyB S P s0 c (massB P.a P.b d) s ξ η)) := by
    simp only [T, kinetic_disp hS]
    rw [integral_rect P.a P.b ha hb (fun ξ η =>
      let D := fun α i j => disp S P s0 c α i j ξ η
      rho * h * ((D 0 0 0 + d * D 2 1 0) ^ 2 + (D 1 0 0 + d * D 2 0 1) ^ 2 + D 2 0 0 ^ 2)
        + rho * h * (c12 * h ^ 2) * (D 2 1 0 ^ 2 + D 2 0 1 ^ 2))]
    congr 2; funext ξ; congr 1; funext η
    obtain ⟨h0, h1, h2, h3, h4⟩ := applyB_mass S P s0 c d ξ η
    rw [dens_mass, h0, h1, h2, h3, h4]
  rw [hT]
  constructor
  · rw [plateFkM, Coo.quad_finalizeSym_pad]
    exact quad_ana hI hS.inMean P s0 c 5 _ (inertia_symm _ _) (massB P.a P.b d)
      (P.a * P.b / 4) Gen.PlateAna.fkM_pat pat7_ok pat7_full (Gen.PlateAna.fkM I P d h rho)
      (fun i k j l a b => plateAna_fkM_zero I P d h rho i k j l a b)
      (fun i k j l a b => plate_fkM_entry I P d h rho ha hb i k j l a b)
  · rw [cylFkM, Coo.quad_finalizeSym_pad]
    exact quad_ana hI hS.inMean P s0 c 5 _ (inertia_symm _ _) (massB P.a P.b d)
      (P.a * P.b / 4) Gen.CylAna.fkM_pat pat7_ok pat7_full (Gen.CylAna.fkM I P d h rho)
      (fun i k j l a b => cylAna_fkM_zero I P d h rho i k j l a b)
      (fun i k j l a b => cyl_fkM_entry I P d h rho ha hb i k j l a b)

/-- Numerical mass matrix, thickness and density per integration point; arrays of the wrong shape
are rejected. -/
theorem fkM_num_kinetic {S : Shape ℝ} (hS : S.C2) (G : GaussTab ℝ) (P : Panel ℝ) (ha : P.a ≠ 0)
    (hb : P.b ≠ 0) (d : ℝ) (h rho : ℕ → ℕ → ℝ) (c : ℕ → ℝ) (s0 nx ny : ℕ) :
    (∃ L, fkMnum S G P d (.field nx ny h rho) s0 s0 nx ny = .ok L ∧
      Coo.quad (Coo.finalizeSym L) c = gaussP G nx ny P fun p q x y =>
        kinetic (rho p q) (h p q) d (u S P s0 c 0) (u S P s0 c 1) (u S P s0 c 2) x y) ∧
    (∀ h0 rho0, ∃ L, fkMnum S G P d (.one h0 rho0) s0 s0 nx ny = .ok L ∧
      Coo.quad (Coo.finalizeSym L) c = gaussP G nx ny P fun _ _ x y =>
        kinetic rho0 h0 d (u S P s0 c 0) (u S P s0 c 1) (u S P s0 c 2) x y) ∧
    ∀ sx sy, (sx ≠ nx ∨ sy ≠ ny) →
      fkMnum S G P d (.field sx sy h rho) s0 s0 nx ny = .error .valueError := by
  simp only [kinetic_disp hS]
  refine ⟨⟨fkMnumF S G P d h rho s0 s0 nx ny, by simp [fkMnum], ?_⟩, ?_, ?_⟩
  · exact fkMnum_quad S G P ha hb d h rho c s0 nx ny
  · intro h0 rho0
    exact ⟨_, rfl, fkMnum_quad S G P ha hb d (fun _ _ => h0) (fun _ _ => rho0) c s0 nx ny⟩
  · intro sx sy hne
    have : ¬ (sx = nx ∧ sy = ny) := by tauto
    simp [fkMnum, this]

theorem kinetic_nonneg (rho h d : ℝ) (hr : 0 ≤ rho) (hh : 0 ≤ h) (u v w : ℝ → ℝ → ℝ) (x y : ℝ) :
    0 ≤ kinetic rho h d u v w x y := by
  unfold kinetic
  have : (0 : ℝ) ≤ 0.0833333333333333 := by norm_num
  positivity

/-- Hence `kM` is positive semidefinite for non-negative density and thickness. -/
theorem fkM_psd {I : Tab ℝ} {S : Shape ℝ} (hI : I.Exact S Mean.integral) (hS : S.C2)
    (P : Panel ℝ) (ha : 0 < P.a) (hb : 0 < P.b) (d h rho : ℝ) (hr : 0 ≤ rho) (hh : 0 ≤ h)
    (s0 : ℕ) (c : ℕ → ℝ) :
    0 ≤ Coo.quad (Coo.finalizeSym (plateFkM I P d h rho s0 s0)) c ∧
    0 ≤ Coo.quad (Coo.finalizeSym (cylFkM I P d h rho s0 s0)) c := by
  obtain ⟨h1, h2⟩ := fkM_kinetic hI hS P ha.ne' hb.ne' d h rho s0 c
  rw [h1, h2, and_self]
  exact intervalIntegral.integral_nonneg ha.le fun x _ =>
    intervalIntegral.integral_nonneg hb.le fun y _ => kinetic_nonneg _ _ _ hr hh _ _ _ _ _

theorem fkM_num_psd {S : Shape ℝ} (hS : S.C2) (P : Panel ℝ) (ha : P.a ≠ 0)
    (hb : P.b ≠ 0) (hx : (xdom P).1 ≤ (xdom P).2) (hy : (ydom P).1 ≤ (ydom P).2)
    (d : ℝ) (h rho : ℕ → ℕ → ℝ) (hr : ∀ p q, 0 ≤ rho p q)
    (hh : ∀ p q, 0 ≤ h p q) (c : ℕ → ℝ) (s0 nx ny : ℕ) :
    0 ≤ Coo.quad (Coo.finalizeSym (fkMnumF S (gaussTab ℝ) P d h rho s0 s0 nx ny)) c := by
  have := fkMnum_quad S (gaussTab ℝ) P ha hb d h rho c s0 nx ny
  simp only [← kinetic_disp hS] at this
  rw [this]
  exact C13.gaussP_nonneg C13.gaussTab_wt_nonneg _ _ _ hx hy fun p q x y =>
    kinetic_nonneg _ _ _ (hr p q) (hh p q) _ _ _ _ _

example (c : ℕ → ℝ) : let S := Spec.bardellShape ℝ
    Coo.quad (Coo.finalizeSym (plateFkM (Tab.of S Mean.integral) Witness.panel (1/5) (1/10) 7
      12 12)) c
      = ∫ x in (0 : ℝ)..3, ∫ y in (0 : ℝ)..1, kinetic 7 (1/10) (1/5) (u S Witness.panel 12 c 0)
          (u S Witness.panel 12 c 1) (u S Witness.panel 12 c 2) x y :=
  (fkM_kinetic (Tab.of_exact _ _) bardellShape_C2 Witness.panel (by simp [Witness.panel])
    (by simp [Witness.panel]) (1/5) (1/10) 7 12 c).1

example (c : ℕ → ℝ) : 0 ≤ Coo.quad (Coo.finalizeSym (fkMnumF (bardellShape ℝ) (gaussTab ℝ)
    Witness.panel (1/5) (fun p q => 1 + p + q) (fun p _ => 2 + p) 12 12 6 8)) c :=
  fkM_num_psd bardellShape_C2 Witness.panel (by simp [Witness.panel]) (by simp [Witness.panel])
    (by simp [xdom, Witness.panel]) (by simp [ydom, Witness.panel]) _ _ _
    (fun p q => by positivity) (fun p q => by positivity) c 12 6 8

end Verif.C20
