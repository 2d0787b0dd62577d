import Verif.Proofs.GeoMass
import Verif.Proofs.Bardell
import Verif.Basic.Entries
import Verif.Spec.Witness

/-!
# C18: the geometric stiffness of prescribed loads is the initial-stress energy
-/

namespace Verif.C18

open Finset

variable {K : Type*} [Field K]

/-- Plate: `cᵀ kG c` is the functional applied to `Nxx w,x² + 2 Nxy w,x w,y + Nyy w,y²`. -/
theorem plate_fkG0_energy [CharZero K] {I : Tab K} {S : Shape K} {M : Mean K} (hI : I.Exact S M)
    (hS : S.In M) (P : Panel K) (ha : P.a ≠ 0) (hb : P.b ≠ 0) (Nxx Nyy Nxy : K)
    (s0 : ℕ) (c : ℕ → K) :
    Coo.quad (Coo.finalizeSym (Model.plateFkG0 I P Nxx Nyy Nxy s0 s0)) c
      = P.a * P.b / 4 * M.L (fun ξ => M.L (fun η =>
          Nxx * Spec.disp S P s0 c 2 1 0 ξ η ^ 2
          + 2 * Nxy * (Spec.disp S P s0 c 2 1 0 ξ η * Spec.disp S P s0 c 2 0 1 ξ η)
          + Nyy * Spec.disp S P s0 c 2 0 1 ξ η ^ 2)) := by
  rw [Model.plateFkG0, Coo.quad_finalizeSym_pad]
  rw [quad_ana hI hS P s0 c 2 (memN Nxx Nyy Nxy) (memN_symm _ _ _) (slopeB P.a P.b)
    (P.a * P.b / 4) Gen.PlateAna.fkG0_pat pat1_ok pat1_full (Gen.PlateAna.fkG0 I P Nxx Nxy Nyy)
    (fun i k j l a b => plateAna_fkG0_zero I P Nxx Nxy Nyy i k j l a b)
    (fun i k j l a b => plate_fkG0_entry I P Nxx Nyy Nxy ha hb i k j l a b)]
  congr 2; funext ξ; congr 1; funext η
  rw [dens_slope, (applyB_slope S P s0 c ξ η).1, (applyB_slope S P s0 c ξ η).2]

/-- Cylinder: the same energy (the curvature plays no role). -/
theorem cyl_fkG0_energy [CharZero K] {I : Tab K} {S : Shape K} {M : Mean K} (hI : I.Exact S M)
    (hS : S.In M) (P : Panel K) (ha : P.a ≠ 0) (hb : P.b ≠ 0) (Nxx Nyy Nxy : K)
    (s0 : ℕ) (c : ℕ → K) :
    Coo.quad (Coo.finalizeSym (Model.cylFkG0 I P Nxx Nyy Nxy s0 s0)) c
      = P.a * P.b / 4 * M.L (fun ξ => M.L (fun η =>
          Nxx * Spec.disp S P s0 c 2 1 0 ξ η ^ 2
          + 2 * Nxy * (Spec.disp S P s0 c 2 1 0 ξ η * Spec.disp S P s0 c 2 0 1 ξ η)
          + Nyy * Spec.disp S P s0 c 2 0 1 ξ η ^ 2)) := by
  rw [Model.cylFkG0, Coo.quad_finalizeSym_pad]
  rw [quad_ana hI hS P s0 c 2 (memN Nxx Nyy Nxy) (memN_symm _ _ _) (slopeB P.a P.b)
    (P.a * P.b / 4) Gen.CylAna.fkG0_pat pat1_ok pat1_full (Gen.CylAna.fkG0 I P Nxx Nxy Nyy)
    (fun i k j l a b => cylAna_fkG0_zero I P Nxx Nxy Nyy i k j l a b)
    (fun i k j l a b => cyl_fkG0_entry I P Nxx Nyy Nxy ha hb i k j l a b)]
  congr 2; funext ξ; congr 1; funext η
  rw [dens_slope, (applyB_slope S P s0 c ξ η).1, (applyB_slope S P s0 c ξ η).2]

/-- Physical form: `cᵀ kG c = ∫₀ᵃ∫₀ᵇ Nxx w,x² + 2 Nxy w,x w,y + Nyy w,y² dy dx`, for plate and
cylinder, with true derivatives of the deflection and true integrals. -/
theorem fkG0_initial_stress {I : Tab ℝ} {S : Shape ℝ} (hI : I.Exact S Mean.integral)
    (hS : S.C2) (P : Panel ℝ) (ha : P.a ≠ 0) (hb : P.b ≠ 0) (Nxx Nyy Nxy : ℝ)
    (s0 : ℕ) (c : ℕ → ℝ) :
    let w := Spec.u S P s0 c 2
    let E := ∫ x in (0 : ℝ)..P.a, ∫ y in (0 : ℝ)..P.b, (Nxx * Spec.dx w x y ^ 2
          + 2 * Nxy * (Spec.dx w x y * Spec.dy w x y) + Nyy * Spec.dy w x y ^ 2)
    Coo.quad (Coo.finalizeSym (Model.plateFkG0 I P Nxx Nyy Nxy s0 s0)) c = E ∧
    Coo.quad (Coo.finalizeSym (Model.cylFkG0 I P Nxx Nyy Nxy s0 s0)) c = E := by
  intro w E
  have hE : E = P.a * P.b / 4 * Mean.integral.L (fun ξ => Mean.integral.L (fun η =>
          Nxx * Spec.disp S P s0 c 2 1 0 ξ η ^ 2
          + 2 * Nxy * (Spec.disp S P s0 c 2 1 0 ξ η * Spec.disp S P s0 c 2 0 1 ξ η)
          + Nyy * Spec.disp S P s0 c 2 0 1 ξ η ^ 2)) := by
    simp only [E, w, ← Spec.phys_zero, Spec.dx_phys hS _ _ _ _ _ _ zero_lt_two,
      Spec.dy_phys hS _ _ _ _ _ _ zero_lt_two, Spec.phys]
    exact Spec.integral_rect P.a P.b ha hb (fun ξ η => Nxx * Spec.disp S P s0 c 2 1 0 ξ η ^ 2
          + 2 * Nxy * (Spec.disp S P s0 c 2 1 0 ξ η * Spec.disp S P s0 c 2 0 1 ξ η)
          + Nyy * Spec.disp S P s0 c 2 0 1 ξ η ^ 2)
  rw [hE]
  exact ⟨plate_fkG0_energy hI hS.inMean P ha hb Nxx Nyy Nxy s0 c,
    cyl_fkG0_energy hI hS.inMean P ha hb Nxx Nyy Nxy s0 c⟩

example (c : ℕ → ℝ) : let S := Spec.bardellShape ℝ
    let w := Spec.u S Witness.panel 6 c 2
    Coo.quad (Coo.finalizeSym (Model.plateFkG0 (Tab.of S Mean.integral) Witness.panel
      (-1) 3 (1/2) 6 6)) c
      = ∫ x in (0 : ℝ)..3, ∫ y in (0 : ℝ)..1, ((-1) * Spec.dx w x y ^ 2
          + 2 * (1/2) * (Spec.dx w x y * Spec.dy w x y) + 3 * Spec.dy w x y ^ 2) :=
  (fkG0_initial_stress (Tab.of_exact _ _) Spec.bardellShape_C2 Witness.panel
    (by simp [Witness.panel]) (by simp [Witness.panel]) (-1) 3 (1/2) 6 c).1

/-- Linearity in the loads, entry by entry, for every table. -/
theorem fkG0_linear [CharZero K] (I : Tab K) (P : Panel K) (s t : K) (N N' : K × K × K)
    (row0 col0 r q : ℕ) :
    Coo.entry (Model.plateFkG0 I P (s * N.1 + t * N'.1) (s * N.2.1 + t * N'.2.1)
        (s * N.2.2 + t * N'.2.2) row0 col0) r q
      = s * Coo.entry (Model.plateFkG0 I P N.1 N.2.1 N.2.2 row0 col0) r q
        + t * Coo.entry (Model.plateFkG0 I P N'.1 N'.2.1 N'.2.2 row0 col0) r q := by
  rw [Model.plateFkG0, Model.plateFkG0, Model.plateFkG0, Coo.entry_pad, Coo.entry_pad,
    Coo.entry_pad]
  apply entry_symBuild_lin
  intro i k j l a b
  unfold Gen.PlateAna.fkG0
  split
  · simp only [Gen.PlateAna.fkG0_22]; ring
  · ring

end Verif.C18
