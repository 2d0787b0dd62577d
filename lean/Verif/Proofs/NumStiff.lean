import Verif.Proofs.Fint
import Verif.Proofs.NumEntries
import Verif.Proofs.RealField

/-!
# Quadratic forms of the numerically integrated matrices
-/

set_option linter.unusedSectionVars false

namespace Verif

open Finset

variable {K : Type*} [Field K] [CharZero K] [DecidableEq K]

/-- Quadratic form of the plate `fkC_num`, non-linear terms on (`NL = 1`) or off. -/
theorem plateFkCnum_quad (S : Shape K) (G : GaussTab K) (P : Panel K) (ha : P.a ≠ 0)
    (hb : P.b ≠ 0) (F : ℕ → ℕ → ℕ → ℕ → K) (hF : ∀ p q, Spec.ABDSym (F p q))
    (c d : ℕ → K) (s0 nx ny NL : ℕ) :
    Coo.quad (Coo.finalizeSym (Model.plateFkCnumF S G P F c s0 s0 nx ny NL)) d
      = Spec.gaussP G nx ny P fun p q x y => Spec.dens 6 (F p q) fun s =>
          if NL = 1 then Spec.vkVar 0 S P s0 c d s x y else Spec.lin 0 S P s0 d s x y := by
  rw [Model.plateFkCnumF, Coo.quad_finalizeSym_pad]
  rw [quad_num (grid nx ny) s0 P.m P.n d 6
    (fun p => Model.weightAt G nx ny p.1 p.2 * (Model.sub P).intx * (Model.sub P).inty / 4)
    (fun p => F p.1 p.2) (fun p => (hF p.1 p.2).symm)
    (fun p => vkE 0
      (2 / P.a * Model.wxiC S P c s0 NL (Model.xiAt G P nx p.1) (Model.etaAt G P ny p.2))
      (2 / P.b * Model.wetaC S P c s0 NL (Model.xiAt G P nx p.1) (Model.etaAt G P ny p.2)) S P
      (Model.xiAt G P nx p.1) (Model.etaAt G P ny p.2))
    Gen.PlateNum.fkC_num_pat pat9_ok pat9_full _
    (fun p i k j l a b => plateNum_fkC_num_zero S P _ _ _ _ _ _ _ _ i k j l a b)
    (fun p i k j l a b => plate_fkCnum_entry S P (F p.1 p.2) (hF p.1 p.2) ha hb _ _ _ _ _ _ _
      i k j l a b)]
  refine (grid_gauss G P ha hb nx ny (fun p q ξ η => Spec.dens 6 (F p q) (field P.m P.n s0 d
    (vkE 0 (2 / P.a * Model.wxiC S P c s0 NL ξ η) (2 / P.b * Model.wetaC S P c s0 NL ξ η) S P
      ξ η)))).trans ?_
  congr 1
  funext p q x y
  refine dens_congr 6 _ _ _ fun s hs => ?_
  rw [wxiC_eq, wetaC_eq]
  split
  · exact field_vkVar 0 S P s0 c d x y s hs
  · exact field_lin 0 S P s0 d x y s hs

/-- Quadratic form of the cylinder `fkC_num`. -/
theorem cylFkCnum_quad (S : Shape K) (G : GaussTab K) (P : Panel K) (ha : P.a ≠ 0)
    (hb : P.b ≠ 0) (hr : P.r ≠ 0) (F : ℕ → ℕ → ℕ → ℕ → K) (hF : ∀ p q, Spec.ABDSym (F p q))
    (c d : ℕ → K) (s0 nx ny NL : ℕ) :
    Coo.quad (Coo.finalizeSym (Model.cylFkCnumF S G P F c s0 s0 nx ny NL)) d
      = Spec.gaussP G nx ny P fun p q x y => Spec.dens 6 (F p q) fun s =>
          if NL = 1 then Spec.vkVar (1 / P.r) S P s0 c d s x y
          else Spec.lin (1 / P.r) S P s0 d s x y := by
  rw [Model.cylFkCnumF, Coo.quad_finalizeSym_pad]
  rw [quad_num (grid nx ny) s0 P.m P.n d 6
    (fun p => Model.weightAt G nx ny p.1 p.2 * (Model.sub P).intx * (Model.sub P).inty / 4)
    (fun p => F p.1 p.2) (fun p => (hF p.1 p.2).symm)
    (fun p => vkE (1 / P.r)
      (2 / P.a * Model.wxiCcyl S P c s0 NL (Model.xiAt G P nx p.1) (Model.etaAt G P ny p.2))
      (2 / P.b * Model.wetaCcyl S P c s0 NL (Model.xiAt G P nx p.1) (Model.etaAt G P ny p.2)) S P
      (Model.xiAt G P nx p.1) (Model.etaAt G P ny p.2))
    Gen.CylNum.fkC_num_pat pat9_ok pat9_full _
    (fun p i k j l a b => cylNum_fkC_num_zero S P _ _ _ _ _ _ _ _ i k j l a b)
    (fun p i k j l a b => cyl_fkCnum_entry S P (F p.1 p.2) (hF p.1 p.2) ha hb hr _ _ _ _ _ _ _
      i k j l a b)]
  refine (grid_gauss G P ha hb nx ny (fun p q ξ η => Spec.dens 6 (F p q) (field P.m P.n s0 d
    (vkE (1 / P.r) (2 / P.a * Model.wxiCcyl S P c s0 NL ξ η)
      (2 / P.b * Model.wetaCcyl S P c s0 NL ξ η) S P ξ η)))).trans ?_
  congr 1
  funext p q x y
  refine dens_congr 6 _ _ _ fun s hs => ?_
  rw [wxiCcyl_eq, wetaCcyl_eq]
  split
  · exact field_vkVar (1 / P.r) S P s0 c d x y s hs
  · exact field_lin (1 / P.r) S P s0 d x y s hs

/-- Strains used by `fkG_num`: linear when `NLgeom` is off, otherwise with the squares of the
slopes and twice their product in the shear strain. -/
theorem strainG_spec (S : Shape K) (P : Panel K) (c : ℕ → K) (s0 NL : ℕ) (x y : K) (s : ℕ)
    (hs : s < 6) : (Model.strainG S P c s0 NL (2 / P.a * x - 1) (2 / P.b * y - 1)).vec s
      = if NL = 1 then Spec.vkWith 2 0 S P s0 c s x y else Spec.lin 0 S P s0 c s x y := by
  rw [strainG_vec _ _ _ _ _ _ _ _ hs]
  split
  · exact natStrain_vk 2 0 S P s0 c x y s hs
  · interval_cases s <;> simp only [natStrain, Spec.lin] <;> ring

theorem strainGcyl_spec (S : Shape K) (P : Panel K) (c : ℕ → K) (s0 NL : ℕ) (x y : K) (s : ℕ)
    (hs : s < 6) : (Model.strainGcyl S P c s0 NL (2 / P.a * x - 1) (2 / P.b * y - 1)).vec s
      = if NL = 1 then Spec.vkWith 2 (1 / P.r) S P s0 c s x y
        else Spec.lin (1 / P.r) S P s0 c s x y := by
  rw [strainGcyl_vec _ _ _ _ _ _ _ _ hs]
  split
  · exact natStrain_vk 2 (1 / P.r) S P s0 c x y s hs
  · interval_cases s <;> simp only [natStrain, Spec.lin] <;> ring

theorem plate_N_eq (F : ℕ → ℕ → K) (hF : Spec.ABDSym F) (N0 N1 N2 : K) (e : Model.Strain K) :
    Gen.PlateNum.fkG_num_Nxx (Lam.ofABD F) N0 N2 N1 e.exx e.eyy e.gxy e.kxx e.kxy e.kyy
      = N0 + Spec.resultant F e.vec 0 ∧
    Gen.PlateNum.fkG_num_Nyy (Lam.ofABD F) N0 N2 N1 e.exx e.eyy e.gxy e.kxx e.kxy e.kyy
      = N1 + Spec.resultant F e.vec 1 ∧
    Gen.PlateNum.fkG_num_Nxy (Lam.ofABD F) N0 N2 N1 e.exx e.eyy e.gxy e.kxx e.kxy e.kyy
      = N2 + Spec.resultant F e.vec 2 := by
  refine ⟨?_, ?_, ?_⟩ <;>
  simp only [Spec.resultant, Finset.sum_range_succ, Finset.sum_range_zero, Lam.ofABD,
      Model.Strain.vec, Gen.PlateNum.fkG_num_Nxx, Gen.PlateNum.fkG_num_Nyy,
      Gen.PlateNum.fkG_num_Nxy, hF.b12, hF.b16, hF.b26, hF.symm 1 0, hF.symm 2 0, hF.symm 2 1]
      <;> ring

theorem cyl_N_eq (F : ℕ → ℕ → K) (hF : Spec.ABDSym F) (N0 N1 N2 : K) (e : Model.Strain K) :
    Gen.CylNum.fkG_num_Nxx (Lam.ofABD F) N0 N2 N1 e.exx e.eyy e.gxy e.kxx e.kxy e.kyy
      = N0 + Spec.resultant F e.vec 0 ∧
    Gen.CylNum.fkG_num_Nyy (Lam.ofABD F) N0 N2 N1 e.exx e.eyy e.gxy e.kxx e.kxy e.kyy
      = N1 + Spec.resultant F e.vec 1 ∧
    Gen.CylNum.fkG_num_Nxy (Lam.ofABD F) N0 N2 N1 e.exx e.eyy e.gxy e.kxx e.kxy e.kyy
      = N2 + Spec.resultant F e.vec 2 := by
  refine ⟨?_, ?_, ?_⟩ <;>
  simp only [Spec.resultant, Finset.sum_range_succ, Finset.sum_range_zero, Lam.ofABD,
      Model.Strain.vec, Gen.CylNum.fkG_num_Nxx, Gen.CylNum.fkG_num_Nyy,
      Gen.CylNum.fkG_num_Nxy, hF.b12, hF.b16, hF.b26, hF.symm 1 0, hF.symm 2 0, hF.symm 2 1]
      <;> ring

/-- Initial-stress density with membrane forces `N0 + [A B] ε`. -/
def Spec.stressDens (S : Shape K) (P : Panel K) (s0 : ℕ) (d : ℕ → K) (Nxx Nyy Nxy : K)
    (x y : K) : K :=
  let W := fun p q => Spec.disp S P s0 d 2 p q (2 / P.a * x - 1) (2 / P.b * y - 1)
  Nxx * W 1 0 ^ 2 + 2 * Nxy * (W 1 0 * W 0 1) + Nyy * W 0 1 ^ 2

/-- Quadratic form of the plate `fkG_num`. -/
theorem plateFkGnum_quad (S : Shape K) (G : GaussTab K) (P : Panel K) (ha : P.a ≠ 0)
    (hb : P.b ≠ 0) (F : ℕ → ℕ → ℕ → ℕ → K) (hF : ∀ p q, Spec.ABDSym (F p q))
    (c d : ℕ → K) (s0 nx ny NL : ℕ) (N0 N1 N2 : K) :
    Coo.quad (Coo.finalizeSym (Model.plateFkGnumF S G P F c s0 s0 nx ny NL N0 N1 N2)) d
      = Spec.gaussP G nx ny P fun p q x y =>
          let e := fun s => if NL = 1 then Spec.vkWith 2 0 S P s0 c s x y
            else Spec.lin 0 S P s0 c s x y
          Spec.stressDens S P s0 d (N0 + Spec.resultant (F p q) e 0)
            (N1 + Spec.resultant (F p q) e 1) (N2 + Spec.resultant (F p q) e 2) x y := by
  rw [Model.plateFkGnumF, Coo.quad_finalizeSym_pad]
  simp only [(plate_N_eq _ (hF _ _) _ _ _ _).1, (plate_N_eq _ (hF _ _) _ _ _ _).2.1,
    (plate_N_eq _ (hF _ _) _ _ _ _).2.2]
  rw [quad_numJL (grid nx ny) s0 P.m P.n d 2
    (fun p => Model.weightAt G nx ny p.1 p.2 * (Model.sub P).intx * (Model.sub P).inty / 4)
    (fun p =>
      let e := (Model.strainG S P c s0 NL (Model.xiAt G P nx p.1) (Model.etaAt G P ny p.2)).vec
      memN (N0 + Spec.resultant (F p.1 p.2) e 0) (N1 + Spec.resultant (F p.1 p.2) e 1)
        (N2 + Spec.resultant (F p.1 p.2) e 2)) (fun p => memN_symm _ _ _)
    (fun p => termE (slopeB P.a P.b) S P (Model.xiAt G P nx p.1) (Model.etaAt G P ny p.2))
    Gen.PlateNum.fkG_num_pat pat1_ok pat1_full _
    (fun p i k j l a b => plateNum_fkG_num_zero S P _ _ _ _ _ _ _ _ i k j l a b)
    (fun p i k j l a b => plate_fkGnum_entry S P ha hb _ _ _ _ _ _ _ _ i k j l a b)]
  refine (grid_gauss G P ha hb nx ny (fun p q ξ η =>
    let e := (Model.strainG S P c s0 NL ξ η).vec
    Spec.dens 2 (memN (N0 + Spec.resultant (F p q) e 0) (N1 + Spec.resultant (F p q) e 1)
        (N2 + Spec.resultant (F p q) e 2))
      (field P.m P.n s0 d (termE (slopeB P.a P.b) S P ξ η)))).trans ?_
  congr 1
  funext p q x y
  simp only [dens_slope, field_termE, (applyB_slope S P s0 d _ _).1, (applyB_slope S P s0 d _ _).2,
    Spec.stressDens, resultant_congr _ _ _ fun s hs => strainG_spec S P c s0 NL x y s hs]

/-- Quadratic form of the cylinder `fkG_num`. -/
theorem cylFkGnum_quad (S : Shape K) (G : GaussTab K) (P : Panel K) (ha : P.a ≠ 0)
    (hb : P.b ≠ 0) (F : ℕ → ℕ → ℕ → ℕ → K) (hF : ∀ p q, Spec.ABDSym (F p q))
    (c d : ℕ → K) (s0 nx ny NL : ℕ) (N0 N1 N2 : K) :
    Coo.quad (Coo.finalizeSym (Model.cylFkGnumF S G P F c s0 s0 nx ny NL N0 N1 N2)) d
      = Spec.gaussP G nx ny P fun p q x y =>
          let e := fun s => if NL = 1 then Spec.vkWith 2 (1 / P.r) S P s0 c s x y
            else Spec.lin (1 / P.r) S P s0 c s x y
          Spec.stressDens S P s0 d (N0 + Spec.resultant (F p q) e 0)
            (N1 + Spec.resultant (F p q) e 1) (N2 + Spec.resultant (F p q) e 2) x y := by
  rw [Model.cylFkGnumF, Coo.quad_finalizeSym_pad]
  simp only [(cyl_N_eq _ (hF _ _) _ _ _ _).1, (cyl_N_eq _ (hF _ _) _ _ _ _).2.1,
    (cyl_N_eq _ (hF _ _) _ _ _ _).2.2]
  rw [quad_numJL (grid nx ny) s0 P.m P.n d 2
    (fun p => Model.weightAt G nx ny p.1 p.2 * (Model.sub P).intx * (Model.sub P).inty / 4)
    (fun p =>
      let e := (Model.strainGcyl S P c s0 NL (Model.xiAt G P nx p.1) (Model.etaAt G P ny p.2)).vec
      memN (N0 + Spec.resultant (F p.1 p.2) e 0) (N1 + Spec.resultant (F p.1 p.2) e 1)
        (N2 + Spec.resultant (F p.1 p.2) e 2)) (fun p => memN_symm _ _ _)
    (fun p => termE (slopeB P.a P.b) S P (Model.xiAt G P nx p.1) (Model.etaAt G P ny p.2))
    Gen.CylNum.fkG_num_pat pat1_ok pat1_full _
    (fun p i k j l a b => cylNum_fkG_num_zero S P _ _ _ _ _ _ _ _ i k j l a b)
    (fun p i k j l a b => cyl_fkGnum_entry S P ha hb _ _ _ _ _ _ _ _ i k j l a b)]
  refine (grid_gauss G P ha hb nx ny (fun p q ξ η =>
    let e := (Model.strainGcyl S P c s0 NL ξ η).vec
    Spec.dens 2 (memN (N0 + Spec.resultant (F p q) e 0) (N1 + Spec.resultant (F p q) e 1)
        (N2 + Spec.resultant (F p q) e 2))
      (field P.m P.n s0 d (termE (slopeB P.a P.b) S P ξ η)))).trans ?_
  congr 1
  funext p q x y
  simp only [dens_slope, field_termE, (applyB_slope S P s0 d _ _).1, (applyB_slope S P s0 d _ _).2,
    Spec.stressDens, resultant_congr _ _ _ fun s hs => strainGcyl_spec S P c s0 NL x y s hs]

/-- Quadratic form of `fkM_num`. -/
theorem fkMnum_quad (S : Shape K) (G : GaussTab K) (P : Panel K) (ha : P.a ≠ 0)
    (hb : P.b ≠ 0) (offset : K) (h rho : ℕ → ℕ → K) (d : ℕ → K) (s0 nx ny : ℕ) :
    Coo.quad (Coo.finalizeSym (Model.fkMnumF S G P offset h rho s0 s0 nx ny)) d
      = Spec.gaussP G nx ny P fun p q x y =>
          let D := fun α i j => Spec.disp S P s0 d α i j (2 / P.a * x - 1) (2 / P.b * y - 1)
          rho p q * h p q * ((D 0 0 0 + offset * D 2 1 0) ^ 2 + (D 1 0 0 + offset * D 2 0 1) ^ 2 +
            D 2 0 0 ^ 2) + rho p q * h p q * (c12 * h p q ^ 2) * (D 2 1 0 ^ 2 + D 2 0 1 ^ 2) := by
  rw [Model.fkMnumF, Coo.quad_finalizeSym_pad]
  rw [quad_num (grid nx ny) s0 P.m P.n d 5
    (fun p => Model.weightAt G nx ny p.1 p.2 * (Model.sub P).intx * (Model.sub P).inty / 4)
    (fun p => inertia (rho p.1 p.2 * h p.1 p.2) (rho p.1 p.2 * h p.1 p.2 * (c12 * h p.1 p.2 ^ 2)))
    (fun p => inertia_symm _ _)
    (fun p => termE (massB P.a P.b offset) S P (Model.xiAt G P nx p.1) (Model.etaAt G P ny p.2))
    Gen.PlateNum.fkM_num_pat pat7_ok pat7_full _
    (fun p i k j l a b => plateNum_fkM_num_zero S P _ _ _ _ _ _ _ _ i k j l a b)
    (fun p i k j l a b => plate_fkMnum_entry S P ha hb _ _ _ _ _ _ _ _ i k j l a b)]
  refine (grid_gauss G P ha hb nx ny (fun p q ξ η =>
    Spec.dens 5 (inertia (rho p q * h p q) (rho p q * h p q * (c12 * h p q ^ 2)))
      (field P.m P.n s0 d (termE (massB P.a P.b offset) S P ξ η)))).trans ?_
  congr 1
  funext p q x y
  obtain ⟨e0, e1, e2, e3, e4⟩ := applyB_mass S P s0 d offset (2 / P.a * x - 1) (2 / P.b * y - 1)
  rw [dens_mass, field_termE, field_termE, field_termE, field_termE, field_termE, e0, e1, e2, e3,
    e4]

namespace Spec

/-- `lin` is the Donnell strain of the displacement functions. -/
theorem donnell_lin {S : Shape ℝ} (hS : S.C2) (κ : ℝ) (P : Panel ℝ) (s0 : ℕ) (c : ℕ → ℝ) (s : ℕ)
    (x y : ℝ) : donnell κ (u S P s0 c 0) (u S P s0 c 1) (u S P s0 c 2) s x y
      = lin κ S P s0 c s x y := by
  have h := donnell_plate hS P s0 c s x y
  match s with
  | 0 => exact h
  | 1 =>
    simp only [donnell, zero_mul, add_zero, plateStrain] at h
    simp only [donnell, lin, h]
    rw [← phys_zero S P s0 c 2, phys]
  | 2 => exact h
  | 3 => exact h
  | 4 => exact h
  | n + 5 => exact h

end Spec
end Verif
