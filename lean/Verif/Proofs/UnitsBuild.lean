import Verif.Proofs.UnitsNum
import Verif.Basic.Cross

/-!
# The builders in other units
-/

namespace Verif

open Spec Finset

variable {K : Type*} [Field K]

section lists

variable (c : K)

@[simp] theorem scale_nil : scale c [] = [] := rfl

@[simp] theorem scale_append (L M : Coo K) : scale c (L ++ M) = scale c L ++ scale c M := by
  simp [scale]

theorem scale_flatMap {α : Type*} (l : List α) (f : α → Coo K) :
    scale c (l.flatMap f) = l.flatMap fun x => scale c (f x) := by
  simp [scale, List.map_flatMap]

theorem scale_filterMap {α : Type*} (l : List α) (f : α → Option (Trip K)) :
    scale c (l.filterMap f)
      = l.filterMap fun x => (f x).map fun t => ⟨t.row, t.col, c * t.val⟩ := by
  simp [scale, List.map_filterMap]

@[simp] theorem scale_length (L : Coo K) : (scale c L).length = L.length := by simp [scale]

theorem scale_pad (n : ℕ) (L : Coo K) : scale c (Coo.pad n L) = Coo.pad n (scale c L) := by
  simp [Coo.pad, scale]

theorem scale_addVals (L M : Coo K) : scale c (addVals L M) = addVals (scale c L) (scale c M) := by
  unfold addVals scale
  rw [List.map_zipWith, List.zipWith_map]
  congr 1
  funext t s
  simp only [mul_add]

theorem scale_accum {α : Type*} (pts : List α) (body : α → Coo K) :
    scale c (accum pts body) = accum pts fun p => scale c (body p) := by
  cases pts with
  | nil => rfl
  | cons p ps =>
    simp only [accum]
    generalize body p = L
    induction ps generalizing L with
    | nil => rfl
    | cons q ps ih => rw [List.foldl_cons, List.foldl_cons, ih, scale_addVals]

variable {c} {v w : ℕ → ℕ → ℕ → ℕ → ℕ → ℕ → K} (h : ∀ i k j l α β, w i k j l α β = c * v i k j l α β)
include h

theorem scale_symBlock (r0 c0 m : ℕ) (pat : List (ℕ × ℕ)) (i k j l : ℕ) :
    symBlock r0 c0 m pat w i k j l = scale c (symBlock r0 c0 m pat v i k j l) := by
  unfold symBlock
  split
  · rfl
  · simp [scale, h]

theorem scale_symBuild (r0 c0 m n : ℕ) (pat : List (ℕ × ℕ)) :
    symBuild r0 c0 m n pat w = scale c (symBuild r0 c0 m n pat v) := by
  simp only [symBuild, scale_flatMap, scale_symBlock h]

theorem scale_symBuildJL (r0 c0 m n : ℕ) (pat : List (ℕ × ℕ)) :
    symBuildJL r0 c0 m n pat w = scale c (symBuildJL r0 c0 m n pat v) := by
  simp only [symBuildJL, scale_flatMap, scale_symBlock h]

theorem scale_crossBuild (r0 c0 m1 n1 m2 n2 : ℕ) (pat : List (ℕ × ℕ)) :
    crossBuild r0 c0 m1 n1 m2 n2 pat w = scale c (crossBuild r0 c0 m1 n1 m2 n2 pat v) := by
  simp only [crossBuild, scale_flatMap, h]
  simp [scale, Function.comp_def]

theorem scale_crossBuildJL (r0 c0 m1 n1 m2 n2 : ℕ) (pat : List (ℕ × ℕ)) :
    crossBuildJL r0 c0 m1 n1 m2 n2 pat w = scale c (crossBuildJL r0 c0 m1 n1 m2 n2 pat v) := by
  simp only [crossBuildJL, scale_flatMap, h]
  simp [scale, Function.comp_def]

end lists

theorem scale_filter (c : K) (L : Coo K) (p : ℕ → ℕ → Bool) :
    (scale c L).filter (fun t => p t.row t.col) = scale c (L.filter fun t => p t.row t.col) := by
  induction L with
  | nil => rfl
  | cons t L ih =>
    have : scale c (t :: L) = ⟨t.row, t.col, c * t.val⟩ :: scale c L := rfl
    rw [this, List.filter_cons, List.filter_cons, ih]
    by_cases hp : p t.row t.col = true
    · simp only [hp, if_true]; rfl
    · simp only [hp]; rfl

theorem scale_finalizeSym (c : K) (L : Coo K) :
    Coo.finalizeSym (scale c L) = scale c (Coo.finalizeSym L) := by
  unfold Coo.finalizeSym
  rw [scale_append, ← scale_filter c L (fun r c => decide (r ≤ c))]
  congr 1
  rw [scale_filter c L (fun r c => decide (r < c))]
  simp [scale]

namespace Model

variable [DecidableEq K] (U : UnitSys K)

section sub

variable {U} {P : Panel K} (hP : U.Clear P)

theorem coord_ne {x x' : K} (h : x ≠ -1 → x' ≠ -1 → U.len * x ≠ -1 ∧ U.len * x' ≠ -1) :
    (U.coord x x' ≠ -1 ∧ U.coord x' x ≠ -1) ↔ x ≠ -1 ∧ x' ≠ -1 := by
  unfold UnitSys.coord
  by_cases e : x = -1 ∨ x' = -1
  · rw [if_pos e, if_pos e.symm]
  · obtain ⟨e1, e2⟩ := not_or.1 e
    rw [if_neg e, if_neg fun h => e h.symm]
    exact ⟨fun _ => ⟨e1, e2⟩, fun _ => h e1 e2⟩

theorem coord_of_ne {x x' : K} (h : x ≠ -1) (h' : x' ≠ -1) : U.coord x x' = U.len * x :=
  if_neg (not_or.2 ⟨h, h'⟩)

include hP

theorem sub_units : sub (U.panel P) =
    { sub P with intx := U.len * (sub P).intx, inty := U.len * (sub P).inty } := by
  have hl := U.len_ne
  unfold sub
  simp only [UnitSys.panel, coord_ne hP.1, coord_ne hP.2]
  by_cases hx : P.x1 ≠ -1 ∧ P.x2 ≠ -1 <;> by_cases hy : P.y1 ≠ -1 ∧ P.y2 ≠ -1
  · rw [if_pos hx, if_pos hy, if_pos hx, if_pos hy, coord_of_ne hx.1 hx.2,
      coord_of_ne hx.2 hx.1, coord_of_ne hy.1 hy.2, coord_of_ne hy.2 hy.1]
    simp only [sub_zero, mul_div_mul_left _ _ hl, mul_sub]
  · rw [if_pos hx, if_neg hy, if_pos hx, if_neg hy, coord_of_ne hx.1 hx.2, coord_of_ne hx.2 hx.1]
    simp only [sub_zero, mul_div_mul_left _ _ hl, mul_sub]
  · rw [if_neg hx, if_pos hy, if_neg hx, if_pos hy, coord_of_ne hy.1 hy.2, coord_of_ne hy.2 hy.1]
    simp only [sub_zero, mul_div_mul_left _ _ hl, mul_sub]
  · rw [if_neg hx, if_neg hy, if_neg hx, if_neg hy]
    simp only [sub_zero]

theorem intx_units : (sub (U.panel P)).intx = U.len * (sub P).intx := by rw [sub_units hP]
theorem inty_units : (sub (U.panel P)).inty = U.len * (sub P).inty := by rw [sub_units hP]

theorem xiAt_units (G : GaussTab K) (nx p : ℕ) : xiAt G (U.panel P) nx p = xiAt G P nx p := by
  unfold xiAt; rw [sub_units hP]

theorem etaAt_units (G : GaussTab K) (ny p : ℕ) : etaAt G (U.panel P) ny p = etaAt G P ny p := by
  unfold etaAt; rw [sub_units hP]

end sub

section ana

variable (I : Tab K) (P : Panel K) (F : ℕ → ℕ → K) (row0 col0 : ℕ)

theorem plateFk0_units :
    plateFk0 I (U.panel P) (U.abd F) row0 col0 = scale U.line (plateFk0 I P F row0 col0) := by
  unfold plateFk0
  rw [scale_pad]
  exact congrArg _ (scale_symBuild (fun i k j l α β => plateAna_fk0_units U I P F i k j l α β) ..)

theorem cylFk0_units :
    cylFk0 I (U.panel P) (U.abd F) row0 col0 = scale U.line (cylFk0 I P F row0 col0) := by
  unfold cylFk0
  rw [scale_pad]
  exact congrArg _ (scale_symBuild (fun i k j l α β => cylAna_fk0_units U I P F i k j l α β) ..)

theorem plateFkG0_units (Nxx Nyy Nxy : K) :
    plateFkG0 I (U.panel P) (U.line * Nxx) (U.line * Nyy) (U.line * Nxy) row0 col0
      = scale U.line (plateFkG0 I P Nxx Nyy Nxy row0 col0) := by
  unfold plateFkG0
  rw [scale_pad]
  exact congrArg _ (scale_symBuild (fun i k j l α β => (ana_fkG0_units U I P i k j l α β Nxx Nxy Nyy).1) ..)

theorem cylFkG0_units (Nxx Nyy Nxy : K) :
    cylFkG0 I (U.panel P) (U.line * Nxx) (U.line * Nyy) (U.line * Nxy) row0 col0
      = scale U.line (cylFkG0 I P Nxx Nyy Nxy row0 col0) := by
  unfold cylFkG0
  rw [scale_pad]
  exact congrArg _ (scale_symBuild (fun i k j l α β => (ana_fkG0_units U I P i k j l α β Nxx Nxy Nyy).2) ..)

theorem plateFkM_units (d h rho : K) :
    plateFkM I (U.panel P) (U.len * d) (U.len * h) (U.rho * rho) row0 col0
      = scale U.mass (plateFkM I P d h rho row0 col0) := by
  unfold plateFkM
  rw [scale_pad]
  exact congrArg _ (scale_symBuild (fun i k j l α β => plateAna_fkM_units U I P i k j l α β d h rho) ..)

theorem cylFkM_units (d h rho : K) :
    cylFkM I (U.panel P) (U.len * d) (U.len * h) (U.rho * rho) row0 col0
      = scale U.mass (cylFkM I P d h rho row0 col0) := by
  unfold cylFkM
  rw [scale_pad]
  exact congrArg _ (scale_symBuild (fun i k j l α β => cylAna_fkM_units U I P i k j l α β d h rho) ..)

theorem plateFcA_units (mu : K) :
    plateFcA I (U.panel P) (U.vol * U.time * mu) row0 col0
      = scale (U.line * U.time) (plateFcA I P mu row0 col0) := by
  unfold plateFcA
  rw [scale_pad]
  exact congrArg _ (scale_symBuild (fun i k j l α β => (ana_aero_units U I P i k j l α β 0 0 mu).1.2.2) ..)

theorem cylFcA_units (mu : K) :
    cylFcA I (U.panel P) (U.vol * U.time * mu) row0 col0
      = scale (U.line * U.time) (cylFcA I P mu row0 col0) := by
  unfold cylFcA
  rw [scale_pad]
  exact congrArg _ (scale_symBuild (fun i k j l α β => (ana_aero_units U I P i k j l α β 0 0 mu).2.2.2) ..)

end ana

section num

variable {U} (S : Shape K) (G : GaussTab K) {P : Panel K} (hP : U.Clear P)
  (F : ℕ → ℕ → ℕ → ℕ → K) (cs : ℕ → K) (row0 col0 nx ny NLgeom : ℕ)

theorem wxiC_units (xi eta : K) :
    wxiC S (U.panel P) (fun i => U.len * cs i) col0 NLgeom xi eta = U.len * wxiC S P cs col0 NLgeom xi eta ∧
    wetaC S (U.panel P) (fun i => U.len * cs i) col0 NLgeom xi eta
      = U.len * wetaC S P cs col0 NLgeom xi eta := by
  unfold wxiC wetaC
  by_cases h : NLgeom = 1
  · simp only [h, if_true, mul_sum]
    exact ⟨Finset.sum_congr rfl fun j _ => Finset.sum_congr rfl fun i _ =>
        (plateNum_fkC_num_slopes_units U S P i j eta xi _).1,
      Finset.sum_congr rfl fun j _ => Finset.sum_congr rfl fun i _ =>
        (plateNum_fkC_num_slopes_units U S P i j eta xi _).2⟩
  · simp [h]

theorem wxiCcyl_units (xi eta : K) :
    wxiCcyl S (U.panel P) (fun i => U.len * cs i) col0 NLgeom xi eta
      = U.len * wxiCcyl S P cs col0 NLgeom xi eta ∧
    wetaCcyl S (U.panel P) (fun i => U.len * cs i) col0 NLgeom xi eta
      = U.len * wetaCcyl S P cs col0 NLgeom xi eta := by
  unfold wxiCcyl wetaCcyl
  by_cases h : NLgeom = 1
  · simp only [h, if_true, mul_sum]
    exact ⟨Finset.sum_congr rfl fun j _ => Finset.sum_congr rfl fun i _ =>
        (cylNum_fkC_num_slopes_units U S P i j eta xi _).1,
      Finset.sum_congr rfl fun j _ => Finset.sum_congr rfl fun i _ =>
        (cylNum_fkC_num_slopes_units U S P i j eta xi _).2⟩
  · simp [h]

/-- Strains in other units: the membrane strains have no dimension. -/
def Strain.units (U : UnitSys K) (e : Strain K) : Strain K :=
  { e with kxx := U.len⁻¹ * e.kxx, kyy := U.len⁻¹ * e.kyy, kxy := U.len⁻¹ * e.kxy }

theorem strainG_units (xi eta : K) :
    strainG S (U.panel P) (fun i => U.len * cs i) col0 NLgeom xi eta
      = (strainG S P cs col0 NLgeom xi eta).units U := by
  have h1 : (if NLgeom = 1 then ∑ j ∈ range P.n, ∑ i ∈ range P.m,
      Gen.PlateNum.fkG_num_wxi S (U.panel P) (U.len * cs (col0 + dof P.m i j + 2)) eta xi i j else 0)
      = U.len * (if NLgeom = 1 then ∑ j ∈ range P.n, ∑ i ∈ range P.m,
      Gen.PlateNum.fkG_num_wxi S P (cs (col0 + dof P.m i j + 2)) eta xi i j else 0) := by
    simp only [(plateNum_fkG_num_slopes_units U S P _ _ eta xi _).1, mul_ite, mul_zero, mul_sum]
  have h2 : (if NLgeom = 1 then ∑ j ∈ range P.n, ∑ i ∈ range P.m,
      Gen.PlateNum.fkG_num_weta S (U.panel P) (U.len * cs (col0 + dof P.m i j + 2)) eta xi i j else 0)
      = U.len * (if NLgeom = 1 then ∑ j ∈ range P.n, ∑ i ∈ range P.m,
      Gen.PlateNum.fkG_num_weta S P (cs (col0 + dof P.m i j + 2)) eta xi i j else 0) := by
    simp only [(plateNum_fkG_num_slopes_units U S P _ _ eta xi _).2, mul_ite, mul_zero, mul_sum]
  unfold strainG Strain.units
  simp only [show (U.panel P).n = P.n from rfl, show (U.panel P).m = P.m from rfl, h1, h2,
    plateNum_fkG_num_exx_units, plateNum_fkG_num_eyy_units, plateNum_fkG_num_gxy_units,
    plateNum_fkG_num_kxx_units, plateNum_fkG_num_kyy_units, plateNum_fkG_num_kxy_units, mul_sum]

theorem strainGcyl_units (xi eta : K) :
    strainGcyl S (U.panel P) (fun i => U.len * cs i) col0 NLgeom xi eta
      = (strainGcyl S P cs col0 NLgeom xi eta).units U := by
  have h1 : (if NLgeom = 1 then ∑ j ∈ range P.n, ∑ i ∈ range P.m,
      Gen.CylNum.fkG_num_wxi S (U.panel P) (U.len * cs (col0 + dof P.m i j + 2)) eta xi i j else 0)
      = U.len * (if NLgeom = 1 then ∑ j ∈ range P.n, ∑ i ∈ range P.m,
      Gen.CylNum.fkG_num_wxi S P (cs (col0 + dof P.m i j + 2)) eta xi i j else 0) := by
    simp only [(cylNum_fkG_num_slopes_units U S P _ _ eta xi _).1, mul_ite, mul_zero, mul_sum]
  have h2 : (if NLgeom = 1 then ∑ j ∈ range P.n, ∑ i ∈ range P.m,
      Gen.CylNum.fkG_num_weta S (U.panel P) (U.len * cs (col0 + dof P.m i j + 2)) eta xi i j else 0)
      = U.len * (if NLgeom = 1 then ∑ j ∈ range P.n, ∑ i ∈ range P.m,
      Gen.CylNum.fkG_num_weta S P (cs (col0 + dof P.m i j + 2)) eta xi i j else 0) := by
    simp only [(cylNum_fkG_num_slopes_units U S P _ _ eta xi _).2, mul_ite, mul_zero, mul_sum]
  unfold strainGcyl Strain.units
  simp only [show (U.panel P).n = P.n from rfl, show (U.panel P).m = P.m from rfl, h1, h2,
    cylNum_fkG_num_exx_units, cylNum_fkG_num_eyy_units, cylNum_fkG_num_gxy_units,
    cylNum_fkG_num_kxx_units, cylNum_fkG_num_kyy_units, cylNum_fkG_num_kxy_units, mul_sum]

theorem strainF_units (xi eta : K) :
    strainF S (U.panel P) (fun i => U.len * cs i) col0 xi eta
      = (U.len * (strainF S P cs col0 xi eta).1, U.len * (strainF S P cs col0 xi eta).2.1,
        (strainF S P cs col0 xi eta).2.2.units U) := by
  have h1 : (∑ j ∈ range P.n, ∑ i ∈ range P.m,
      Gen.PlateNum.fint_wxi S (U.panel P) (U.len * cs (col0 + dof P.m i j + 2)) eta xi i j)
      = U.len * (∑ j ∈ range P.n, ∑ i ∈ range P.m,
      Gen.PlateNum.fint_wxi S P (cs (col0 + dof P.m i j + 2)) eta xi i j) := by
    simp only [(plateNum_fint_slopes_units U S P _ _ eta xi _).1, mul_sum]
  have h2 : (∑ j ∈ range P.n, ∑ i ∈ range P.m,
      Gen.PlateNum.fint_weta S (U.panel P) (U.len * cs (col0 + dof P.m i j + 2)) eta xi i j)
      = U.len * (∑ j ∈ range P.n, ∑ i ∈ range P.m,
      Gen.PlateNum.fint_weta S P (cs (col0 + dof P.m i j + 2)) eta xi i j) := by
    simp only [(plateNum_fint_slopes_units U S P _ _ eta xi _).2, mul_sum]
  unfold strainF Strain.units
  simp only [show (U.panel P).n = P.n from rfl, show (U.panel P).m = P.m from rfl, h1, h2,
    plateNum_fint_exx_units, plateNum_fint_eyy_units, plateNum_fint_gxy_units,
    plateNum_fint_kxx_units, plateNum_fint_kyy_units, plateNum_fint_kxy_units]
  simp only [mul_sum]

theorem strainFcyl_units (xi eta : K) :
    strainFcyl S (U.panel P) (fun i => U.len * cs i) col0 xi eta
      = (U.len * (strainFcyl S P cs col0 xi eta).1, U.len * (strainFcyl S P cs col0 xi eta).2.1,
        (strainFcyl S P cs col0 xi eta).2.2.units U) := by
  have h1 : (∑ j ∈ range P.n, ∑ i ∈ range P.m,
      Gen.CylNum.fint_wxi S (U.panel P) (U.len * cs (col0 + dof P.m i j + 2)) eta xi i j)
      = U.len * (∑ j ∈ range P.n, ∑ i ∈ range P.m,
      Gen.CylNum.fint_wxi S P (cs (col0 + dof P.m i j + 2)) eta xi i j) := by
    simp only [(cylNum_fint_slopes_units U S P _ _ eta xi _).1, mul_sum]
  have h2 : (∑ j ∈ range P.n, ∑ i ∈ range P.m,
      Gen.CylNum.fint_weta S (U.panel P) (U.len * cs (col0 + dof P.m i j + 2)) eta xi i j)
      = U.len * (∑ j ∈ range P.n, ∑ i ∈ range P.m,
      Gen.CylNum.fint_weta S P (cs (col0 + dof P.m i j + 2)) eta xi i j) := by
    simp only [(cylNum_fint_slopes_units U S P _ _ eta xi _).2, mul_sum]
  unfold strainFcyl Strain.units
  simp only [show (U.panel P).n = P.n from rfl, show (U.panel P).m = P.m from rfl, h1, h2,
    cylNum_fint_exx_units, cylNum_fint_eyy_units, cylNum_fint_gxy_units,
    cylNum_fint_kxx_units, cylNum_fint_kyy_units, cylNum_fint_kxy_units]
  simp only [mul_sum]

include hP

theorem plateFkCnumF_units :
    plateFkCnumF S G (U.panel P) (fun p q => U.abd (F p q)) (fun i => U.len * cs i) row0 col0 nx ny NLgeom
      = scale U.line (plateFkCnumF S G P F cs row0 col0 nx ny NLgeom) := by
  unfold plateFkCnumF
  rw [scale_pad, scale_accum]
  refine congrArg _ (congrArg _ (funext fun p => scale_symBuild (fun i k j l α β => ?_) ..))
  rw [xiAt_units hP, etaAt_units hP, intx_units hP, inty_units hP,
    (wxiC_units S cs col0 NLgeom _ _).1, (wxiC_units S cs col0 NLgeom _ _).2, plateNum_fkC_units]

theorem cylFkCnumF_units :
    cylFkCnumF S G (U.panel P) (fun p q => U.abd (F p q)) (fun i => U.len * cs i) row0 col0 nx ny NLgeom
      = scale U.line (cylFkCnumF S G P F cs row0 col0 nx ny NLgeom) := by
  unfold cylFkCnumF
  rw [scale_pad, scale_accum]
  refine congrArg _ (congrArg _ (funext fun p => scale_symBuild (fun i k j l α β => ?_) ..))
  rw [xiAt_units hP, etaAt_units hP, intx_units hP, inty_units hP,
    (wxiCcyl_units S cs col0 NLgeom _ _).1, (wxiCcyl_units S cs col0 NLgeom _ _).2, cylNum_fkC_units]

theorem plateFkGnumF_units (Nxx Nyy Nxy : K) :
    plateFkGnumF S G (U.panel P) (fun p q => U.abd (F p q)) (fun i => U.len * cs i) row0 col0 nx ny NLgeom
      (U.line * Nxx) (U.line * Nyy) (U.line * Nxy)
      = scale U.line (plateFkGnumF S G P F cs row0 col0 nx ny NLgeom Nxx Nyy Nxy) := by
  unfold plateFkGnumF
  rw [scale_pad, scale_accum]
  refine congrArg _ (congrArg _ (funext fun p => scale_symBuildJL (fun i k j l α β => ?_) ..))
  rw [xiAt_units hP, etaAt_units hP, intx_units hP, inty_units hP, strainG_units]
  simp only [Strain.units, plateNum_fkG_num_Nxx_units, plateNum_fkG_num_Nxy_units,
    plateNum_fkG_num_Nyy_units, plateNum_fkG_units]

theorem cylFkGnumF_units (Nxx Nyy Nxy : K) :
    cylFkGnumF S G (U.panel P) (fun p q => U.abd (F p q)) (fun i => U.len * cs i) row0 col0 nx ny NLgeom
      (U.line * Nxx) (U.line * Nyy) (U.line * Nxy)
      = scale U.line (cylFkGnumF S G P F cs row0 col0 nx ny NLgeom Nxx Nyy Nxy) := by
  unfold cylFkGnumF
  rw [scale_pad, scale_accum]
  refine congrArg _ (congrArg _ (funext fun p => scale_symBuildJL (fun i k j l α β => ?_) ..))
  rw [xiAt_units hP, etaAt_units hP, intx_units hP, inty_units hP, strainGcyl_units]
  simp only [Strain.units, cylNum_fkG_num_Nxx_units, cylNum_fkG_num_Nxy_units,
    cylNum_fkG_num_Nyy_units, cylNum_fkG_units]

theorem fkMnumF_units (offset : K) (h rho : ℕ → ℕ → K) :
    fkMnumF S G (U.panel P) (U.len * offset) (fun p q => U.len * h p q) (fun p q => U.rho * rho p q)
      row0 col0 nx ny
      = scale U.mass (fkMnumF S G P offset h rho row0 col0 nx ny) := by
  unfold fkMnumF
  rw [scale_pad, scale_accum]
  refine congrArg _ (congrArg _ (funext fun p => scale_symBuild (fun i k j l α β => ?_) ..))
  rw [xiAt_units hP, etaAt_units hP, intx_units hP, inty_units hP, num_fkM_units]

theorem plateFkAxNum_units (beta gamma : K) :
    plateFkAxNum S G (U.panel P) (U.area * beta) (U.vol * gamma) row0 col0 nx ny
      = scale U.line (plateFkAxNum S G P beta gamma row0 col0 nx ny) := by
  unfold plateFkAxNum
  rw [scale_pad, scale_accum]
  refine congrArg _ (congrArg _ (funext fun p => scale_symBuild (fun i k j l α β => ?_) ..))
  rw [xiAt_units hP, etaAt_units hP, intx_units hP, inty_units hP, plateNum_fkAx_units]

theorem cylFkAxNum_units (beta gamma : K) :
    cylFkAxNum S G (U.panel P) (U.area * beta) (U.vol * gamma) row0 col0 nx ny
      = scale U.line (cylFkAxNum S G P beta gamma row0 col0 nx ny) := by
  unfold cylFkAxNum
  rw [scale_pad, scale_accum]
  refine congrArg _ (congrArg _ (funext fun p => scale_symBuild (fun i k j l α β => ?_) ..))
  rw [xiAt_units hP, etaAt_units hP, intx_units hP, inty_units hP, cylNum_fkAx_units]

theorem fkAyNum_units (beta : K) :
    fkAyNum S G (U.panel P) (U.area * beta) row0 col0 nx ny
      = scale U.line (fkAyNum S G P beta row0 col0 nx ny) := by
  unfold fkAyNum
  rw [scale_pad, scale_accum]
  refine congrArg _ (congrArg _ (funext fun p => scale_symBuild (fun i k j l α β => ?_) ..))
  rw [xiAt_units hP, etaAt_units hP, intx_units hP, inty_units hP, num_fkAy_units]

theorem plateFintF_units :
    plateFintF S G (U.panel P) (fun p q => U.abd (F p q)) (fun i => U.len * cs i) col0 nx ny
      = (plateFintF S G P F cs col0 nx ny).map fun t => (t.1, U.force * t.2) := by
  unfold plateFintF
  simp only [List.map_flatMap, xiAt_units hP, etaAt_units hP, intx_units hP, inty_units hP, strainF_units,
    Strain.units, plateNum_fint_Nxx_units, plateNum_fint_Nyy_units, plateNum_fint_Nxy_units,
    plateNum_fint_Mxx_units, plateNum_fint_Myy_units, plateNum_fint_Mxy_units, plateNum_fint_0_units,
    plateNum_fint_1_units, plateNum_fint_2_units, List.map_cons, List.map_nil]
  rfl

theorem cylFintF_units :
    cylFintF S G (U.panel P) (fun p q => U.abd (F p q)) (fun i => U.len * cs i) col0 nx ny
      = (cylFintF S G P F cs col0 nx ny).map fun t => (t.1, U.force * t.2) := by
  unfold cylFintF
  simp only [List.map_flatMap, xiAt_units hP, etaAt_units hP, intx_units hP, inty_units hP, strainFcyl_units,
    Strain.units, cylNum_fint_Nxx_units, cylNum_fint_Nyy_units, cylNum_fint_Nxy_units,
    cylNum_fint_Mxx_units, cylNum_fint_Myy_units, cylNum_fint_Mxy_units, cylNum_fint_0_units,
    cylNum_fint_1_units, cylNum_fint_2_units, List.map_cons, List.map_nil]
  rfl

end num

end Model

end Verif
