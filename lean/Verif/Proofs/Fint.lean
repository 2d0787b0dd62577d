import Verif.Proofs.NumEntries2

/-!
# The internal force vector
-/

set_option linter.unusedSimpArgs false
set_option linter.unnecessarySeqFocus false
set_option linter.unusedSectionVars false

namespace Verif

open Finset

variable {K : Type*} [Field K]

/-- Six numbers as a vector. -/
def six (a b c d e f : K) (s : ℕ) : K :=
  match s with
  | 0 => a
  | 1 => b
  | 2 => c
  | 3 => d
  | 4 => e
  | _ => f

section
variable [CharZero K]

/-- The three values written by the plate `calc_fint` for one basis function. -/
def plateFintVal (S : Shape K) (P : Panel K) (Mxx Mxy Myy Nxx Nxy Nyy eta intx inty weight weta wxi
    xi : K) (i j α : ℕ) : K :=
  match α with
  | 0 => Gen.PlateNum.fint_fint_0 S P Mxx Mxy Myy Nxx Nxy Nyy eta intx inty weight weta wxi xi i j
  | 1 => Gen.PlateNum.fint_fint_1 S P Mxx Mxy Myy Nxx Nxy Nyy eta intx inty weight weta wxi xi i j
  | _ => Gen.PlateNum.fint_fint_2 S P Mxx Mxy Myy Nxx Nxy Nyy eta intx inty weight weta wxi xi i j

/-- The three values written by the cylinder `calc_fint` for one basis function. -/
def cylFintVal (S : Shape K) (P : Panel K) (Mxx Mxy Myy Nxx Nxy Nyy eta intx inty weight weta wxi
    xi : K) (i j α : ℕ) : K :=
  match α with
  | 0 => Gen.CylNum.fint_fint_0 S P Mxx Mxy Myy Nxx Nxy Nyy eta intx inty weight weta wxi xi i j
  | 1 => Gen.CylNum.fint_fint_1 S P Mxx Mxy Myy Nxx Nxy Nyy eta intx inty weight weta wxi xi i j
  | _ => Gen.CylNum.fint_fint_2 S P Mxx Mxy Myy Nxx Nxy Nyy eta intx inty weight weta wxi xi i j

theorem plateFintVal_eq (S : Shape K) (P : Panel K) (ha : P.a ≠ 0) (hb : P.b ≠ 0)
    (Mxx Mxy Myy Nxx Nxy Nyy eta intx inty weight weta wxi xi : K) (i j α : ℕ) (hα : α < 3) :
    plateFintVal S P Mxx Mxy Myy Nxx Nxy Nyy eta intx inty weight weta wxi xi i j α
      = weight * intx * inty / 4 * ∑ s ∈ range 6, six Nxx Nyy Nxy Mxx Myy Mxy s *
          vkE 0 (2 / P.a * wxi) (2 / P.b * weta) S P xi eta s i j α := by
  interval_cases α <;>
    simp only [plateFintVal, Gen.PlateNum.fint_fint_0, Gen.PlateNum.fint_fint_1,
      Gen.PlateNum.fint_fint_2, six, vkE, Shape.D, Panel.xf, Panel.yf, Finset.sum_range_succ,
      Finset.sum_range_zero, zero_mul, mul_zero, add_zero, zero_add] <;>
    field_simp <;> ring

theorem cylFintVal_eq (S : Shape K) (P : Panel K) (ha : P.a ≠ 0) (hb : P.b ≠ 0) (hr : P.r ≠ 0)
    (Mxx Mxy Myy Nxx Nxy Nyy eta intx inty weight weta wxi xi : K) (i j α : ℕ) (hα : α < 3) :
    cylFintVal S P Mxx Mxy Myy Nxx Nxy Nyy eta intx inty weight weta wxi xi i j α
      = weight * intx * inty / 4 * ∑ s ∈ range 6, six Nxx Nyy Nxy Mxx Myy Mxy s *
          vkE (1 / P.r) (2 / P.a * wxi) (2 / P.b * weta) S P xi eta s i j α := by
  interval_cases α <;>
    simp only [cylFintVal, Gen.CylNum.fint_fint_0, Gen.CylNum.fint_fint_1,
      Gen.CylNum.fint_fint_2, six, vkE, Shape.D, Panel.xf, Panel.yf, Finset.sum_range_succ,
      Finset.sum_range_zero, zero_mul, mul_zero, add_zero, zero_add] <;>
    field_simp <;> ring

end

theorem vdot_flatMap {ι : Type*} (l : List ι) (g : ι → Model.VecW K) (d : ℕ → K) :
    Model.vdot (l.flatMap g) d = (l.map fun a => Model.vdot (g a) d).sum := by
  unfold Model.vdot
  exact sum_map_flatMap l g _

/-- Product of a vector written basis function by basis function. -/
theorem vdot_dofs (m n s0 : ℕ) (v : ℕ → ℕ → ℕ → K) (d : ℕ → K) :
    Model.vdot ((List.range n).flatMap fun j => (List.range m).flatMap fun i =>
      [(s0 + dof m i j + 0, v i j 0), (s0 + dof m i j + 1, v i j 1),
       (s0 + dof m i j + 2, v i j 2)]) d
      = ∑ τ ∈ dofs m n, v τ.1.1 τ.1.2 τ.2 * d (s0 + dof m τ.1.1 τ.1.2 + τ.2) := by
  unfold dofs
  rw [Finset.sum_product (range m ×ˢ range n) (range 3), vdot_flatMap, list_sum_range]
  simp only [vdot_flatMap, list_sum_range]
  rw [sum_nm m n (fun i j => Model.vdot [(s0 + dof m i j + 0, v i j 0),
    (s0 + dof m i j + 1, v i j 1), (s0 + dof m i j + 2, v i j 2)] d)]
  refine Finset.sum_congr rfl fun A _ => ?_
  simp [Model.vdot, Finset.sum_range_succ]
  ring

/-- Virtual work expanded in the virtual displacements. -/
theorem work_field (m n s0 : ℕ) (d : ℕ → K) (N : ℕ) (W : K) (R : ℕ → K)
    (e : ℕ → ℕ → ℕ → ℕ → K) (v : ℕ → ℕ → ℕ → K)
    (hv : ∀ i j α, α < 3 → v i j α = W * ∑ s ∈ range N, R s * e s i j α) :
    ∑ τ ∈ dofs m n, v τ.1.1 τ.1.2 τ.2 * d (s0 + dof m τ.1.1 τ.1.2 + τ.2)
      = W * ∑ s ∈ range N, R s * field m n s0 d e s := by
  unfold field
  simp only [Finset.mul_sum]
  rw [Finset.sum_comm]
  refine Finset.sum_congr rfl fun τ hτ => ?_
  simp only [dofs, mem_product, mem_range] at hτ
  rw [hv _ _ _ hτ.2, Finset.mul_sum, Finset.sum_mul]
  exact Finset.sum_congr rfl fun s _ => by ring

section
variable [CharZero K] [DecidableEq K]

set_option maxHeartbeats 1000000 in
theorem strainF_vec (S : Shape K) (P : Panel K) (cs : ℕ → K)
    (s0 : ℕ) (ξ η : K) : (Model.strainF S P cs s0 ξ η).1 = wxi0 S P cs s0 ξ η ∧
    (Model.strainF S P cs s0 ξ η).2.1 = weta0 S P cs s0 ξ η ∧ ∀ s < 6,
    (Model.strainF S P cs s0 ξ η).2.2.vec s
      = natStrain 2 0 (2 / P.a * wxi0 S P cs s0 ξ η)
          (2 / P.b * weta0 S P cs s0 ξ η) S P s0 cs ξ η s := by
  have e1 : (∑ j ∈ range P.n, ∑ i ∈ range P.m,
      Gen.PlateNum.fint_wxi S P (cs (s0 + dof P.m i j + 2)) η ξ i j)
      = wxi0 S P cs s0 ξ η := by
    rw [sum_nm P.m P.n (fun i j =>
      Gen.PlateNum.fint_wxi S P (cs (s0 + dof P.m i j + 2)) η ξ i j)]
    exact Finset.sum_congr rfl fun A _ => by
      simp only [Gen.PlateNum.fint_wxi, Shape.D, Panel.xf, Panel.yf]; ring
  have e2 : (∑ j ∈ range P.n, ∑ i ∈ range P.m,
      Gen.PlateNum.fint_weta S P (cs (s0 + dof P.m i j + 2)) η ξ i j)
      = weta0 S P cs s0 ξ η := by
    rw [sum_nm P.m P.n (fun i j =>
      Gen.PlateNum.fint_weta S P (cs (s0 + dof P.m i j + 2)) η ξ i j)]
    exact Finset.sum_congr rfl fun A _ => by
      simp only [Gen.PlateNum.fint_weta, Shape.D, Panel.xf, Panel.yf]; ring
  refine ⟨e1, e2, ?_⟩
  intro s hs
  unfold Model.strainF
  simp only [e1, e2]
  generalize wxi0 S P cs s0 ξ η = wx
  generalize weta0 S P cs s0 ξ η = wy
  interval_cases s <;>
    simp only [Model.Strain.vec, natStrain, disp_eq, Finset.mul_sum, Finset.sum_div,
      ← Finset.sum_add_distrib, ← Finset.sum_neg_distrib] <;>
    rw [sum_nm P.m P.n] <;>
    refine Finset.sum_congr rfl fun A _ => ?_ <;>
    simp only [Gen.PlateNum.fint_exx, Gen.PlateNum.fint_eyy, Gen.PlateNum.fint_gxy,
      Gen.PlateNum.fint_kxx, Gen.PlateNum.fint_kyy, Gen.PlateNum.fint_kxy,
      Shape.D, Panel.xf, Panel.yf, add_zero] <;>
    ring

set_option maxHeartbeats 1000000 in
theorem strainFcyl_vec (S : Shape K) (P : Panel K) (cs : ℕ → K)
    (s0 : ℕ) (ξ η : K) : (Model.strainFcyl S P cs s0 ξ η).1 = wxi0 S P cs s0 ξ η ∧
    (Model.strainFcyl S P cs s0 ξ η).2.1 = weta0 S P cs s0 ξ η ∧ ∀ s < 6,
    (Model.strainFcyl S P cs s0 ξ η).2.2.vec s
      = natStrain 2 (1 / P.r) (2 / P.a * wxi0 S P cs s0 ξ η)
          (2 / P.b * weta0 S P cs s0 ξ η) S P s0 cs ξ η s := by
  have e1 : (∑ j ∈ range P.n, ∑ i ∈ range P.m,
      Gen.CylNum.fint_wxi S P (cs (s0 + dof P.m i j + 2)) η ξ i j)
      = wxi0 S P cs s0 ξ η := by
    rw [sum_nm P.m P.n (fun i j =>
      Gen.CylNum.fint_wxi S P (cs (s0 + dof P.m i j + 2)) η ξ i j)]
    exact Finset.sum_congr rfl fun A _ => by
      simp only [Gen.CylNum.fint_wxi, Shape.D, Panel.xf, Panel.yf]; ring
  have e2 : (∑ j ∈ range P.n, ∑ i ∈ range P.m,
      Gen.CylNum.fint_weta S P (cs (s0 + dof P.m i j + 2)) η ξ i j)
      = weta0 S P cs s0 ξ η := by
    rw [sum_nm P.m P.n (fun i j =>
      Gen.CylNum.fint_weta S P (cs (s0 + dof P.m i j + 2)) η ξ i j)]
    exact Finset.sum_congr rfl fun A _ => by
      simp only [Gen.CylNum.fint_weta, Shape.D, Panel.xf, Panel.yf]; ring
  refine ⟨e1, e2, ?_⟩
  intro s hs
  unfold Model.strainFcyl
  simp only [e1, e2]
  generalize wxi0 S P cs s0 ξ η = wx
  generalize weta0 S P cs s0 ξ η = wy
  interval_cases s <;>
    simp only [Model.Strain.vec, natStrain, disp_eq, Finset.mul_sum, Finset.sum_div,
      ← Finset.sum_add_distrib, ← Finset.sum_neg_distrib] <;>
    rw [sum_nm P.m P.n] <;>
    refine Finset.sum_congr rfl fun A _ => ?_ <;>
    simp only [Gen.CylNum.fint_exx, Gen.CylNum.fint_eyy, Gen.CylNum.fint_gxy,
      Gen.CylNum.fint_kxx, Gen.CylNum.fint_kyy, Gen.CylNum.fint_kxy,
      Shape.D, Panel.xf, Panel.yf, add_zero] <;>
    ring

/-- Membrane forces and moments are `ABD ε`. -/
theorem plate_resultants (F : ℕ → ℕ → K) (hF : Spec.ABDSym F) (e : Model.Strain K) (s : ℕ)
    (hs : s < 6) :
    six (Gen.PlateNum.fint_Nxx (Lam.ofABD F) e.exx e.eyy e.gxy e.kxx e.kxy e.kyy)
      (Gen.PlateNum.fint_Nyy (Lam.ofABD F) e.exx e.eyy e.gxy e.kxx e.kxy e.kyy)
      (Gen.PlateNum.fint_Nxy (Lam.ofABD F) e.exx e.eyy e.gxy e.kxx e.kxy e.kyy)
      (Gen.PlateNum.fint_Mxx (Lam.ofABD F) e.exx e.eyy e.gxy e.kxx e.kxy e.kyy)
      (Gen.PlateNum.fint_Myy (Lam.ofABD F) e.exx e.eyy e.gxy e.kxx e.kxy e.kyy)
      (Gen.PlateNum.fint_Mxy (Lam.ofABD F) e.exx e.eyy e.gxy e.kxx e.kxy e.kyy) s
      = Spec.resultant F e.vec s := by
  interval_cases s <;>
    simp only [six, Spec.resultant, Finset.sum_range_succ, Finset.sum_range_zero, Lam.ofABD,
      Model.Strain.vec, Gen.PlateNum.fint_Nxx, Gen.PlateNum.fint_Nyy, Gen.PlateNum.fint_Nxy,
      Gen.PlateNum.fint_Mxx, Gen.PlateNum.fint_Myy, Gen.PlateNum.fint_Mxy,
      hF.b12, hF.b16, hF.b26, hF.symm 1 0, hF.symm 2 0, hF.symm 2 1, hF.symm 3 0, hF.symm 4 0,
      hF.symm 5 0, hF.symm 3 1, hF.symm 4 1, hF.symm 5 1, hF.symm 3 2, hF.symm 4 2, hF.symm 5 2,
      hF.symm 4 3, hF.symm 5 3, hF.symm 5 4] <;> ring

theorem cyl_resultants (F : ℕ → ℕ → K) (hF : Spec.ABDSym F) (e : Model.Strain K) (s : ℕ)
    (hs : s < 6) :
    six (Gen.CylNum.fint_Nxx (Lam.ofABD F) e.exx e.eyy e.gxy e.kxx e.kxy e.kyy)
      (Gen.CylNum.fint_Nyy (Lam.ofABD F) e.exx e.eyy e.gxy e.kxx e.kxy e.kyy)
      (Gen.CylNum.fint_Nxy (Lam.ofABD F) e.exx e.eyy e.gxy e.kxx e.kxy e.kyy)
      (Gen.CylNum.fint_Mxx (Lam.ofABD F) e.exx e.eyy e.gxy e.kxx e.kxy e.kyy)
      (Gen.CylNum.fint_Myy (Lam.ofABD F) e.exx e.eyy e.gxy e.kxx e.kxy e.kyy)
      (Gen.CylNum.fint_Mxy (Lam.ofABD F) e.exx e.eyy e.gxy e.kxx e.kxy e.kyy) s
      = Spec.resultant F e.vec s := by
  interval_cases s <;>
    simp only [six, Spec.resultant, Finset.sum_range_succ, Finset.sum_range_zero, Lam.ofABD,
      Model.Strain.vec, Gen.CylNum.fint_Nxx, Gen.CylNum.fint_Nyy, Gen.CylNum.fint_Nxy,
      Gen.CylNum.fint_Mxx, Gen.CylNum.fint_Myy, Gen.CylNum.fint_Mxy,
      hF.b12, hF.b16, hF.b26, hF.symm 1 0, hF.symm 2 0, hF.symm 2 1, hF.symm 3 0, hF.symm 4 0,
      hF.symm 5 0, hF.symm 3 1, hF.symm 4 1, hF.symm 5 1, hF.symm 3 2, hF.symm 4 2, hF.symm 5 2,
      hF.symm 4 3, hF.symm 5 3, hF.symm 5 4] <;> ring

theorem resultant_congr (F : ℕ → ℕ → K) (e e' : ℕ → K) (h : ∀ s < 6, e s = e' s) (s : ℕ) :
    Spec.resultant F e s = Spec.resultant F e' s :=
  Finset.sum_congr rfl fun t ht => by rw [h t (mem_range.1 ht)]

theorem natStrain_vk (g κ : K) (S : Shape K) (P : Panel K) (s0 : ℕ) (c : ℕ → K) (x y : K)
    (s : ℕ) (hs : s < 6) :
    natStrain g κ (2 / P.a * wxi0 S P c s0 (2 / P.a * x - 1) (2 / P.b * y - 1))
      (2 / P.b * weta0 S P c s0 (2 / P.a * x - 1) (2 / P.b * y - 1)) S P s0 c
      (2 / P.a * x - 1) (2 / P.b * y - 1) s = Spec.vkWith g κ S P s0 c s x y := by
  rw [wx_eq, wy_eq]
  interval_cases s <;> simp only [natStrain, Spec.vkWith, Spec.lin] <;> ring

theorem field_vkVar (κ : K) (S : Shape K) (P : Panel K) (s0 : ℕ) (c d : ℕ → K) (x y : K)
    (s : ℕ) (hs : s < 6) :
    field P.m P.n s0 d (vkE κ (2 / P.a * wxi0 S P c s0 (2 / P.a * x - 1) (2 / P.b * y - 1))
      (2 / P.b * weta0 S P c s0 (2 / P.a * x - 1) (2 / P.b * y - 1)) S P
      (2 / P.a * x - 1) (2 / P.b * y - 1)) s = Spec.vkVar κ S P s0 c d s x y := by
  rw [wx_eq, wy_eq, field_vkE _ _ _ _ _ _ _ _ _ _ hs]
  interval_cases s <;> simp only [Spec.vkVar, Spec.lin] <;> ring

theorem field_lin (κ : K) (S : Shape K) (P : Panel K) (s0 : ℕ) (d : ℕ → K) (x y : K)
    (s : ℕ) (hs : s < 6) :
    field P.m P.n s0 d (vkE κ (2 / P.a * 0) (2 / P.b * 0) S P
      (2 / P.a * x - 1) (2 / P.b * y - 1)) s = Spec.lin κ S P s0 d s x y := by
  rw [field_vkE _ _ _ _ _ _ _ _ _ _ hs]
  interval_cases s <;> simp only [Spec.lin] <;> ring

/-- Virtual work of the plate internal force. -/
theorem plateFint_work (S : Shape K) (G : GaussTab K) (P : Panel K) (ha : P.a ≠ 0) (hb : P.b ≠ 0)
    (F : ℕ → ℕ → ℕ → ℕ → K) (hF : ∀ p q, Spec.ABDSym (F p q)) (c d : ℕ → K) (s0 nx ny : ℕ) :
    Model.vdot (Model.plateFintF S G P F c s0 nx ny) d
      = Spec.gaussP G nx ny P fun p q x y => ∑ s ∈ range 6,
          Spec.resultant (F p q) (fun t => Spec.vkWith 2 0 S P s0 c t x y) s *
            Spec.vkVar 0 S P s0 c d s x y := by
  unfold Model.plateFintF
  rw [vdot_flatMap]
  have key := grid_gauss G P ha hb nx ny (fun p q ξ η => ∑ s ∈ range 6,
    Spec.resultant (F p q) (natStrain 2 0 (2 / P.a * wxi0 S P c s0 ξ η)
      (2 / P.b * weta0 S P c s0 ξ η) S P s0 c ξ η) s *
    field P.m P.n s0 d (vkE 0 (2 / P.a * wxi0 S P c s0 ξ η) (2 / P.b * weta0 S P c s0 ξ η) S P
      ξ η) s)
  refine Eq.trans ?_ (key.trans ?_)
  · congr 1
    refine List.map_congr_left fun p _ => ?_
    simp only []
    generalize Model.xiAt G P nx p.1 = ξ
    generalize Model.etaAt G P ny p.2 = η
    obtain ⟨h1, h2, h3⟩ := strainF_vec S P c s0 ξ η
    have e := vdot_dofs P.m P.n s0 (plateFintVal S P
      (Gen.PlateNum.fint_Mxx (Lam.ofABD (F p.1 p.2)) (Model.strainF S P c s0 ξ η).2.2.exx
        (Model.strainF S P c s0 ξ η).2.2.eyy (Model.strainF S P c s0 ξ η).2.2.gxy
        (Model.strainF S P c s0 ξ η).2.2.kxx (Model.strainF S P c s0 ξ η).2.2.kxy
        (Model.strainF S P c s0 ξ η).2.2.kyy)
      (Gen.PlateNum.fint_Mxy (Lam.ofABD (F p.1 p.2)) (Model.strainF S P c s0 ξ η).2.2.exx
        (Model.strainF S P c s0 ξ η).2.2.eyy (Model.strainF S P c s0 ξ η).2.2.gxy
        (Model.strainF S P c s0 ξ η).2.2.kxx (Model.strainF S P c s0 ξ η).2.2.kxy
        (Model.strainF S P c s0 ξ η).2.2.kyy)
      (Gen.PlateNum.fint_Myy (Lam.ofABD (F p.1 p.2)) (Model.strainF S P c s0 ξ η).2.2.exx
        (Model.strainF S P c s0 ξ η).2.2.eyy (Model.strainF S P c s0 ξ η).2.2.gxy
        (Model.strainF S P c s0 ξ η).2.2.kxx (Model.strainF S P c s0 ξ η).2.2.kxy
        (Model.strainF S P c s0 ξ η).2.2.kyy)
      (Gen.PlateNum.fint_Nxx (Lam.ofABD (F p.1 p.2)) (Model.strainF S P c s0 ξ η).2.2.exx
        (Model.strainF S P c s0 ξ η).2.2.eyy (Model.strainF S P c s0 ξ η).2.2.gxy
        (Model.strainF S P c s0 ξ η).2.2.kxx (Model.strainF S P c s0 ξ η).2.2.kxy
        (Model.strainF S P c s0 ξ η).2.2.kyy)
      (Gen.PlateNum.fint_Nxy (Lam.ofABD (F p.1 p.2)) (Model.strainF S P c s0 ξ η).2.2.exx
        (Model.strainF S P c s0 ξ η).2.2.eyy (Model.strainF S P c s0 ξ η).2.2.gxy
        (Model.strainF S P c s0 ξ η).2.2.kxx (Model.strainF S P c s0 ξ η).2.2.kxy
        (Model.strainF S P c s0 ξ η).2.2.kyy)
      (Gen.PlateNum.fint_Nyy (Lam.ofABD (F p.1 p.2)) (Model.strainF S P c s0 ξ η).2.2.exx
        (Model.strainF S P c s0 ξ η).2.2.eyy (Model.strainF S P c s0 ξ η).2.2.gxy
        (Model.strainF S P c s0 ξ η).2.2.kxx (Model.strainF S P c s0 ξ η).2.2.kxy
        (Model.strainF S P c s0 ξ η).2.2.kyy)
      η (Model.sub P).intx (Model.sub P).inty (Model.weightAt G nx ny p.1 p.2)
      (Model.strainF S P c s0 ξ η).2.1 (Model.strainF S P c s0 ξ η).1 ξ) d
    refine Eq.trans e ?_
    rw [work_field P.m P.n s0 d 6 _ _ _ _ (fun i j α hα => plateFintVal_eq S P ha hb _ _ _ _ _ _ _
      _ _ _ _ _ _ i j α hα)]
    congr 1
    refine Finset.sum_congr rfl fun s hs => ?_
    rw [plate_resultants (F p.1 p.2) (hF p.1 p.2) _ s (mem_range.1 hs), h1, h2,
      resultant_congr _ _ _ h3]
  · congr 1
    funext p q x y
    refine Finset.sum_congr rfl fun s hs => ?_
    rw [field_vkVar _ _ _ _ _ _ _ _ _ (mem_range.1 hs),
      resultant_congr _ _ _ fun t ht => natStrain_vk 2 0 S P s0 c x y t ht]

/-- Virtual work of the cylinder internal force. -/
theorem cylFint_work (S : Shape K) (G : GaussTab K) (P : Panel K) (ha : P.a ≠ 0) (hb : P.b ≠ 0)
    (hr : P.r ≠ 0)
    (F : ℕ → ℕ → ℕ → ℕ → K) (hF : ∀ p q, Spec.ABDSym (F p q)) (c d : ℕ → K) (s0 nx ny : ℕ) :
    Model.vdot (Model.cylFintF S G P F c s0 nx ny) d
      = Spec.gaussP G nx ny P fun p q x y => ∑ s ∈ range 6,
          Spec.resultant (F p q) (fun t => Spec.vkWith 2 (1 / P.r) S P s0 c t x y) s *
            Spec.vkVar (1 / P.r) S P s0 c d s x y := by
  unfold Model.cylFintF
  rw [vdot_flatMap]
  have key := grid_gauss G P ha hb nx ny (fun p q ξ η => ∑ s ∈ range 6,
    Spec.resultant (F p q) (natStrain 2 (1 / P.r) (2 / P.a * wxi0 S P c s0 ξ η)
      (2 / P.b * weta0 S P c s0 ξ η) S P s0 c ξ η) s *
    field P.m P.n s0 d (vkE (1 / P.r) (2 / P.a * wxi0 S P c s0 ξ η)
      (2 / P.b * weta0 S P c s0 ξ η) S P ξ η) s)
  refine Eq.trans ?_ (key.trans ?_)
  · congr 1
    refine List.map_congr_left fun p _ => ?_
    simp only []
    generalize Model.xiAt G P nx p.1 = ξ
    generalize Model.etaAt G P ny p.2 = η
    obtain ⟨h1, h2, h3⟩ := strainFcyl_vec S P c s0 ξ η
    generalize hw : Model.strainFcyl S P c s0 ξ η = w at *
    have e := vdot_dofs P.m P.n s0 (cylFintVal S P
      (Gen.CylNum.fint_Mxx (Lam.ofABD (F p.1 p.2)) w.2.2.exx w.2.2.eyy w.2.2.gxy w.2.2.kxx
        w.2.2.kxy w.2.2.kyy)
      (Gen.CylNum.fint_Mxy (Lam.ofABD (F p.1 p.2)) w.2.2.exx w.2.2.eyy w.2.2.gxy w.2.2.kxx
        w.2.2.kxy w.2.2.kyy)
      (Gen.CylNum.fint_Myy (Lam.ofABD (F p.1 p.2)) w.2.2.exx w.2.2.eyy w.2.2.gxy w.2.2.kxx
        w.2.2.kxy w.2.2.kyy)
      (Gen.CylNum.fint_Nxx (Lam.ofABD (F p.1 p.2)) w.2.2.exx w.2.2.eyy w.2.2.gxy w.2.2.kxx
        w.2.2.kxy w.2.2.kyy)
      (Gen.CylNum.fint_Nxy (Lam.ofABD (F p.1 p.2)) w.2.2.exx w.2.2.eyy w.2.2.gxy w.2.2.kxx
        w.2.2.kxy w.2.2.kyy)
      (Gen.CylNum.fint_Nyy (Lam.ofABD (F p.1 p.2)) w.2.2.exx w.2.2.eyy w.2.2.gxy w.2.2.kxx
        w.2.2.kxy w.2.2.kyy)
      η (Model.sub P).intx (Model.sub P).inty (Model.weightAt G nx ny p.1 p.2) w.2.1 w.1 ξ) d
    refine Eq.trans e ?_
    rw [work_field P.m P.n s0 d 6 _ _ _ _ (fun i j α hα => cylFintVal_eq S P ha hb hr _ _ _ _ _ _ _
      _ _ _ _ _ _ i j α hα)]
    congr 1
    refine Finset.sum_congr rfl fun s hs => ?_
    rw [cyl_resultants (F p.1 p.2) (hF p.1 p.2) _ s (mem_range.1 hs), h1, h2,
      resultant_congr _ _ _ h3]
  · congr 1
    funext p q x y
    refine Finset.sum_congr rfl fun s hs => ?_
    rw [field_vkVar _ _ _ _ _ _ _ _ _ (mem_range.1 hs),
      resultant_congr _ _ _ fun t ht => natStrain_vk 2 (1 / P.r) S P s0 c x y t ht]

end
end Verif
