import Verif.Proofs.Nest
import Verif.Proofs.Definite
import Verif.Props.C76

/-!
# C79: more terms refine the model: matrices with fewer terms are blocks of those with more
-/

set_option linter.unusedSectionVars false

namespace Verif.C79

open Spec Model Indep Finset

section
variable {K : Type*} [Field K]

/-- The panel with `m'` by `n'` terms. -/
def more (P : Panel K) (m' n' : ℕ) : Panel K := { P with m := m', n := n' }

variable (I : Tab K) (S : Shape K) (G : GaussTab K) (P : Panel K) {m' n' : ℕ} (hm : P.m ≤ m')
  (hn : P.n ≤ n') (s s' : ℕ)
include hm hn

/-! ## Closed form -/

theorem stiffness_ana (F : ℕ → ℕ → K) :
    Nested P.m P.n s m' s' (plateFk0 I P F s s) (plateFk0 I (more P m' n') F s' s') ∧
    Nested P.m P.n s m' s' (cylFk0 I P F s s) (cylFk0 I (more P m' n') F s' s') :=
  ⟨(symBuild_nested hm hn s s' (by decide) (by decide) fun _ _ _ _ _ _ => rfl).pad _ _,
    (symBuild_nested hm hn s s' (by decide) (by decide) fun _ _ _ _ _ _ => rfl).pad _ _⟩

theorem geometric_ana (Nxx Nyy Nxy : K) :
    Nested P.m P.n s m' s' (plateFkG0 I P Nxx Nyy Nxy s s)
      (plateFkG0 I (more P m' n') Nxx Nyy Nxy s' s') ∧
    Nested P.m P.n s m' s' (cylFkG0 I P Nxx Nyy Nxy s s)
      (cylFkG0 I (more P m' n') Nxx Nyy Nxy s' s') :=
  ⟨(symBuild_nested hm hn s s' (by decide) (by decide) fun _ _ _ _ _ _ => rfl).pad _ _,
    (symBuild_nested hm hn s s' (by decide) (by decide) fun _ _ _ _ _ _ => rfl).pad _ _⟩

theorem mass_ana (d h rho : K) :
    Nested P.m P.n s m' s' (plateFkM I P d h rho s s) (plateFkM I (more P m' n') d h rho s' s') ∧
    Nested P.m P.n s m' s' (cylFkM I P d h rho s s) (cylFkM I (more P m' n') d h rho s' s') :=
  ⟨(symBuild_nested hm hn s s' (by decide) (by decide) fun _ _ _ _ _ _ => rfl).pad _ _,
    (symBuild_nested hm hn s s' (by decide) (by decide) fun _ _ _ _ _ _ => rfl).pad _ _⟩

theorem aero_ana (beta gamma aeromu : K) :
    Nested P.m P.n s m' s' (plateFkAx I P beta s s) (plateFkAx I (more P m' n') beta s' s') ∧
    Nested P.m P.n s m' s' (plateFkAy I P beta s s) (plateFkAy I (more P m' n') beta s' s') ∧
    Nested P.m P.n s m' s' (plateFcA I P aeromu s s) (plateFcA I (more P m' n') aeromu s' s') ∧
    Nested P.m P.n s m' s' (cylFkAx I P beta gamma s s)
      (cylFkAx I (more P m' n') beta gamma s' s') ∧
    Nested P.m P.n s m' s' (cylFkAy I P beta s s) (cylFkAy I (more P m' n') beta s' s') ∧
    Nested P.m P.n s m' s' (cylFcA I P aeromu s s) (cylFcA I (more P m' n') aeromu s' s') :=
  ⟨(symBuild_nested hm hn s s' (by decide) (by decide) fun _ _ _ _ _ _ => rfl).pad _ _,
    (symBuild_nested hm hn s s' (by decide) (by decide) fun _ _ _ _ _ _ => rfl).pad _ _,
    (symBuild_nested hm hn s s' (by decide) (by decide) fun _ _ _ _ _ _ => rfl).pad _ _,
    (symBuild_nested hm hn s s' (by decide) (by decide) fun _ _ _ _ _ _ => rfl).pad _ _,
    (symBuild_nested hm hn s s' (by decide) (by decide) fun _ _ _ _ _ _ => rfl).pad _ _,
    (symBuild_nested hm hn s s' (by decide) (by decide) fun _ _ _ _ _ _ => rfl).pad _ _⟩

/-! ## By quadrature, with the same rule -/

variable [DecidableEq K]

theorem mass_num (off : K) (h rho : ℕ → ℕ → K) (nx ny : ℕ) :
    Nested P.m P.n s m' s' (fkMnumF S G P off h rho s s nx ny)
      (fkMnumF S G (more P m' n') off h rho s' s' nx ny) :=
  (accum_nested _ hm hn s s' (by decide) (by decide) fun _ _ _ _ _ _ _ => rfl).pad _ _

theorem aero_num (beta gamma : K) (nx ny : ℕ) :
    Nested P.m P.n s m' s' (plateFkAxNum S G P beta gamma s s nx ny)
      (plateFkAxNum S G (more P m' n') beta gamma s' s' nx ny) ∧
    Nested P.m P.n s m' s' (cylFkAxNum S G P beta gamma s s nx ny)
      (cylFkAxNum S G (more P m' n') beta gamma s' s' nx ny) ∧
    Nested P.m P.n s m' s' (fkAyNum S G P beta s s nx ny)
      (fkAyNum S G (more P m' n') beta s' s' nx ny) :=
  ⟨(accum_nested _ hm hn s s' (by decide) (by decide) fun _ _ _ _ _ _ _ => rfl).pad _ _,
    (accum_nested _ hm hn s s' (by decide) (by decide) fun _ _ _ _ _ _ _ => rfl).pad _ _,
    (accum_nested _ hm hn s s' (by decide) (by decide) fun _ _ _ _ _ _ _ => rfl).pad _ _⟩

section
variable {c c' : ℕ → K} (hc : Extends P.m P.n s m' n' s' c c')
include hc

theorem wxi_more (NL : ℕ) (xi eta : K) :
    wxiC S (more P m' n') c' s' NL xi eta = wxiC S P c s NL xi eta ∧
    wetaC S (more P m' n') c' s' NL xi eta = wetaC S P c s NL xi eta ∧
    wxiCcyl S (more P m' n') c' s' NL xi eta = wxiCcyl S P c s NL xi eta ∧
    wetaCcyl S (more P m' n') c' s' NL xi eta = wetaCcyl S P c s NL xi eta := by
  unfold wxiC wetaC wxiCcyl wetaCcyl
  refine ⟨?_, ?_, ?_, ?_⟩
  · split
    · exact hc.sum hm hn (e := fun _ _ w i j => Gen.PlateNum.fkC_num_wxi S P w eta xi i j)
        fun i j => by simp [Gen.PlateNum.fkC_num_wxi]
    · rfl
  · split
    · exact hc.sum hm hn (e := fun _ _ w i j => Gen.PlateNum.fkC_num_weta S P w eta xi i j)
        fun i j => by simp [Gen.PlateNum.fkC_num_weta]
    · rfl
  · split
    · exact hc.sum hm hn (e := fun _ _ w i j => Gen.CylNum.fkC_num_wxi S P w eta xi i j)
        fun i j => by simp [Gen.CylNum.fkC_num_wxi]
    · rfl
  · split
    · exact hc.sum hm hn (e := fun _ _ w i j => Gen.CylNum.fkC_num_weta S P w eta xi i j)
        fun i j => by simp [Gen.CylNum.fkC_num_weta]
    · rfl

/-- The stiffness about a state, of the state with zero for the additional amplitudes. -/
theorem stiffness_num (F : ℕ → ℕ → ℕ → ℕ → K) (nx ny NL : ℕ) :
    Nested P.m P.n s m' s' (plateFkCnumF S G P F c s s nx ny NL)
      (plateFkCnumF S G (more P m' n') F c' s' s' nx ny NL) ∧
    Nested P.m P.n s m' s' (cylFkCnumF S G P F c s s nx ny NL)
      (cylFkCnumF S G (more P m' n') F c' s' s' nx ny NL) := by
  have w := fun xi eta => wxi_more S P hm hn s s' hc NL xi eta
  constructor
  · refine (accum_nested _ hm hn s s' (by decide) (by decide) fun x i k j l a b => ?_).pad _ _
    rw [(w _ _).1, (w _ _).2.1]
    rfl
  · refine (accum_nested _ hm hn s s' (by decide) (by decide) fun x i k j l a b => ?_).pad _ _
    rw [(w _ _).2.2.1, (w _ _).2.2.2]
    rfl

/-- Sums over the terms inside the loops over the points. -/
theorem acc_more {e : Shape K → Panel K → K → K → K → K → K → K → K → ℕ → ℕ → K} {eta we wx xi : K}
    (h0 : ∀ i j, e S P 0 0 0 eta we wx xi i j = 0)
    (h1 : ∀ u v w i j, e S (more P m' n') u v w eta we wx xi i j = e S P u v w eta we wx xi i j) :
    ∑ j ∈ range n', ∑ i ∈ range m', e S (more P m' n') (c' (s' + dof m' i j + 0))
        (c' (s' + dof m' i j + 1)) (c' (s' + dof m' i j + 2)) eta we wx xi i j
      = ∑ j ∈ range P.n, ∑ i ∈ range P.m, e S P (c (s + dof P.m i j + 0))
        (c (s + dof P.m i j + 1)) (c (s + dof P.m i j + 2)) eta we wx xi i j := by
  simp only [h1]
  exact hc.sum hm hn (e := fun u v w i j => e S P u v w eta we wx xi i j) h0

/-- The same for the slopes. -/
theorem slope_more {e : Shape K → Panel K → K → K → K → ℕ → ℕ → K} {eta xi : K}
    (h0 : ∀ i j, e S P 0 eta xi i j = 0)
    (h1 : ∀ w i j, e S (more P m' n') w eta xi i j = e S P w eta xi i j) :
    ∑ j ∈ range n', ∑ i ∈ range m', e S (more P m' n') (c' (s' + dof m' i j + 2)) eta xi i j
      = ∑ j ∈ range P.n, ∑ i ∈ range P.m, e S P (c (s + dof P.m i j + 2)) eta xi i j := by
  simp only [h1]
  exact hc.sum hm hn (e := fun _ _ w i j => e S P w eta xi i j) h0

theorem strainG_more (NL : ℕ) (xi eta : K) :
    strainG S (more P m' n') c' s' NL xi eta = strainG S P c s NL xi eta := by
  have w1 := slope_more S P hm hn s s' hc (e := Gen.PlateNum.fkG_num_wxi) (eta := eta) (xi := xi)
    (fun i j => by simp [Gen.PlateNum.fkG_num_wxi]) fun _ _ _ => rfl
  have w2 := slope_more S P hm hn s s' hc (e := Gen.PlateNum.fkG_num_weta) (eta := eta) (xi := xi)
    (fun i j => by simp [Gen.PlateNum.fkG_num_weta]) fun _ _ _ => rfl
  unfold strainG
  simp only [show (more P m' n').m = m' from rfl, show (more P m' n').n = n' from rfl, w1, w2,
    Strain.mk.injEq]
  exact ⟨acc_more S P hm hn s s' hc (e := Gen.PlateNum.fkG_num_exx) (fun i j => by simp [Gen.PlateNum.fkG_num_exx])
      fun _ _ _ _ _ => rfl,
    acc_more S P hm hn s s' hc (e := Gen.PlateNum.fkG_num_eyy) (fun i j => by simp [Gen.PlateNum.fkG_num_eyy])
      fun _ _ _ _ _ => rfl,
    acc_more S P hm hn s s' hc (e := Gen.PlateNum.fkG_num_gxy) (fun i j => by simp [Gen.PlateNum.fkG_num_gxy])
      fun _ _ _ _ _ => rfl,
    acc_more S P hm hn s s' hc (e := Gen.PlateNum.fkG_num_kxx) (fun i j => by simp [Gen.PlateNum.fkG_num_kxx])
      fun _ _ _ _ _ => rfl,
    acc_more S P hm hn s s' hc (e := Gen.PlateNum.fkG_num_kyy) (fun i j => by simp [Gen.PlateNum.fkG_num_kyy])
      fun _ _ _ _ _ => rfl,
    acc_more S P hm hn s s' hc (e := Gen.PlateNum.fkG_num_kxy) (fun i j => by simp [Gen.PlateNum.fkG_num_kxy])
      fun _ _ _ _ _ => rfl⟩

theorem strainGcyl_more (NL : ℕ) (xi eta : K) :
    strainGcyl S (more P m' n') c' s' NL xi eta = strainGcyl S P c s NL xi eta := by
  have w1 := slope_more S P hm hn s s' hc (e := Gen.CylNum.fkG_num_wxi) (eta := eta) (xi := xi)
    (fun i j => by simp [Gen.CylNum.fkG_num_wxi]) fun _ _ _ => rfl
  have w2 := slope_more S P hm hn s s' hc (e := Gen.CylNum.fkG_num_weta) (eta := eta) (xi := xi)
    (fun i j => by simp [Gen.CylNum.fkG_num_weta]) fun _ _ _ => rfl
  unfold strainGcyl
  simp only [show (more P m' n').m = m' from rfl, show (more P m' n').n = n' from rfl, w1, w2,
    Strain.mk.injEq]
  exact ⟨acc_more S P hm hn s s' hc (e := Gen.CylNum.fkG_num_exx) (fun i j => by simp [Gen.CylNum.fkG_num_exx])
      fun _ _ _ _ _ => rfl,
    acc_more S P hm hn s s' hc (e := Gen.CylNum.fkG_num_eyy) (fun i j => by simp [Gen.CylNum.fkG_num_eyy])
      fun _ _ _ _ _ => rfl,
    acc_more S P hm hn s s' hc (e := Gen.CylNum.fkG_num_gxy) (fun i j => by simp [Gen.CylNum.fkG_num_gxy])
      fun _ _ _ _ _ => rfl,
    acc_more S P hm hn s s' hc (e := Gen.CylNum.fkG_num_kxx) (fun i j => by simp [Gen.CylNum.fkG_num_kxx])
      fun _ _ _ _ _ => rfl,
    acc_more S P hm hn s s' hc (e := Gen.CylNum.fkG_num_kyy) (fun i j => by simp [Gen.CylNum.fkG_num_kyy])
      fun _ _ _ _ _ => rfl,
    acc_more S P hm hn s s' hc (e := Gen.CylNum.fkG_num_kxy) (fun i j => by simp [Gen.CylNum.fkG_num_kxy])
      fun _ _ _ _ _ => rfl⟩

theorem strainF_more (xi eta : K) :
    strainF S (more P m' n') c' s' xi eta = strainF S P c s xi eta := by
  have w1 := slope_more S P hm hn s s' hc (e := Gen.PlateNum.fint_wxi) (eta := eta) (xi := xi)
    (fun i j => by simp [Gen.PlateNum.fint_wxi]) fun _ _ _ => rfl
  have w2 := slope_more S P hm hn s s' hc (e := Gen.PlateNum.fint_weta) (eta := eta) (xi := xi)
    (fun i j => by simp [Gen.PlateNum.fint_weta]) fun _ _ _ => rfl
  unfold strainF
  simp only [show (more P m' n').m = m' from rfl, show (more P m' n').n = n' from rfl, w1, w2,
    Prod.mk.injEq, Strain.mk.injEq, true_and]
  exact ⟨acc_more S P hm hn s s' hc (e := Gen.PlateNum.fint_exx) (fun i j => by simp [Gen.PlateNum.fint_exx])
      fun _ _ _ _ _ => rfl,
    acc_more S P hm hn s s' hc (e := Gen.PlateNum.fint_eyy) (fun i j => by simp [Gen.PlateNum.fint_eyy])
      fun _ _ _ _ _ => rfl,
    acc_more S P hm hn s s' hc (e := Gen.PlateNum.fint_gxy) (fun i j => by simp [Gen.PlateNum.fint_gxy])
      fun _ _ _ _ _ => rfl,
    acc_more S P hm hn s s' hc (e := Gen.PlateNum.fint_kxx) (fun i j => by simp [Gen.PlateNum.fint_kxx])
      fun _ _ _ _ _ => rfl,
    acc_more S P hm hn s s' hc (e := Gen.PlateNum.fint_kyy) (fun i j => by simp [Gen.PlateNum.fint_kyy])
      fun _ _ _ _ _ => rfl,
    acc_more S P hm hn s s' hc (e := Gen.PlateNum.fint_kxy) (fun i j => by simp [Gen.PlateNum.fint_kxy])
      fun _ _ _ _ _ => rfl⟩

theorem strainFcyl_more (xi eta : K) :
    strainFcyl S (more P m' n') c' s' xi eta = strainFcyl S P c s xi eta := by
  have w1 := slope_more S P hm hn s s' hc (e := Gen.CylNum.fint_wxi) (eta := eta) (xi := xi)
    (fun i j => by simp [Gen.CylNum.fint_wxi]) fun _ _ _ => rfl
  have w2 := slope_more S P hm hn s s' hc (e := Gen.CylNum.fint_weta) (eta := eta) (xi := xi)
    (fun i j => by simp [Gen.CylNum.fint_weta]) fun _ _ _ => rfl
  unfold strainFcyl
  simp only [show (more P m' n').m = m' from rfl, show (more P m' n').n = n' from rfl, w1, w2,
    Prod.mk.injEq, Strain.mk.injEq, true_and]
  exact ⟨acc_more S P hm hn s s' hc (e := Gen.CylNum.fint_exx) (fun i j => by simp [Gen.CylNum.fint_exx])
      fun _ _ _ _ _ => rfl,
    acc_more S P hm hn s s' hc (e := Gen.CylNum.fint_eyy) (fun i j => by simp [Gen.CylNum.fint_eyy])
      fun _ _ _ _ _ => rfl,
    acc_more S P hm hn s s' hc (e := Gen.CylNum.fint_gxy) (fun i j => by simp [Gen.CylNum.fint_gxy])
      fun _ _ _ _ _ => rfl,
    acc_more S P hm hn s s' hc (e := Gen.CylNum.fint_kxx) (fun i j => by simp [Gen.CylNum.fint_kxx])
      fun _ _ _ _ _ => rfl,
    acc_more S P hm hn s s' hc (e := Gen.CylNum.fint_kyy) (fun i j => by simp [Gen.CylNum.fint_kyy])
      fun _ _ _ _ _ => rfl,
    acc_more S P hm hn s s' hc (e := Gen.CylNum.fint_kxy) (fun i j => by simp [Gen.CylNum.fint_kxy])
      fun _ _ _ _ _ => rfl⟩

/-- The geometric stiffness of a state. -/
theorem geometric_num (F : ℕ → ℕ → ℕ → ℕ → K) (nx ny NL : ℕ) (Nxx Nyy Nxy : K) :
    Nested P.m P.n s m' s' (plateFkGnumF S G P F c s s nx ny NL Nxx Nyy Nxy)
      (plateFkGnumF S G (more P m' n') F c' s' s' nx ny NL Nxx Nyy Nxy) ∧
    Nested P.m P.n s m' s' (cylFkGnumF S G P F c s s nx ny NL Nxx Nyy Nxy)
      (cylFkGnumF S G (more P m' n') F c' s' s' nx ny NL Nxx Nyy Nxy) := by
  constructor
  · refine (accumJL_nested _ hm hn s s' (by decide) (by decide) fun x i k j l a b => ?_).pad _ _
    rw [strainG_more S P hm hn s s' hc]
    rfl
  · refine (accumJL_nested _ hm hn s s' (by decide) (by decide) fun x i k j l a b => ?_).pad _ _
    rw [strainGcyl_more S P hm hn s s' hc]
    rfl

/-- The internal forces of a state. -/
theorem fint (F : ℕ → ℕ → ℕ → ℕ → K) (nx ny : ℕ) {i j α : ℕ} (hi : i < P.m) (hj : j < P.n)
    (hα : α < 3) :
    vget (plateFintF S G P F c s nx ny) (number P.m s i j α)
      = vget (plateFintF S G (more P m' n') F c' s' nx ny) (number m' s' i j α) ∧
    vget (cylFintF S G P F c s nx ny) (number P.m s i j α)
      = vget (cylFintF S G (more P m' n') F c' s' nx ny) (number m' s' i j α) := by
  constructor
  · refine vget_nested (grid nx ny) hm hn s s' (fun x i j => ?_) (fun x i j => ?_) (fun x i j => ?_)
      hi hj hα
    all_goals
      simp only [strainF_more S P hm hn s s' hc]
      rfl
  · refine vget_nested (grid nx ny) hm hn s s' (fun x i j => ?_) (fun x i j => ?_) (fun x i j => ?_)
      hi hj hα
    all_goals
      simp only [strainFcyl_more S P hm hn s s' hc]
      rfl

end
end

/-! ## What the refinement does to energies, frequencies and compliance -/

/-- The number, in the larger block, of the amplitude with the number `k` in the smaller one. -/
def place (m s m' s' k : ℕ) : ℕ := number m' s' ((k - s) / 3 % m) ((k - s) / 3 / m) ((k - s) % 3)

theorem place_number {m s m' s' i j α : ℕ} (hi : i < m) (hα : α < 3) :
    place m s m' s' (number m s i j α) = number m' s' i j α := by
  obtain ⟨d1, d2, d3⟩ := number_decode s (j := j) hi hα
  rw [place, d1, d2, d3]

section
variable {m n s m' s' : ℕ}

theorem place_inj (hm : m ≤ m') {k l : ℕ} (hk : k ∈ numbers m n s) (hl : l ∈ numbers m n s)
    (h : place m s m' s' k = place m s m' s' l) : k = l := by
  obtain ⟨i, hi, j, hj, α, hα, rfl⟩ := exists_number hk
  obtain ⟨i', hi', j', hj', α', hα', rfl⟩ := exists_number hl
  rw [place_number hi hα, place_number hi' hα'] at h
  obtain ⟨rfl, rfl, rfl⟩ := number_inj (hi.trans_le hm) (hi'.trans_le hm) hα hα' h
  rfl

theorem extend_place (hm : m ≤ m') (v : ℕ → ℝ) {k : ℕ} (hk : k ∈ numbers m n s) :
    extend m n s m' s' v (place m s m' s' k) = v k := by
  obtain ⟨i, hi, j, hj, α, hα, rfl⟩ := exists_number hk
  rw [place_number hi hα, extend_number v (hi.trans_le hm) hα, if_pos ⟨hi, hj⟩]

theorem entry_place {A B : Coo ℝ} (h : Nested m n s m' s' A B) {k l : ℕ} (hk : k ∈ numbers m n s)
    (hl : l ∈ numbers m n s) :
    Coo.entry A k l = Coo.entry B (place m s m' s' k) (place m s m' s' l) := by
  obtain ⟨i, hi, j, hj, α, hα, rfl⟩ := exists_number hk
  obtain ⟨i', hi', j', hj', β, hβ, rfl⟩ := exists_number hl
  rw [place_number hi hα, place_number hi' hβ]
  exact h i hi j hj α hα i' hi' j' hj' β hβ

/-- The extension is zero elsewhere. -/
theorem extend_zero (hm : m ≤ m') {v : ℕ → ℝ} {t : Finset ℕ} (ht : t ⊆ numbers m n s)
    (hv : ∀ k ∉ t, v k = 0) :
    ∀ k ∉ t.image (place m s m' s'), extend m n s m' s' v k = 0 := by
  intro k hk
  unfold extend
  split
  · rename_i h
    refine hv _ fun hmem => hk (Finset.mem_image.2 ⟨_, hmem, ?_⟩)
    rw [place_number h.2.1 (Nat.mod_lt _ (by norm_num))]
    have h1 := h.1
    have h2 := Nat.div_add_mod' ((k - s') / 3) m'
    unfold number
    omega
  · rfl

/-- **C79, energies.**  A set of amplitudes has the same energy in both models. -/
theorem energy (hm : m ≤ m') {A B : Coo ℝ} (h : Nested m n s m' s' A B) {v : ℕ → ℝ}
    (hv : ∀ k ∉ numbers m n s, v k = 0) :
    Coo.quad B (extend m n s m' s' v) = Coo.quad A v := by
  rw [bilin_act A _ hv, bilin_act B _ (extend_zero hm (Finset.Subset.refl _) hv),
    Finset.sum_image fun k hk l hl => place_inj hm hk hl]
  refine Finset.sum_congr rfl fun k hk => ?_
  rw [extend_place hm v hk, Finset.sum_image fun k hk l hl => place_inj hm hk hl]
  congr 1
  refine Finset.sum_congr rfl fun l hl => ?_
  rw [extend_place hm v hl, entry_place h hk hl]

/-- **C79, frequencies and buckling loads.**  A lower bound of the ratio of two energies (strain and
kinetic energy, strain energy and work of the load) in the larger model bounds the ratio in the smaller
one: more terms never raise the lowest frequency. -/
theorem lowest (hm : m ≤ m') {A B A' B' : Coo ℝ} (hA : Nested m n s m' s' A A')
    (hB : Nested m n s m' s' B B') {μ : ℝ} (h : ∀ w, μ * Coo.quad B' w ≤ Coo.quad A' w) {v : ℕ → ℝ}
    (hv : ∀ k ∉ numbers m n s, v k = 0) : μ * Coo.quad B v ≤ Coo.quad A v := by
  rw [← energy hm hA hv, ← energy hm hB hv]
  exact h _

end

theorem sum_comm2 (t : Finset ℕ) (a b : ℕ → ℝ) (e : ℕ → ℕ → ℝ) (he : ∀ k l, e k l = e l k) :
    ∑ k ∈ t, a k * ∑ l ∈ t, e k l * b l = ∑ k ∈ t, b k * ∑ l ∈ t, e k l * a l := by
  simp only [Finset.mul_sum]
  rw [Finset.sum_comm]
  refine Finset.sum_congr rfl fun k _ => Finset.sum_congr rfl fun l _ => ?_
  rw [he l k]
  ring

/-- **C79, static analysis.**  With the same forces on the terms they share, the work of the forces in the
larger model is never smaller: more terms never make the structure stiffer. -/
theorem compliance {P : Panel ℝ} {m' n' : ℕ} (hm : P.m ≤ m') (hn : P.n ≤ n') {s s' : ℕ} {A A' : Coo ℝ}
    (hN : Nested P.m P.n s m' s' A A') (hs : ∀ k l, Coo.entry A' k l = Coo.entry A' l k)
    (hp : C76.Definite (more P m' n') s' A') {f f' d d' : ℕ → ℝ}
    (hf : ∀ k ∈ C76.actives P s, f' (place P.m s m' s' k) = f k)
    (hd : ∀ k ∉ C76.actives P s, d k = 0)
    (he : ∀ k ∈ C76.actives P s, ∑ l ∈ C76.actives P s, Coo.entry A k l * d l = f k)
    (hd' : ∀ k ∉ C76.actives (more P m' n') s', d' k = 0)
    (he' : ∀ k ∈ C76.actives (more P m' n') s',
      ∑ l ∈ C76.actives (more P m' n') s', Coo.entry A' k l * d' l = f' k) :
    ∑ k ∈ C76.actives P s, f k * d k ≤ ∑ k ∈ C76.actives (more P m' n') s', f' k * d' k := by
  set t := C76.actives P s with ht
  set t' := C76.actives (more P m' n') s' with ht'
  have hsub : t ⊆ numbers P.m P.n s := by
    intro k hk
    obtain ⟨α, hα, i, hi, j, hj, -, -, rfl⟩ := (C76.mem_actives P s k).1 hk
    exact Finset.mem_Ico.2 ⟨by omega, number_lt (s := s) hi hj hα⟩
  have hmem : ∀ k ∈ t, place P.m s m' s' k ∈ t' := by
    intro k hk
    obtain ⟨α, hα, i, hi, j, hj, h1, h2, rfl⟩ := (C76.mem_actives P s k).1 hk
    refine (C76.mem_actives _ _ _).2 ⟨α, hα, i, hi.trans_le hm, j, hj.trans_le hn, h1, h2, ?_⟩
    exact place_number hi hα
  set w := extend P.m P.n s m' s' d with hw
  have hw0 : ∀ k ∉ t', w k = 0 := fun k hk => extend_zero hm hsub hd k fun h => by
    obtain ⟨l, hl, rfl⟩ := Finset.mem_image.1 h
    exact hk (hmem l hl)
  -- sums over the larger set with the extension
  have key : ∀ g : ℕ → ℝ, ∑ k ∈ t', w k * g k = ∑ k ∈ t, d k * g (place P.m s m' s' k) := by
    intro g
    rw [← Finset.sum_subset (s₁ := t.image (place P.m s m' s')) (fun k hk => by
      obtain ⟨l, hl, rfl⟩ := Finset.mem_image.1 hk
      exact hmem l hl) (fun k _ hk => by rw [hw, extend_zero hm hsub hd k hk, zero_mul]),
      Finset.sum_image fun k hk l hl => place_inj hm (hsub hk) (hsub hl)]
    exact Finset.sum_congr rfl fun k hk => by rw [hw, extend_place hm d (hsub hk)]
  have q1 : Coo.quad A' (fun k => d' k - w k)
      = ∑ k ∈ t', f' k * d' k - ∑ k ∈ t, f k * d k := by
    rw [bilin_act A' t' fun k hk => by rw [hd' k hk, hw0 k hk, sub_zero]]
    have e1 : ∑ k ∈ t', w k * ∑ l ∈ t', Coo.entry A' k l * d' l = ∑ k ∈ t, f k * d k := by
      rw [key]
      refine Finset.sum_congr rfl fun k hk => ?_
      rw [he' _ (hmem k hk), hf k hk, mul_comm]
    have e2 : ∑ k ∈ t', w k * ∑ l ∈ t', Coo.entry A' k l * w l = ∑ k ∈ t, f k * d k := by
      rw [key]
      refine Finset.sum_congr rfl fun k hk => ?_
      rw [← he k hk, mul_comm]
      congr 1
      have := key fun l => Coo.entry A' (place P.m s m' s' k) l
      simp only [mul_comm (w _)] at this
      rw [this]
      exact Finset.sum_congr rfl fun l hl => by rw [entry_place hN (hsub hk) (hsub hl), mul_comm]
    have e3 := sum_comm2 t' d' w (Coo.entry A') hs
    have e4 : ∑ k ∈ t', d' k * ∑ l ∈ t', Coo.entry A' k l * d' l = ∑ k ∈ t', f' k * d' k :=
      Finset.sum_congr rfl fun k hk => by rw [he' k hk, mul_comm]
    simp only [mul_sub, sub_mul, Finset.sum_sub_distrib]
    linarith
  have q0 : 0 ≤ Coo.quad A' (fun k => d' k - w k) := by
    by_cases h : ∃ k, Active (more P m' n') s' k ∧ d' k - w k ≠ 0
    · exact ((hp _).1 h).le
    · push Not at h
      exact ((hp _).2 h).ge
  linarith

/-! ## Concrete cases -/

/-- The tangent of a state of `Witness.panel` (5 by 7 terms) and of the panel with 9 by 7 terms. -/
example (c : ℕ → ℝ) : Nested 5 7 12 9 3
    (Coo.finalizeSym (cylFkCnumF (vecShape ℝ) (gaussTab ℝ) Witness.panel (fun _ _ => C13.lam) c 12 12
      12 12 1))
    (Coo.finalizeSym (cylFkCnumF (vecShape ℝ) (gaussTab ℝ) (more Witness.panel 9 7)
      (fun _ _ => C13.lam) (extend 5 7 12 9 3 c) 3 3 12 12 1)) :=
  (stiffness_num (vecShape ℝ) (gaussTab ℝ) Witness.panel (m' := 9) (n' := 7)
    (show 5 ≤ 9 by norm_num) (show 7 ≤ 7 by norm_num) 12 3 (extends_extend (show 5 ≤ 9 by norm_num) _ _ c)
    (fun _ _ => C13.lam) 12 12 1).2.finalize (show 5 ≤ 9 by norm_num)

/-- Linear static analysis of the same panels: both solutions exist, the finer one is the softer. -/
example (f : ℕ → ℝ) : ∃ d d' : ℕ → ℝ,
    (∀ k, Active Witness.panel 0 k → ∑ l ∈ C76.actives Witness.panel 0,
      Coo.entry (Coo.finalizeSym (plateFk0 (Tab.of (bardellShape ℝ) Mean.integral) Witness.panel C13.lam 0 0))
        k l * d l = f k) ∧
    (∀ k, Active (more Witness.panel 9 7) 0 k → ∑ l ∈ C76.actives (more Witness.panel 9 7) 0,
      Coo.entry (Coo.finalizeSym (plateFk0 (Tab.of (bardellShape ℝ) Mean.integral)
        (more Witness.panel 9 7) C13.lam 0 0)) k l * d' l = extend 5 7 0 9 0 f k) ∧
    ∑ k ∈ C76.actives Witness.panel 0, f k * d k
      ≤ ∑ k ∈ C76.actives (more Witness.panel 9 7) 0, extend 5 7 0 9 0 f k * d' k := by
  have D := fun P h1 h2 hS => (C76.stiffness_ana (Tab.of_exact (bardellShape ℝ) Mean.integral) P h1 h2
    hS C13.lam C13.lam_sym C76.lam_def 0).1
  have D1 := D Witness.panel (by simp [Witness.panel]) (by simp [Witness.panel]) C76.panel_supported
  have D2 := D (more Witness.panel 9 7) (by simp [Witness.panel, more]) (by simp [Witness.panel, more])
    C76.panel_supported
  obtain ⟨d, ⟨h1, h2⟩, -⟩ := C76.solvable D1 f
  obtain ⟨d', ⟨h3, h4⟩, -⟩ := C76.solvable D2 (extend 5 7 0 9 0 f)
  refine ⟨d, d', h2, h4, compliance (by simp [Witness.panel]) (by simp [Witness.panel])
    ((stiffness_ana _ Witness.panel (by simp [Witness.panel]) (by simp [Witness.panel]) 0 0 _).1.finalize
      (by simp [Witness.panel])) (fun k l => Coo.entry_finalizeSym_comm _ _ _) D2 (fun k hk => ?_)
    (fun k hk => h1 k fun h => hk ((C76.mem_actives _ _ _).2 h))
    (fun k hk => h2 k ((C76.mem_actives _ _ _).1 hk))
    (fun k hk => h3 k fun h => hk ((C76.mem_actives _ _ _).2 h))
    (fun k hk => h4 k ((C76.mem_actives _ _ _).1 hk))⟩
  obtain ⟨α, hα, i, hi, j, hj, -, -, rfl⟩ := (C76.mem_actives _ _ _).1 hk
  exact extend_place (by norm_num) f (Finset.mem_Ico.2 ⟨by omega, number_lt (s := 0) hi hj hα⟩)

end Verif.C79
