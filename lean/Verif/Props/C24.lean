import Verif.Proofs.Structure
import Verif.Model.Builders
import Verif.Model.Num
import Verif.Model.Conn
import Verif.Model.Stiff
import Verif.Spec.Witness

/-!
# C24: sparse assembly stays inside its buffers and inside the requested block

For every builder: the buffer keeps exactly its allocated length (`np.zeros(fdim)`; an overrun would
make the list longer), and every triplet that was written lies inside
`[row0, row0 + 3 m n) × [col0, col0 + 3 m n)`; positions never written keep the initial
zeros.  `Fits.inMatrix` turns this into indices of the matrix whenever the block fits.
-/

set_option linter.unusedSectionVars false

namespace Verif.C24

open Model

variable {K : Type*} [Field K]

theorem pat_ok {pat : List (ℕ × ℕ)} (h : (pat.all fun ab => decide (ab.1 < 3 ∧ ab.2 < 3)) = true) :
    Pat3 pat := by
  intro ab hab
  simpa using List.all_eq_true.1 h ab hab

/-! ## Analytical builders -/

theorem plateFk0_fits (I : Tab K) (P : Panel K) (F : ℕ → ℕ → K) (row0 col0 : ℕ) :
    Fits (plateFk0 I P F row0 col0) (9 * P.m * P.m * P.n * P.n)
      row0 (3 * (P.m * P.n)) col0 (3 * (P.m * P.n)) :=
  Fits.pad ((length_symBuild_le _ _ _ _ _ _).trans (le_of_eq (by
    simp only [Gen.PlateAna.fk0_pat, List.length_cons, List.length_nil]; ring)))
    (symBuild_inside (pat_ok (by decide)) _)

theorem plateFkG0_fits (I : Tab K) (P : Panel K) (Nxx Nyy Nxy : K) (row0 col0 : ℕ) :
    Fits (plateFkG0 I P Nxx Nyy Nxy row0 col0) (1 * P.m * P.m * P.n * P.n)
      row0 (3 * (P.m * P.n)) col0 (3 * (P.m * P.n)) :=
  Fits.pad ((length_symBuild_le _ _ _ _ _ _).trans (le_of_eq (by
    simp only [Gen.PlateAna.fkG0_pat, List.length_cons, List.length_nil]; ring)))
    (symBuild_inside (pat_ok (by decide)) _)

theorem plateFkM_fits (I : Tab K) (P : Panel K) (d h rho : K) (row0 col0 : ℕ) :
    Fits (plateFkM I P d h rho row0 col0) (7 * P.m * P.m * P.n * P.n)
      row0 (3 * (P.m * P.n)) col0 (3 * (P.m * P.n)) :=
  Fits.pad ((length_symBuild_le _ _ _ _ _ _).trans (le_of_eq (by
    simp only [Gen.PlateAna.fkM_pat, List.length_cons, List.length_nil]; ring)))
    (symBuild_inside (pat_ok (by decide)) _)

theorem plateFkAx_fits (I : Tab K) (P : Panel K) (beta : K) (row0 col0 : ℕ) :
    Fits (plateFkAx I P beta row0 col0) (1 * P.m * P.n * P.m * P.n)
      row0 (3 * (P.m * P.n)) col0 (3 * (P.m * P.n)) :=
  Fits.pad ((length_symBuild_le _ _ _ _ _ _).trans (le_of_eq (by
    simp only [Gen.PlateAna.fkAx_pat, List.length_cons, List.length_nil]; ring)))
    (symBuild_inside (pat_ok (by decide)) _)

theorem plateFkAy_fits (I : Tab K) (P : Panel K) (beta : K) (row0 col0 : ℕ) :
    Fits (plateFkAy I P beta row0 col0) (1 * P.m * P.n * P.m * P.n)
      row0 (3 * (P.m * P.n)) col0 (3 * (P.m * P.n)) :=
  Fits.pad ((length_symBuild_le _ _ _ _ _ _).trans (le_of_eq (by
    simp only [Gen.PlateAna.fkAy_pat, List.length_cons, List.length_nil]; ring)))
    (symBuild_inside (pat_ok (by decide)) _)

theorem plateFcA_fits (I : Tab K) (P : Panel K) (aeromu : K) (row0 col0 : ℕ) :
    Fits (plateFcA I P aeromu row0 col0) (1 * P.m * P.n * P.m * P.n)
      row0 (3 * (P.m * P.n)) col0 (3 * (P.m * P.n)) :=
  Fits.pad ((length_symBuild_le _ _ _ _ _ _).trans (le_of_eq (by
    simp only [Gen.PlateAna.fcA_pat, List.length_cons, List.length_nil]; ring)))
    (symBuild_inside (pat_ok (by decide)) _)

theorem cylFk0_fits (I : Tab K) (P : Panel K) (F : ℕ → ℕ → K) (row0 col0 : ℕ) :
    Fits (cylFk0 I P F row0 col0) (9 * P.m * P.m * P.n * P.n)
      row0 (3 * (P.m * P.n)) col0 (3 * (P.m * P.n)) :=
  Fits.pad ((length_symBuild_le _ _ _ _ _ _).trans (le_of_eq (by
    simp only [Gen.CylAna.fk0_pat, List.length_cons, List.length_nil]; ring)))
    (symBuild_inside (pat_ok (by decide)) _)

theorem cylFkG0_fits (I : Tab K) (P : Panel K) (Nxx Nyy Nxy : K) (row0 col0 : ℕ) :
    Fits (cylFkG0 I P Nxx Nyy Nxy row0 col0) (1 * P.m * P.m * P.n * P.n)
      row0 (3 * (P.m * P.n)) col0 (3 * (P.m * P.n)) :=
  Fits.pad ((length_symBuild_le _ _ _ _ _ _).trans (le_of_eq (by
    simp only [Gen.CylAna.fkG0_pat, List.length_cons, List.length_nil]; ring)))
    (symBuild_inside (pat_ok (by decide)) _)

theorem cylFkM_fits (I : Tab K) (P : Panel K) (d h rho : K) (row0 col0 : ℕ) :
    Fits (cylFkM I P d h rho row0 col0) (7 * P.m * P.m * P.n * P.n)
      row0 (3 * (P.m * P.n)) col0 (3 * (P.m * P.n)) :=
  Fits.pad ((length_symBuild_le _ _ _ _ _ _).trans (le_of_eq (by
    simp only [Gen.CylAna.fkM_pat, List.length_cons, List.length_nil]; ring)))
    (symBuild_inside (pat_ok (by decide)) _)

theorem cylFkAx_fits (I : Tab K) (P : Panel K) (beta gamma : K) (row0 col0 : ℕ) :
    Fits (cylFkAx I P beta gamma row0 col0) (1 * P.m * P.n * P.m * P.n)
      row0 (3 * (P.m * P.n)) col0 (3 * (P.m * P.n)) :=
  Fits.pad ((length_symBuild_le _ _ _ _ _ _).trans (le_of_eq (by
    simp only [Gen.CylAna.fkAx_pat, List.length_cons, List.length_nil]; ring)))
    (symBuild_inside (pat_ok (by decide)) _)

theorem cylFkAy_fits (I : Tab K) (P : Panel K) (beta : K) (row0 col0 : ℕ) :
    Fits (cylFkAy I P beta row0 col0) (1 * P.m * P.n * P.m * P.n)
      row0 (3 * (P.m * P.n)) col0 (3 * (P.m * P.n)) :=
  Fits.pad ((length_symBuild_le _ _ _ _ _ _).trans (le_of_eq (by
    simp only [Gen.CylAna.fkAy_pat, List.length_cons, List.length_nil]; ring)))
    (symBuild_inside (pat_ok (by decide)) _)

theorem cylFcA_fits (I : Tab K) (P : Panel K) (aeromu : K) (row0 col0 : ℕ) :
    Fits (cylFcA I P aeromu row0 col0) (1 * P.m * P.n * P.m * P.n)
      row0 (3 * (P.m * P.n)) col0 (3 * (P.m * P.n)) :=
  Fits.pad ((length_symBuild_le _ _ _ _ _ _).trans (le_of_eq (by
    simp only [Gen.CylAna.fcA_pat, List.length_cons, List.length_nil]; ring)))
    (symBuild_inside (pat_ok (by decide)) _)

/-! ## Numerical builders -/

section num

variable [DecidableEq K]

theorem plateFkCnumF_fits (S : Shape K) (G : GaussTab K) (P : Panel K) (F : ℕ → ℕ → ℕ → ℕ → K) (cs : ℕ → K)
    (row0 col0 : ℕ) (nx ny NL : ℕ) :
    Fits (plateFkCnumF S G P F cs row0 col0 nx ny NL) (9 * P.m * P.m * P.n * P.n)
      row0 (3 * (P.m * P.n)) col0 (3 * (P.m * P.n)) :=
  Fits.pad (length_accum_le _ _ _ fun p => (length_symBuild_le _ _ _ _ _ _).trans
      (le_of_eq (by simp only [Gen.PlateNum.fkC_num_pat, List.length_cons, List.length_nil]; ring)))
    (accum_inside fun p => symBuild_inside (pat_ok (by decide)) _)

theorem cylFkCnumF_fits (S : Shape K) (G : GaussTab K) (P : Panel K) (F : ℕ → ℕ → ℕ → ℕ → K) (cs : ℕ → K)
    (row0 col0 : ℕ) (nx ny NL : ℕ) :
    Fits (cylFkCnumF S G P F cs row0 col0 nx ny NL) (9 * P.m * P.m * P.n * P.n)
      row0 (3 * (P.m * P.n)) col0 (3 * (P.m * P.n)) :=
  Fits.pad (length_accum_le _ _ _ fun p => (length_symBuild_le _ _ _ _ _ _).trans
      (le_of_eq (by simp only [Gen.CylNum.fkC_num_pat, List.length_cons, List.length_nil]; ring)))
    (accum_inside fun p => symBuild_inside (pat_ok (by decide)) _)

theorem plateFkGnumF_fits (S : Shape K) (G : GaussTab K) (P : Panel K) (F : ℕ → ℕ → ℕ → ℕ → K) (cs : ℕ → K)
    (row0 col0 : ℕ) (nx ny NL : ℕ) (N1 N2 N3 : K) :
    Fits (plateFkGnumF S G P F cs row0 col0 nx ny NL N1 N2 N3) (1 * P.m * P.m * P.n * P.n)
      row0 (3 * (P.m * P.n)) col0 (3 * (P.m * P.n)) :=
  Fits.pad (length_accum_le _ _ _ fun p => (length_symBuildJL_le _ _ _ _ _ _).trans
      (le_of_eq (by simp only [Gen.PlateNum.fkG_num_pat, List.length_cons, List.length_nil]; ring)))
    (accum_inside fun p => symBuildJL_inside (pat_ok (by decide)) _)

theorem cylFkGnumF_fits (S : Shape K) (G : GaussTab K) (P : Panel K) (F : ℕ → ℕ → ℕ → ℕ → K) (cs : ℕ → K)
    (row0 col0 : ℕ) (nx ny NL : ℕ) (N1 N2 N3 : K) :
    Fits (cylFkGnumF S G P F cs row0 col0 nx ny NL N1 N2 N3) (1 * P.m * P.m * P.n * P.n)
      row0 (3 * (P.m * P.n)) col0 (3 * (P.m * P.n)) :=
  Fits.pad (length_accum_le _ _ _ fun p => (length_symBuildJL_le _ _ _ _ _ _).trans
      (le_of_eq (by simp only [Gen.CylNum.fkG_num_pat, List.length_cons, List.length_nil]; ring)))
    (accum_inside fun p => symBuildJL_inside (pat_ok (by decide)) _)

theorem fkMnumF_fits (S : Shape K) (G : GaussTab K) (P : Panel K) (offset : K) (h rho : ℕ → ℕ → K)
    (row0 col0 : ℕ) (nx ny : ℕ) :
    Fits (fkMnumF S G P offset h rho row0 col0 nx ny) (7 * P.m * P.m * P.n * P.n)
      row0 (3 * (P.m * P.n)) col0 (3 * (P.m * P.n)) :=
  Fits.pad (length_accum_le _ _ _ fun p => (length_symBuild_le _ _ _ _ _ _).trans
      (le_of_eq (by simp only [Gen.PlateNum.fkM_num_pat, List.length_cons, List.length_nil]; ring)))
    (accum_inside fun p => symBuild_inside (pat_ok (by decide)) _)

theorem plateFkAxNum_fits (S : Shape K) (G : GaussTab K) (P : Panel K) (beta gamma : K)
    (row0 col0 : ℕ) (nx ny : ℕ) :
    Fits (plateFkAxNum S G P beta gamma row0 col0 nx ny) (1 * P.m * P.m * P.n * P.n)
      row0 (3 * (P.m * P.n)) col0 (3 * (P.m * P.n)) :=
  Fits.pad (length_accum_le _ _ _ fun p => (length_symBuild_le _ _ _ _ _ _).trans
      (le_of_eq (by simp only [Gen.PlateNum.fkAx_num_pat, List.length_cons, List.length_nil]; ring)))
    (accum_inside fun p => symBuild_inside (pat_ok (by decide)) _)

theorem cylFkAxNum_fits (S : Shape K) (G : GaussTab K) (P : Panel K) (beta gamma : K)
    (row0 col0 : ℕ) (nx ny : ℕ) :
    Fits (cylFkAxNum S G P beta gamma row0 col0 nx ny) (1 * P.m * P.m * P.n * P.n)
      row0 (3 * (P.m * P.n)) col0 (3 * (P.m * P.n)) :=
  Fits.pad (length_accum_le _ _ _ fun p => (length_symBuild_le _ _ _ _ _ _).trans
      (le_of_eq (by simp only [Gen.CylNum.fkAx_num_pat, List.length_cons, List.length_nil]; ring)))
    (accum_inside fun p => symBuild_inside (pat_ok (by decide)) _)

theorem fkAyNum_fits (S : Shape K) (G : GaussTab K) (P : Panel K) (beta : K)
    (row0 col0 : ℕ) (nx ny : ℕ) :
    Fits (fkAyNum S G P beta row0 col0 nx ny) (1 * P.m * P.m * P.n * P.n)
      row0 (3 * (P.m * P.n)) col0 (3 * (P.m * P.n)) :=
  Fits.pad (length_accum_le _ _ _ fun p => (length_symBuild_le _ _ _ _ _ _).trans
      (le_of_eq (by simp only [Gen.PlateNum.fkAy_num_pat, List.length_cons, List.length_nil]; ring)))
    (accum_inside fun p => symBuild_inside (pat_ok (by decide)) _)

/-- `calc_fint` adds only to the components of the panel. -/
theorem plateFintF_inside (S : Shape K) (G : GaussTab K) (P : Panel K) (F : ℕ → ℕ → ℕ → ℕ → K)
    (cs : ℕ → K) (col0 nx ny : ℕ) :
    ∀ t ∈ plateFintF S G P F cs col0 nx ny, col0 ≤ t.1 ∧ t.1 < col0 + 3 * (P.m * P.n) := by
  intro t ht
  simp only [plateFintF, List.mem_flatMap, List.mem_range, List.mem_cons, List.not_mem_nil,
    or_false] at ht
  obtain ⟨p, -, j, hj, i, hi, ht⟩ := ht
  have h := dof_lt hi hj
  rcases ht with rfl | rfl | rfl <;> constructor <;> simp only <;> omega

/-- `calc_fint` adds only to the components of the panel. -/
theorem cylFintF_inside (S : Shape K) (G : GaussTab K) (P : Panel K) (F : ℕ → ℕ → ℕ → ℕ → K)
    (cs : ℕ → K) (col0 nx ny : ℕ) :
    ∀ t ∈ cylFintF S G P F cs col0 nx ny, col0 ≤ t.1 ∧ t.1 < col0 + 3 * (P.m * P.n) := by
  intro t ht
  simp only [cylFintF, List.mem_flatMap, List.mem_range, List.mem_cons, List.not_mem_nil,
    or_false] at ht
  obtain ⟨p, -, j, hj, i, hi, ht⟩ := ht
  have h := dof_lt hi hj
  rcases ht with rfl | rfl | rfl <;> constructor <;> simp only <;> omega

end num

/-! ## Penalty connections -/

theorem fkCSSxcte11_fits (S : Shape K) (I : Tab K) (P1 : Panel K) (kt kr x1 : K) (row0 col0 : ℕ) :
    Fits (fkCSSxcte11 S I P1 kt kr x1 row0 col0) (3 * P1.m * P1.n * P1.m * P1.n)
      row0 (3 * (P1.m * P1.n)) col0 (3 * (P1.m * P1.n)) :=
  Fits.pad ((length_symBuildJL_le _ _ _ _ _ _).trans (le_of_eq (by
    simp only [Gen.Conn.kSSxcte11_pat, List.length_cons, List.length_nil]; ring)))
    (symBuildJL_inside (pat_ok (by decide)) _)

theorem fkCSSxcte12_fits (S : Shape K) (I : Tab K) (P1 P2 : Panel K) (kt kr x1 x2 : K)
    (row0 col0 : ℕ) :
    Fits (fkCSSxcte12 S I P1 P2 kt kr x1 x2 row0 col0) (3 * P1.m * P1.n * P2.m * P2.n)
      row0 (3 * (P1.m * P1.n)) col0 (3 * (P2.m * P2.n)) :=
  Fits.pad ((length_crossBuildJL_le _ _ _ _ _ _ _ _).trans (le_of_eq (by
    simp only [Gen.Conn.kSSxcte12_pat, List.length_cons, List.length_nil]; ring)))
    (crossBuildJL_inside (pat_ok (by decide)) _)

theorem fkCSSxcte22_fits (S : Shape K) (I : Tab K) (P1 P2 : Panel K) (kt kr x2 : K)
    (row0 col0 : ℕ) :
    Fits (fkCSSxcte22 S I P1 P2 kt kr x2 row0 col0) (3 * P2.m * P2.n * P2.m * P2.n)
      row0 (3 * (P2.m * P2.n)) col0 (3 * (P2.m * P2.n)) :=
  Fits.pad ((length_symBuildJL_le _ _ _ _ _ _).trans (le_of_eq (by
    simp only [Gen.Conn.kSSxcte22_pat, List.length_cons, List.length_nil]; ring)))
    (symBuildJL_inside (pat_ok (by decide)) _)

theorem fkCSSycte11_fits (S : Shape K) (I : Tab K) (P1 : Panel K) (kt kr x1 : K) (row0 col0 : ℕ) :
    Fits (fkCSSycte11 S I P1 kt kr x1 row0 col0) (3 * P1.m * P1.n * P1.m * P1.n)
      row0 (3 * (P1.m * P1.n)) col0 (3 * (P1.m * P1.n)) :=
  Fits.pad ((length_symBuild_le _ _ _ _ _ _).trans (le_of_eq (by
    simp only [Gen.Conn.kSSycte11_pat, List.length_cons, List.length_nil]; ring)))
    (symBuild_inside (pat_ok (by decide)) _)

theorem fkCSSycte12_fits (S : Shape K) (I : Tab K) (P1 P2 : Panel K) (kt kr x1 x2 : K)
    (row0 col0 : ℕ) :
    Fits (fkCSSycte12 S I P1 P2 kt kr x1 x2 row0 col0) (3 * P1.m * P1.n * P2.m * P2.n)
      row0 (3 * (P1.m * P1.n)) col0 (3 * (P2.m * P2.n)) :=
  Fits.pad ((length_crossBuild_le _ _ _ _ _ _ _ _).trans (le_of_eq (by
    simp only [Gen.Conn.kSSycte12_pat, List.length_cons, List.length_nil]; ring)))
    (crossBuild_inside (pat_ok (by decide)) _)

theorem fkCSSycte22_fits (S : Shape K) (I : Tab K) (P1 P2 : Panel K) (kt kr x2 : K)
    (row0 col0 : ℕ) :
    Fits (fkCSSycte22 S I P1 P2 kt kr x2 row0 col0) (3 * P2.m * P2.n * P2.m * P2.n)
      row0 (3 * (P2.m * P2.n)) col0 (3 * (P2.m * P2.n)) :=
  Fits.pad ((length_symBuild_le _ _ _ _ _ _).trans (le_of_eq (by
    simp only [Gen.Conn.kSSycte22_pat, List.length_cons, List.length_nil]; ring)))
    (symBuild_inside (pat_ok (by decide)) _)

theorem fkCBFxcte11_fits (S : Shape K) (I : Tab K) (P1 : Panel K) (kt kr x1 : K) (row0 col0 : ℕ) :
    Fits (fkCBFxcte11 S I P1 kt kr x1 row0 col0) (3 * P1.m * P1.n * P1.m * P1.n)
      row0 (3 * (P1.m * P1.n)) col0 (3 * (P1.m * P1.n)) :=
  Fits.pad ((length_symBuildJL_le _ _ _ _ _ _).trans (le_of_eq (by
    simp only [Gen.Conn.kBFxcte11_pat, List.length_cons, List.length_nil]; ring)))
    (symBuildJL_inside (pat_ok (by decide)) _)

theorem fkCBFxcte12_fits (S : Shape K) (I : Tab K) (P1 P2 : Panel K) (kt kr x1 x2 : K)
    (row0 col0 : ℕ) :
    Fits (fkCBFxcte12 S I P1 P2 kt kr x1 x2 row0 col0) (4 * P1.m * P1.n * P2.m * P2.n)
      row0 (3 * (P1.m * P1.n)) col0 (3 * (P2.m * P2.n)) :=
  Fits.pad ((length_crossBuildJL_le _ _ _ _ _ _ _ _).trans (le_of_eq (by
    simp only [Gen.Conn.kBFxcte12_pat, List.length_cons, List.length_nil]; ring)))
    (crossBuildJL_inside (pat_ok (by decide)) _)

theorem fkCBFxcte22_fits (S : Shape K) (I : Tab K) (P1 P2 : Panel K) (kt kr x2 : K)
    (row0 col0 : ℕ) :
    Fits (fkCBFxcte22 S I P1 P2 kt kr x2 row0 col0) (3 * P2.m * P2.n * P2.m * P2.n)
      row0 (3 * (P2.m * P2.n)) col0 (3 * (P2.m * P2.n)) :=
  Fits.pad ((length_symBuildJL_le _ _ _ _ _ _).trans (le_of_eq (by
    simp only [Gen.Conn.kBFxcte22_pat, List.length_cons, List.length_nil]; ring)))
    (symBuildJL_inside (pat_ok (by decide)) _)

theorem fkCBFycte11_fits (S : Shape K) (I : Tab K) (P1 : Panel K) (kt kr x1 : K) (row0 col0 : ℕ) :
    Fits (fkCBFycte11 S I P1 kt kr x1 row0 col0) (3 * P1.m * P1.n * P1.m * P1.n)
      row0 (3 * (P1.m * P1.n)) col0 (3 * (P1.m * P1.n)) :=
  Fits.pad ((length_symBuild_le _ _ _ _ _ _).trans (le_of_eq (by
    simp only [Gen.Conn.kBFycte11_pat, List.length_cons, List.length_nil]; ring)))
    (symBuild_inside (pat_ok (by decide)) _)

theorem fkCBFycte12_fits (S : Shape K) (I : Tab K) (P1 P2 : Panel K) (kt kr x1 x2 : K)
    (row0 col0 : ℕ) :
    Fits (fkCBFycte12 S I P1 P2 kt kr x1 x2 row0 col0) (4 * P1.m * P1.n * P2.m * P2.n)
      row0 (3 * (P1.m * P1.n)) col0 (3 * (P2.m * P2.n)) :=
  Fits.pad ((length_crossBuild_le _ _ _ _ _ _ _ _).trans (le_of_eq (by
    simp only [Gen.Conn.kBFycte12_pat, List.length_cons, List.length_nil]; ring)))
    (crossBuild_inside (pat_ok (by decide)) _)

theorem fkCBFycte22_fits (S : Shape K) (I : Tab K) (P1 P2 : Panel K) (kt kr x2 : K)
    (row0 col0 : ℕ) :
    Fits (fkCBFycte22 S I P1 P2 kt kr x2 row0 col0) (3 * P2.m * P2.n * P2.m * P2.n)
      row0 (3 * (P2.m * P2.n)) col0 (3 * (P2.m * P2.n)) :=
  Fits.pad ((length_symBuild_le _ _ _ _ _ _).trans (le_of_eq (by
    simp only [Gen.Conn.kBFycte22_pat, List.length_cons, List.length_nil]; ring)))
    (symBuild_inside (pat_ok (by decide)) _)

theorem fkCSB11_fits (I : Tab K) (P1 : Panel K) (kt dsb : K) (row0 col0 : ℕ) :
    Fits (fkCSB11 I P1 kt dsb row0 col0) (7 * P1.m * P1.n * P1.m * P1.n)
      row0 (3 * (P1.m * P1.n)) col0 (3 * (P1.m * P1.n)) :=
  Fits.pad ((length_symBuild_le _ _ _ _ _ _).trans (le_of_eq (by
    simp only [Gen.Conn.kSB11_pat, List.length_cons, List.length_nil]; ring)))
    (symBuild_inside (pat_ok (by decide)) _)

theorem fkCSB12_fits (I : Tab K) (P1 P2 : Panel K) (kt dsb : K) (row0 col0 : ℕ) :
    Fits (fkCSB12 I P1 P2 kt dsb row0 col0) (5 * P1.m * P1.n * P2.m * P2.n)
      row0 (3 * (P1.m * P1.n)) col0 (3 * (P2.m * P2.n)) :=
  Fits.pad ((length_crossBuild_le _ _ _ _ _ _ _ _).trans (le_of_eq (by
    simp only [Gen.Conn.kSB12_pat, List.length_cons, List.length_nil]; ring)))
    (crossBuild_inside (pat_ok (by decide)) _)

theorem fkCSB22_fits (I : Tab K) (P1 P2 : Panel K) (kt : K) (row0 col0 : ℕ) :
    Fits (fkCSB22 I P1 P2 kt row0 col0) (3 * P2.m * P2.n * P2.m * P2.n)
      row0 (3 * (P2.m * P2.n)) col0 (3 * (P2.m * P2.n)) :=
  Fits.pad ((length_symBuild_le _ _ _ _ _ _).trans (le_of_eq (by
    simp only [Gen.Conn.kSB22_pat, List.length_cons, List.length_nil]; ring)))
    (symBuild_inside (pat_ok (by decide)) _)

theorem fkCpd_fits (S : Shape K) (P : Panel K) (ku kv kw xp yp : K) (row0 col0 : ℕ) :
    Fits (fkCpd S P ku kv kw xp yp row0 col0) (3 * P.m * P.n * P.m * P.n)
      row0 (3 * (P.m * P.n)) col0 (3 * (P.m * P.n)) :=
  Fits.pad ((length_symBuildJL_le _ _ _ _ _ _).trans (le_of_eq (by
    simp only [Gen.Pd.fkCpd_pat, List.length_cons, List.length_nil]; ring)))
    (symBuildJL_inside (pat_ok (by decide)) _)

theorem fkCldXcte_fits (S : Shape K) (I : Tab K) (P : Panel K) (ku kv kw xp : K) (row0 col0 : ℕ) :
    Fits (fkCldXcte S I P ku kv kw xp row0 col0) (3 * P.m * P.n * P.m * P.n)
      row0 (3 * (P.m * P.n)) col0 (3 * (P.m * P.n)) :=
  Fits.pad ((length_symBuildWJL_le _ _ _ _ _).trans (le_of_eq (by
    simp only [Gen.Pd.fkCld_xcte_pat, List.length_zip, List.length_cons, List.length_nil]; ring_nf; simp)))
    (symBuildWJL_inside (by simp [Gen.Pd.fkCld_xcte_pat]))

theorem fkCldYcte_fits (S : Shape K) (I : Tab K) (P : Panel K) (ku kv kw xp : K) (row0 col0 : ℕ) :
    Fits (fkCldYcte S I P ku kv kw xp row0 col0) (3 * P.m * P.n * P.m * P.n)
      row0 (3 * (P.m * P.n)) col0 (3 * (P.m * P.n)) :=
  Fits.pad ((length_symBuildW_le _ _ _ _ _).trans (le_of_eq (by
    simp only [Gen.Pd.fkCld_ycte_pat, List.length_zip, List.length_cons, List.length_nil]; ring_nf; simp)))
    (symBuildW_inside (by simp [Gen.Pd.fkCld_ycte_pat]))

/-! ## Stiffeners -/

theorem fkCf_fits (S : Shape K) (I : Tab K) (P : Panel K) (ys bf df E1 F1 S1 Jxx : K) (row0 col0 : ℕ) :
    Fits (fkCf S I P ys bf df E1 F1 S1 Jxx row0 col0) (4 * P.m * P.n * P.m * P.n)
      row0 (3 * (P.m * P.n)) col0 (3 * (P.m * P.n)) :=
  Fits.pad ((length_symBuild_le _ _ _ _ _ _).trans (le_of_eq (by
    simp only [Gen.Blade1D.fkCf_pat, List.length_cons, List.length_nil]; ring)))
    (symBuild_inside (pat_ok (by decide)) _)

theorem fkGf_fits (S : Shape K) (I : Tab K) (P : Panel K) (ys Fx : K) (row0 col0 : ℕ) :
    Fits (fkGf S I P ys Fx row0 col0) (1 * P.m * P.n * P.m * P.n)
      row0 (3 * (P.m * P.n)) col0 (3 * (P.m * P.n)) :=
  Fits.pad ((length_symBuild_le _ _ _ _ _ _).trans (le_of_eq (by
    simp only [Gen.Blade1D.fkGf_pat, List.length_cons, List.length_nil]; ring)))
    (symBuild_inside (pat_ok (by decide)) _)

theorem fkMf_fits (S : Shape K) (I : Tab K) (P : Panel K) (ys rho h hb hf bf df : K) (row0 col0 : ℕ) :
    Fits (fkMf S I P ys rho h hb hf bf df row0 col0) (7 * P.m * P.n * P.m * P.n)
      row0 (3 * (P.m * P.n)) col0 (3 * (P.m * P.n)) :=
  Fits.pad ((length_symBuild_le _ _ _ _ _ _).trans (le_of_eq (by
    simp only [Gen.Blade1D.fkMf_pat, List.length_cons, List.length_nil]; ring)))
    (symBuild_inside (pat_ok (by decide)) _)

theorem fkCss_fits (S : Shape K) (I : Tab K) (P : Panel K) (kt kr ys : K) (row0 col0 : ℕ) :
    Fits (fkCss S I P kt kr ys row0 col0) (3 * P.m * P.n * P.m * P.n)
      row0 (3 * (P.m * P.n)) col0 (3 * (P.m * P.n)) :=
  Fits.pad ((length_symBuild_le _ _ _ _ _ _).trans (le_of_eq (by
    simp only [Gen.Blade2D.fkCss_pat, List.length_cons, List.length_nil]; ring)))
    (symBuild_inside (pat_ok (by decide)) _)

theorem fkCsf_fits (S : Shape K) (I : Tab K) (P Pf : Panel K) (kt kr ys bf : K) (row0 col0 : ℕ) :
    Fits (fkCsf S I P Pf kt kr ys bf row0 col0) (4 * P.m * P.n * Pf.m * Pf.n)
      row0 (3 * (P.m * P.n)) col0 (3 * (Pf.m * Pf.n)) :=
  Fits.pad ((length_crossBuild_le _ _ _ _ _ _ _ _).trans (le_of_eq (by
    simp only [Gen.Blade2D.fkCsf_pat, List.length_cons, List.length_nil]; ring)))
    (crossBuild_inside (pat_ok (by decide)) _)

theorem fkCff_fits (S : Shape K) (I : Tab K) (P Pf : Panel K) (kt kr bf : K) (row0 col0 : ℕ) :
    Fits (fkCff S I P Pf kt kr bf row0 col0) (3 * Pf.m * Pf.n * Pf.m * Pf.n)
      row0 (3 * (Pf.m * Pf.n)) col0 (3 * (Pf.m * Pf.n)) :=
  Fits.pad ((length_symBuild_le _ _ _ _ _ _).trans (le_of_eq (by
    simp only [Gen.Blade2D.fkCff_pat, List.length_cons, List.length_nil]; ring)))
    (symBuild_inside (pat_ok (by decide)) _)

/-! ## Consequences -/

/-- Every index of the analytical plate stiffness is an index of the matrix; the other builders
follow in the same way from their `_fits` theorem. -/
theorem plateFk0_inMatrix (I : Tab K) (P : Panel K) (F : ℕ → ℕ → K) (row0 col0 size : ℕ)
    (hr : row0 + 3 * (P.m * P.n) ≤ size) (hc : col0 + 3 * (P.m * P.n) ≤ size) :
    ∀ t ∈ plateFk0 I P F row0 col0, t.row < size ∧ t.col < size :=
  (plateFk0_fits I P F row0 col0).inMatrix hr hc fun h => by
    rcases Nat.eq_zero_or_pos P.m with h3 | h3
    · simp [h3] at h
    · have := Nat.pos_of_mul_pos_left h
      positivity

/-- Concrete case: 5 × 7 terms placed at row 12 and column 300 of a matrix of size 405. -/
example : ∀ t ∈ plateFk0 (K := ℚ) ⟨fun _ _ _ _ => 1, fun _ _ _ _ => 1, fun _ _ _ _ => 1,
      fun _ _ _ _ => 1, fun _ _ _ _ => 1, fun _ _ _ _ => 1⟩ Witness.panel Witness.abd 12 300,
    t.row < 405 ∧ t.col < 405 :=
  plateFk0_inMatrix _ _ _ _ _ _ (by simp [Witness.panel]) (by simp [Witness.panel])

/-- A buffer one position too short would have been overrun. -/
example : ¬ Fits (symBuild (K := ℚ) 0 0 1 1 [(0,0), (2,2)] (fun _ _ _ _ _ _ => 1)) 1 0 3 0 3 :=
  fun h => by simpa [symBuild, symBlock] using h.alloc

end Verif.C24
