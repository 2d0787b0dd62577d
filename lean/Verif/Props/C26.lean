import Verif.Proofs.Structure
import Verif.Model.Builders
import Verif.Model.Num
import Verif.Model.Conn
import Verif.Model.Stiff
import Verif.Spec.Witness

/-!
# C26: block offsets only translate the matrix

`Translated s A B`: `B` is `A` with every written triplet moved by `s` rows and `s` columns,
values unchanged, in the same order.  The builders that read the vector of Ritz constants read it at
`col0 + …`, so they are compared with the unshifted builder reading the constants from position
`s` on.
-/

set_option linter.unusedSectionVars false

namespace Verif.C26

open Model

variable {K : Type*} [Field K]

/-- Entries of a translated matrix, before and after the symmetric or skew finalisation. -/
theorem entries_translated {s : ℕ} {A B : Coo K} (h : Translated s A B) (r c : ℕ) :
    Coo.entry B (s + r) (s + c) = Coo.entry A r c ∧
    Coo.entry (Coo.finalizeSym B) (s + r) (s + c) = Coo.entry (Coo.finalizeSym A) r c := by
  obtain ⟨f, core, rfl, rfl⟩ := h
  have key : ∀ r c, Coo.entry (Coo.pad f (Coo.shift s core)) (s + r) (s + c)
      = Coo.entry (Coo.pad f core) r c := fun r c => by
    rw [Coo.entry_pad, Coo.entry_pad, entry_shift]
  refine ⟨key r c, ?_⟩
  rw [Coo.entry_finalizeSym, Coo.entry_finalizeSym]
  simp only [key, Nat.add_le_add_iff_left]

/-- Nothing is left of or above the offset. -/
theorem entries_before {s : ℕ} {A B : Coo K} (h : Translated s A B) (r c : ℕ)
    (hrc : r < s ∨ c < s) : Coo.entry B r c = 0 := by
  obtain ⟨f, core, rfl, rfl⟩ := h
  rw [Coo.entry_pad, entry_shift_lt _ _ _ _ hrc]

theorem plateFk0_translated (I : Tab K) (P : Panel K) (F : ℕ → ℕ → K) (s : ℕ) :
    Translated s (plateFk0 I P F 0 0) (plateFk0 I P F s s) :=
  ⟨_, _, rfl, by rw [plateFk0, symBuild_shift]⟩

theorem plateFkG0_translated (I : Tab K) (P : Panel K) (Nxx Nyy Nxy : K) (s : ℕ) :
    Translated s (plateFkG0 I P Nxx Nyy Nxy 0 0) (plateFkG0 I P Nxx Nyy Nxy s s) :=
  ⟨_, _, rfl, by rw [plateFkG0, symBuild_shift]⟩

theorem plateFkM_translated (I : Tab K) (P : Panel K) (d h rho : K) (s : ℕ) :
    Translated s (plateFkM I P d h rho 0 0) (plateFkM I P d h rho s s) :=
  ⟨_, _, rfl, by rw [plateFkM, symBuild_shift]⟩

theorem plateFkAx_translated (I : Tab K) (P : Panel K) (beta : K) (s : ℕ) :
    Translated s (plateFkAx I P beta 0 0) (plateFkAx I P beta s s) :=
  ⟨_, _, rfl, by rw [plateFkAx, symBuild_shift]⟩

theorem plateFkAy_translated (I : Tab K) (P : Panel K) (beta : K) (s : ℕ) :
    Translated s (plateFkAy I P beta 0 0) (plateFkAy I P beta s s) :=
  ⟨_, _, rfl, by rw [plateFkAy, symBuild_shift]⟩

theorem plateFcA_translated (I : Tab K) (P : Panel K) (aeromu : K) (s : ℕ) :
    Translated s (plateFcA I P aeromu 0 0) (plateFcA I P aeromu s s) :=
  ⟨_, _, rfl, by rw [plateFcA, symBuild_shift]⟩

theorem cylFk0_translated (I : Tab K) (P : Panel K) (F : ℕ → ℕ → K) (s : ℕ) :
    Translated s (cylFk0 I P F 0 0) (cylFk0 I P F s s) :=
  ⟨_, _, rfl, by rw [cylFk0, symBuild_shift]⟩

theorem cylFkG0_translated (I : Tab K) (P : Panel K) (Nxx Nyy Nxy : K) (s : ℕ) :
    Translated s (cylFkG0 I P Nxx Nyy Nxy 0 0) (cylFkG0 I P Nxx Nyy Nxy s s) :=
  ⟨_, _, rfl, by rw [cylFkG0, symBuild_shift]⟩

theorem cylFkM_translated (I : Tab K) (P : Panel K) (d h rho : K) (s : ℕ) :
    Translated s (cylFkM I P d h rho 0 0) (cylFkM I P d h rho s s) :=
  ⟨_, _, rfl, by rw [cylFkM, symBuild_shift]⟩

theorem cylFkAx_translated (I : Tab K) (P : Panel K) (beta gamma : K) (s : ℕ) :
    Translated s (cylFkAx I P beta gamma 0 0) (cylFkAx I P beta gamma s s) :=
  ⟨_, _, rfl, by rw [cylFkAx, symBuild_shift]⟩

theorem cylFkAy_translated (I : Tab K) (P : Panel K) (beta : K) (s : ℕ) :
    Translated s (cylFkAy I P beta 0 0) (cylFkAy I P beta s s) :=
  ⟨_, _, rfl, by rw [cylFkAy, symBuild_shift]⟩

theorem cylFcA_translated (I : Tab K) (P : Panel K) (aeromu : K) (s : ℕ) :
    Translated s (cylFcA I P aeromu 0 0) (cylFcA I P aeromu s s) :=
  ⟨_, _, rfl, by rw [cylFcA, symBuild_shift]⟩

section num

variable [DecidableEq K]

theorem plateFkCnumF_translated (S : Shape K) (G : GaussTab K) (P : Panel K) (F : ℕ → ℕ → ℕ → ℕ → K) (cs : ℕ → K) (nx ny NL : ℕ) (s : ℕ) :
    Translated s (plateFkCnumF S G P F (fun k => cs (s + k)) 0 0 nx ny NL)
      (plateFkCnumF S G P F cs s s nx ny NL) :=
  ⟨_, _, rfl, by
    rw [plateFkCnumF, ← accum_shift]
    simp only [← symBuild_shift, wxiC, wetaC, Nat.zero_add, Nat.add_assoc]⟩

theorem cylFkCnumF_translated (S : Shape K) (G : GaussTab K) (P : Panel K) (F : ℕ → ℕ → ℕ → ℕ → K) (cs : ℕ → K) (nx ny NL : ℕ) (s : ℕ) :
    Translated s (cylFkCnumF S G P F (fun k => cs (s + k)) 0 0 nx ny NL)
      (cylFkCnumF S G P F cs s s nx ny NL) :=
  ⟨_, _, rfl, by
    rw [cylFkCnumF, ← accum_shift]
    simp only [← symBuild_shift, wxiCcyl, wetaCcyl, Nat.zero_add, Nat.add_assoc]⟩

theorem plateFkGnumF_translated (S : Shape K) (G : GaussTab K) (P : Panel K) (F : ℕ → ℕ → ℕ → ℕ → K) (cs : ℕ → K) (nx ny NL : ℕ) (N1 N2 N3 : K) (s : ℕ) :
    Translated s (plateFkGnumF S G P F (fun k => cs (s + k)) 0 0 nx ny NL N1 N2 N3)
      (plateFkGnumF S G P F cs s s nx ny NL N1 N2 N3) :=
  ⟨_, _, rfl, by
    rw [plateFkGnumF, ← accum_shift]
    simp only [← symBuildJL_shift, strainG, Nat.zero_add, Nat.add_assoc]⟩

theorem cylFkGnumF_translated (S : Shape K) (G : GaussTab K) (P : Panel K) (F : ℕ → ℕ → ℕ → ℕ → K) (cs : ℕ → K) (nx ny NL : ℕ) (N1 N2 N3 : K) (s : ℕ) :
    Translated s (cylFkGnumF S G P F (fun k => cs (s + k)) 0 0 nx ny NL N1 N2 N3)
      (cylFkGnumF S G P F cs s s nx ny NL N1 N2 N3) :=
  ⟨_, _, rfl, by
    rw [cylFkGnumF, ← accum_shift]
    simp only [← symBuildJL_shift, strainGcyl, Nat.zero_add, Nat.add_assoc]⟩

theorem fkMnumF_translated (S : Shape K) (G : GaussTab K) (P : Panel K) (offset : K) (h rho : ℕ → ℕ → K) (nx ny s : ℕ) :
    Translated s (fkMnumF S G P offset h rho 0 0 nx ny) (fkMnumF S G P offset h rho s s nx ny) :=
  ⟨_, _, rfl, by rw [fkMnumF, ← accum_shift]; simp only [← symBuild_shift]⟩

theorem plateFkAxNum_translated (S : Shape K) (G : GaussTab K) (P : Panel K) (beta gamma : K) (nx ny s : ℕ) :
    Translated s (plateFkAxNum S G P beta gamma 0 0 nx ny) (plateFkAxNum S G P beta gamma s s nx ny) :=
  ⟨_, _, rfl, by rw [plateFkAxNum, ← accum_shift]; simp only [← symBuild_shift]⟩

theorem cylFkAxNum_translated (S : Shape K) (G : GaussTab K) (P : Panel K) (beta gamma : K) (nx ny s : ℕ) :
    Translated s (cylFkAxNum S G P beta gamma 0 0 nx ny) (cylFkAxNum S G P beta gamma s s nx ny) :=
  ⟨_, _, rfl, by rw [cylFkAxNum, ← accum_shift]; simp only [← symBuild_shift]⟩

theorem fkAyNum_translated (S : Shape K) (G : GaussTab K) (P : Panel K) (beta : K) (nx ny s : ℕ) :
    Translated s (fkAyNum S G P beta 0 0 nx ny) (fkAyNum S G P beta s s nx ny) :=
  ⟨_, _, rfl, by rw [fkAyNum, ← accum_shift]; simp only [← symBuild_shift]⟩

end num

theorem fkCSSxcte11_translated (S : Shape K) (I : Tab K) (P1 : Panel K) (kt kr x1 : K) (s : ℕ) :
    Translated s (fkCSSxcte11 S I P1 kt kr x1 0 0) (fkCSSxcte11 S I P1 kt kr x1 s s) :=
  ⟨_, _, rfl, by rw [fkCSSxcte11, symBuildJL_shift]⟩

theorem fkCSSxcte22_translated (S : Shape K) (I : Tab K) (P1 P2 : Panel K) (kt kr x2 : K) (s : ℕ) :
    Translated s (fkCSSxcte22 S I P1 P2 kt kr x2 0 0) (fkCSSxcte22 S I P1 P2 kt kr x2 s s) :=
  ⟨_, _, rfl, by rw [fkCSSxcte22, symBuildJL_shift]⟩

theorem fkCSSycte11_translated (S : Shape K) (I : Tab K) (P1 : Panel K) (kt kr x1 : K) (s : ℕ) :
    Translated s (fkCSSycte11 S I P1 kt kr x1 0 0) (fkCSSycte11 S I P1 kt kr x1 s s) :=
  ⟨_, _, rfl, by rw [fkCSSycte11, symBuild_shift]⟩

theorem fkCSSycte22_translated (S : Shape K) (I : Tab K) (P1 P2 : Panel K) (kt kr x2 : K) (s : ℕ) :
    Translated s (fkCSSycte22 S I P1 P2 kt kr x2 0 0) (fkCSSycte22 S I P1 P2 kt kr x2 s s) :=
  ⟨_, _, rfl, by rw [fkCSSycte22, symBuild_shift]⟩

theorem fkCBFxcte11_translated (S : Shape K) (I : Tab K) (P1 : Panel K) (kt kr x1 : K) (s : ℕ) :
    Translated s (fkCBFxcte11 S I P1 kt kr x1 0 0) (fkCBFxcte11 S I P1 kt kr x1 s s) :=
  ⟨_, _, rfl, by rw [fkCBFxcte11, symBuildJL_shift]⟩

theorem fkCBFxcte22_translated (S : Shape K) (I : Tab K) (P1 P2 : Panel K) (kt kr x2 : K) (s : ℕ) :
    Translated s (fkCBFxcte22 S I P1 P2 kt kr x2 0 0) (fkCBFxcte22 S I P1 P2 kt kr x2 s s) :=
  ⟨_, _, rfl, by rw [fkCBFxcte22, symBuildJL_shift]⟩

theorem fkCBFycte11_translated (S : Shape K) (I : Tab K) (P1 : Panel K) (kt kr x1 : K) (s : ℕ) :
    Translated s (fkCBFycte11 S I P1 kt kr x1 0 0) (fkCBFycte11 S I P1 kt kr x1 s s) :=
  ⟨_, _, rfl, by rw [fkCBFycte11, symBuild_shift]⟩

theorem fkCBFycte22_translated (S : Shape K) (I : Tab K) (P1 P2 : Panel K) (kt kr x2 : K) (s : ℕ) :
    Translated s (fkCBFycte22 S I P1 P2 kt kr x2 0 0) (fkCBFycte22 S I P1 P2 kt kr x2 s s) :=
  ⟨_, _, rfl, by rw [fkCBFycte22, symBuild_shift]⟩

theorem fkCSB11_translated (I : Tab K) (P1 : Panel K) (kt dsb : K) (s : ℕ) :
    Translated s (fkCSB11 I P1 kt dsb 0 0) (fkCSB11 I P1 kt dsb s s) :=
  ⟨_, _, rfl, by rw [fkCSB11, symBuild_shift]⟩

theorem fkCSB22_translated (I : Tab K) (P1 P2 : Panel K) (kt : K) (s : ℕ) :
    Translated s (fkCSB22 I P1 P2 kt 0 0) (fkCSB22 I P1 P2 kt s s) :=
  ⟨_, _, rfl, by rw [fkCSB22, symBuild_shift]⟩

theorem fkCpd_translated (S : Shape K) (P : Panel K) (ku kv kw xp yp : K) (s : ℕ) :
    Translated s (fkCpd S P ku kv kw xp yp 0 0) (fkCpd S P ku kv kw xp yp s s) :=
  ⟨_, _, rfl, by rw [fkCpd, symBuildJL_shift]⟩

theorem fkCldXcte_translated (S : Shape K) (I : Tab K) (P : Panel K) (ku kv kw xp : K) (s : ℕ) :
    Translated s (fkCldXcte S I P ku kv kw xp 0 0) (fkCldXcte S I P ku kv kw xp s s) :=
  ⟨_, _, rfl, by rw [fkCldXcte, symBuildWJL_shift]⟩

theorem fkCldYcte_translated (S : Shape K) (I : Tab K) (P : Panel K) (ku kv kw xp : K) (s : ℕ) :
    Translated s (fkCldYcte S I P ku kv kw xp 0 0) (fkCldYcte S I P ku kv kw xp s s) :=
  ⟨_, _, rfl, by rw [fkCldYcte, symBuildW_shift]⟩

theorem fkCf_translated (S : Shape K) (I : Tab K) (P : Panel K) (ys bf df E1 F1 S1 Jxx : K) (s : ℕ) :
    Translated s (fkCf S I P ys bf df E1 F1 S1 Jxx 0 0) (fkCf S I P ys bf df E1 F1 S1 Jxx s s) :=
  ⟨_, _, rfl, by rw [fkCf, symBuild_shift]⟩

theorem fkGf_translated (S : Shape K) (I : Tab K) (P : Panel K) (ys Fx : K) (s : ℕ) :
    Translated s (fkGf S I P ys Fx 0 0) (fkGf S I P ys Fx s s) :=
  ⟨_, _, rfl, by rw [fkGf, symBuild_shift]⟩

theorem fkMf_translated (S : Shape K) (I : Tab K) (P : Panel K) (ys rho h hb hf bf df : K) (s : ℕ) :
    Translated s (fkMf S I P ys rho h hb hf bf df 0 0) (fkMf S I P ys rho h hb hf bf df s s) :=
  ⟨_, _, rfl, by rw [fkMf, symBuild_shift]⟩

theorem fkCss_translated (S : Shape K) (I : Tab K) (P : Panel K) (kt kr ys : K) (s : ℕ) :
    Translated s (fkCss S I P kt kr ys 0 0) (fkCss S I P kt kr ys s s) :=
  ⟨_, _, rfl, by rw [fkCss, symBuild_shift]⟩

theorem fkCff_translated (S : Shape K) (I : Tab K) (P Pf : Panel K) (kt kr bf : K) (s : ℕ) :
    Translated s (fkCff S I P Pf kt kr bf 0 0) (fkCff S I P Pf kt kr bf s s) :=
  ⟨_, _, rfl, by rw [fkCff, symBuild_shift]⟩

/-- Concrete case: the entry of row 3, column 5 found again at offset 100. -/
example (I : Tab ℚ) : Coo.entry (Coo.finalizeSym (plateFk0 I Witness.panel Witness.abd 100 100)) 103 105
    = Coo.entry (Coo.finalizeSym (plateFk0 I Witness.panel Witness.abd 0 0)) 3 5 :=
  (entries_translated (plateFk0_translated I Witness.panel Witness.abd 100) 3 5).2

/-- Different row and column offsets do not give a translation: the skip rule sees them. -/
example : symBuild (K := ℚ) 3 0 1 1 [(0,0)] (fun _ _ _ _ _ _ => 1) = [] := by
  simp [symBuild, symBlock, dof]

end Verif.C26
