import Verif.Proofs.Swap
import Verif.Model.Builders
import Verif.Spec.Witness

/-!
# C25: finalised matrices are symmetric and lose nothing of the skipped triangle

`crossBuild s s m n m n pat val` is the loop nest *without* the line `if row > col: continue`: it
writes the value of every pair of basis functions.  The matrix that the program returns, built
from half of the pairs and mirrored, has the same bilinear form, hence the same entries
(`entries_full`).  The tables have to be symmetric (`Tab.Sym`, proved for the printed tables in
C04) and the laminate too (`ABDSym`).
-/

set_option linter.unusedSectionVars false

namespace Verif.C25

open Finset Spec Model

variable {K : Type*} [Field K]

/-- Whatever was assembled, the finalised matrix is symmetric. -/
theorem finalised_symmetric (L : Coo K) (r c : ℕ) :
    Coo.entry (Coo.finalizeSym L) r c = Coo.entry (Coo.finalizeSym L) c r :=
  Coo.entry_finalizeSym_comm L r c

/-- Finalising only reads the triangle `row ≤ col`. -/
theorem finalised_reads_upper (L M : Coo K)
    (h : ∀ r c, r ≤ c → Coo.entry L r c = Coo.entry M r c) (r c : ℕ) :
    Coo.entry (Coo.finalizeSym L) r c = Coo.entry (Coo.finalizeSym M) r c := by
  rw [Coo.entry_finalizeSym, Coo.entry_finalizeSym]
  split
  · exact h _ _ (by assumption)
  · exact h _ _ (by omega)

/-- Equality of the forms is equality of the entries. -/
theorem entries_full {L M : Coo K} (h : ∀ x y, Coo.bilin L x y = Coo.bilin M x y) (r c : ℕ) :
    Coo.entry L r c = Coo.entry M r c := by
  rw [Coo.entry_bilin, Coo.entry_bilin, h]

variable [CharZero K]

/-- The general statement, for any loop body whose value is symmetric in the two basis functions
and whose write pattern is closed under transposition. -/
theorem half_is_full (s m n : ℕ) {pat : List (ℕ × ℕ)} (hp : PatOK K pat)
    {val : ℕ → ℕ → ℕ → ℕ → ℕ → ℕ → K} (hs : SwapSym m n val) (x y : ℕ → K) :
    Coo.bilin (Coo.finalizeSym (symBuild s s m n pat val)) x y
      = Coo.bilin (crossBuild s s m n m n pat val) x y :=
  finalize_symBuild_full s m n hp hs x y

theorem not_mem9 {pat : List (ℕ × ℕ)} (hp : ∀ ab ∈ pat, ab.1 < 3 ∧ ab.2 < 3) {a b : ℕ}
    (h : ¬ (a < 3 ∧ b < 3)) : (a, b) ∉ pat := fun hm => h (hp _ hm)

theorem plate_fk0_swap {I : Tab K} (hI : I.Sym) (P : Panel K) (ha : P.a ≠ 0) (hb : P.b ≠ 0)
    (F : ℕ → ℕ → K) (hF : ABDSym F) (m n : ℕ) :
    SwapSym m n (Gen.PlateAna.fk0 I P (Lam.ofABD F)) := by
  classical
  intro i k j l a b _ _ _ _
  by_cases h : a < 3 ∧ b < 3
  · rw [plate_fk0_entry I P F hF ha hb i k j l a b h.1 h.2,
      plate_fk0_entry I P F hF ha hb k i l j b a h.2 h.1]
    exact stiff_symm P F hF.symm (plateB P.a P.b) hI i k j l a b
  · rw [plateAna_fk0_zero _ _ _ _ _ _ _ _ _ (not_mem9 (by decide) h),
      plateAna_fk0_zero _ _ _ _ _ _ _ _ _ (not_mem9 (by decide) fun h' => h ⟨h'.2, h'.1⟩)]

theorem cyl_fk0_swap {I : Tab K} (hI : I.Sym) (P : Panel K) (ha : P.a ≠ 0) (hb : P.b ≠ 0)
    (hr : P.r ≠ 0) (F : ℕ → ℕ → K) (hF : ABDSym F) (m n : ℕ) :
    SwapSym m n (Gen.CylAna.fk0 I P (Lam.ofABD F)) := by
  classical
  intro i k j l a b _ _ _ _
  by_cases h : a < 3 ∧ b < 3
  · rw [cyl_fk0_entry I P F hF ha hb hr i k j l a b h.1 h.2,
      cyl_fk0_entry I P F hF ha hb hr k i l j b a h.2 h.1]
    exact stiff_symm P F hF.symm (cylB P.a P.b P.r) hI i k j l a b
  · rw [cylAna_fk0_zero _ _ _ _ _ _ _ _ _ (not_mem9 (by decide) h),
      cylAna_fk0_zero _ _ _ _ _ _ _ _ _ (not_mem9 (by decide) fun h' => h ⟨h'.2, h'.1⟩)]

theorem form_swap (W : K) (F : ℕ → ℕ → K) (hF : ∀ s t, F s t = F t s) (e e' : ℕ → K) :
    W * ∑ s ∈ range 6, ∑ t ∈ range 6, F s t * e s * e' t
      = W * ∑ s ∈ range 6, ∑ t ∈ range 6, F s t * e' s * e t := by
  rw [Finset.sum_comm]
  congr 1
  exact Finset.sum_congr rfl fun s _ => Finset.sum_congr rfl fun t _ => by rw [hF t s]; ring

theorem plate_fkC_swap (S : Shape K) (P : Panel K) (ha : P.a ≠ 0) (hb : P.b ≠ 0)
    (F : ℕ → ℕ → K) (hF : ABDSym F) (eta intx inty weight weta wxi xi : K) (m n : ℕ) :
    SwapSym m n (Gen.PlateNum.fkC_num S P (Lam.ofABD F) eta intx inty weight weta wxi xi) := by
  classical
  intro i k j l a b _ _ _ _
  by_cases h : a < 3 ∧ b < 3
  · rw [plate_fkCnum_entry S P F hF ha hb _ _ _ _ _ _ _ i k j l a b h.1 h.2,
      plate_fkCnum_entry S P F hF ha hb _ _ _ _ _ _ _ k i l j b a h.2 h.1]
    exact form_swap _ F hF.symm _ _
  · rw [plateNum_fkC_num_zero _ _ _ _ _ _ _ _ _ _ _ _ _ _ _ _ (not_mem9 (by decide) h),
      plateNum_fkC_num_zero _ _ _ _ _ _ _ _ _ _ _ _ _ _ _ _
        (not_mem9 (by decide) fun h' => h ⟨h'.2, h'.1⟩)]

theorem cyl_fkC_swap (S : Shape K) (P : Panel K) (ha : P.a ≠ 0) (hb : P.b ≠ 0) (hr : P.r ≠ 0)
    (F : ℕ → ℕ → K) (hF : ABDSym F) (eta intx inty weight weta wxi xi : K) (m n : ℕ) :
    SwapSym m n (Gen.CylNum.fkC_num S P (Lam.ofABD F) eta intx inty weight weta wxi xi) := by
  classical
  intro i k j l a b _ _ _ _
  by_cases h : a < 3 ∧ b < 3
  · rw [cyl_fkCnum_entry S P F hF ha hb hr _ _ _ _ _ _ _ i k j l a b h.1 h.2,
      cyl_fkCnum_entry S P F hF ha hb hr _ _ _ _ _ _ _ k i l j b a h.2 h.1]
    exact form_swap _ F hF.symm _ _
  · rw [cylNum_fkC_num_zero _ _ _ _ _ _ _ _ _ _ _ _ _ _ _ _ (not_mem9 (by decide) h),
      cylNum_fkC_num_zero _ _ _ _ _ _ _ _ _ _ _ _ _ _ _ _
        (not_mem9 (by decide) fun h' => h ⟨h'.2, h'.1⟩)]

/-! ## Analytical builders -/

theorem plateFk0_full {I : Tab K} (hI : I.Sym) (P : Panel K) (ha : P.a ≠ 0) (hb : P.b ≠ 0) (F : ℕ → ℕ → K) (hF : ABDSym F)
    (s : ℕ) (x y : ℕ → K) :
    Coo.bilin (Coo.finalizeSym (plateFk0 I P F s s)) x y
      = Coo.bilin (crossBuild s s P.m P.n P.m P.n Gen.PlateAna.fk0_pat (Gen.PlateAna.fk0 I P (Lam.ofABD F))) x y := by
  rw [plateFk0, bilin_finalizeSym_pad]
  exact finalize_symBuild_full s P.m P.n pat9_ok (plate_fk0_swap hI P ha hb F hF _ _) x y

theorem plateFkG0_full {I : Tab K} (hI : I.Sym) (P : Panel K) (Nxx Nyy Nxy : K)
    (s : ℕ) (x y : ℕ → K) :
    Coo.bilin (Coo.finalizeSym (plateFkG0 I P Nxx Nyy Nxy s s)) x y
      = Coo.bilin (crossBuild s s P.m P.n P.m P.n Gen.PlateAna.fkG0_pat (Gen.PlateAna.fkG0 I P Nxx Nxy Nyy)) x y := by
  rw [plateFkG0, bilin_finalizeSym_pad]
  exact finalize_symBuild_full s P.m P.n pat1_ok (plateAna_fkG0_swap hI P Nxx Nxy Nyy _ _) x y

theorem plateFkM_full {I : Tab K} (hI : I.Sym) (P : Panel K) (d h rho : K)
    (s : ℕ) (x y : ℕ → K) :
    Coo.bilin (Coo.finalizeSym (plateFkM I P d h rho s s)) x y
      = Coo.bilin (crossBuild s s P.m P.n P.m P.n Gen.PlateAna.fkM_pat (Gen.PlateAna.fkM I P d h rho)) x y := by
  rw [plateFkM, bilin_finalizeSym_pad]
  exact finalize_symBuild_full s P.m P.n pat7_ok (plateAna_fkM_swap hI P d h rho _ _) x y

theorem plateFcA_full {I : Tab K} (hI : I.Sym) (P : Panel K) (aeromu : K)
    (s : ℕ) (x y : ℕ → K) :
    Coo.bilin (Coo.finalizeSym (plateFcA I P aeromu s s)) x y
      = Coo.bilin (crossBuild s s P.m P.n P.m P.n Gen.PlateAna.fcA_pat (Gen.PlateAna.fcA I P aeromu)) x y := by
  rw [plateFcA, bilin_finalizeSym_pad]
  exact finalize_symBuild_full s P.m P.n pat1_ok (plateAna_fcA_swap hI P aeromu _ _) x y

theorem cylFk0_full {I : Tab K} (hI : I.Sym) (P : Panel K) (ha : P.a ≠ 0) (hb : P.b ≠ 0) (hr : P.r ≠ 0) (F : ℕ → ℕ → K) (hF : ABDSym F)
    (s : ℕ) (x y : ℕ → K) :
    Coo.bilin (Coo.finalizeSym (cylFk0 I P F s s)) x y
      = Coo.bilin (crossBuild s s P.m P.n P.m P.n Gen.CylAna.fk0_pat (Gen.CylAna.fk0 I P (Lam.ofABD F))) x y := by
  rw [cylFk0, bilin_finalizeSym_pad]
  exact finalize_symBuild_full s P.m P.n pat9_ok (cyl_fk0_swap hI P ha hb hr F hF _ _) x y

theorem cylFkG0_full {I : Tab K} (hI : I.Sym) (P : Panel K) (Nxx Nyy Nxy : K)
    (s : ℕ) (x y : ℕ → K) :
    Coo.bilin (Coo.finalizeSym (cylFkG0 I P Nxx Nyy Nxy s s)) x y
      = Coo.bilin (crossBuild s s P.m P.n P.m P.n Gen.CylAna.fkG0_pat (Gen.CylAna.fkG0 I P Nxx Nxy Nyy)) x y := by
  rw [cylFkG0, bilin_finalizeSym_pad]
  exact finalize_symBuild_full s P.m P.n pat1_ok (cylAna_fkG0_swap hI P Nxx Nxy Nyy _ _) x y

theorem cylFkM_full {I : Tab K} (hI : I.Sym) (P : Panel K) (d h rho : K)
    (s : ℕ) (x y : ℕ → K) :
    Coo.bilin (Coo.finalizeSym (cylFkM I P d h rho s s)) x y
      = Coo.bilin (crossBuild s s P.m P.n P.m P.n Gen.CylAna.fkM_pat (Gen.CylAna.fkM I P d h rho)) x y := by
  rw [cylFkM, bilin_finalizeSym_pad]
  exact finalize_symBuild_full s P.m P.n pat7_ok (cylAna_fkM_swap hI P d h rho _ _) x y

theorem cylFcA_full {I : Tab K} (hI : I.Sym) (P : Panel K) (aeromu : K)
    (s : ℕ) (x y : ℕ → K) :
    Coo.bilin (Coo.finalizeSym (cylFcA I P aeromu s s)) x y
      = Coo.bilin (crossBuild s s P.m P.n P.m P.n Gen.CylAna.fcA_pat (Gen.CylAna.fcA I P aeromu)) x y := by
  rw [cylFcA, bilin_finalizeSym_pad]
  exact finalize_symBuild_full s P.m P.n pat1_ok (cylAna_fcA_swap hI P aeromu _ _) x y

/-! ## Connections and stiffeners -/

theorem fkCSSxcte11_full {I : Tab K} (hI : I.Sym) (S : Shape K) (P1 : Panel K) (kt kr x1 : K)
    (s : ℕ) (x y : ℕ → K) :
    Coo.bilin (Coo.finalizeSym (fkCSSxcte11 S I P1 kt kr x1 s s)) x y
      = Coo.bilin (crossBuild s s P1.m P1.n P1.m P1.n Gen.Conn.kSSxcte11_pat (Gen.Conn.kSSxcte11 S I P1 kr kt x1)) x y := by
  rw [fkCSSxcte11, bilin_finalizeSym_pad]
  exact finalize_symBuildJL_full s P1.m P1.n pat3_ok (kSSxcte11_swap hI S P1 kr kt x1 _ _) x y

theorem fkCSSxcte22_full {I : Tab K} (hI : I.Sym) (S : Shape K) (P1 P2 : Panel K) (kt kr x2 : K)
    (s : ℕ) (x y : ℕ → K) :
    Coo.bilin (Coo.finalizeSym (fkCSSxcte22 S I P1 P2 kt kr x2 s s)) x y
      = Coo.bilin (crossBuild s s P2.m P2.n P2.m P2.n Gen.Conn.kSSxcte22_pat (Gen.Conn.kSSxcte22 S I P1 P2 kr kt x2)) x y := by
  rw [fkCSSxcte22, bilin_finalizeSym_pad]
  exact finalize_symBuildJL_full s P2.m P2.n pat3_ok (kSSxcte22_swap hI S P1 P2 kr kt x2 _ _) x y

theorem fkCSSycte11_full {I : Tab K} (hI : I.Sym) (S : Shape K) (P1 : Panel K) (kt kr x1 : K)
    (s : ℕ) (x y : ℕ → K) :
    Coo.bilin (Coo.finalizeSym (fkCSSycte11 S I P1 kt kr x1 s s)) x y
      = Coo.bilin (crossBuild s s P1.m P1.n P1.m P1.n Gen.Conn.kSSycte11_pat (Gen.Conn.kSSycte11 S I P1 kr kt x1)) x y := by
  rw [fkCSSycte11, bilin_finalizeSym_pad]
  exact finalize_symBuild_full s P1.m P1.n pat3_ok (kSSycte11_swap hI S P1 kr kt x1 _ _) x y

theorem fkCSSycte22_full {I : Tab K} (hI : I.Sym) (S : Shape K) (P1 P2 : Panel K) (kt kr x2 : K)
    (s : ℕ) (x y : ℕ → K) :
    Coo.bilin (Coo.finalizeSym (fkCSSycte22 S I P1 P2 kt kr x2 s s)) x y
      = Coo.bilin (crossBuild s s P2.m P2.n P2.m P2.n Gen.Conn.kSSycte22_pat (Gen.Conn.kSSycte22 S I P1 P2 kr kt x2)) x y := by
  rw [fkCSSycte22, bilin_finalizeSym_pad]
  exact finalize_symBuild_full s P2.m P2.n pat3_ok (kSSycte22_swap hI S P1 P2 kr kt x2 _ _) x y

theorem fkCBFxcte11_full {I : Tab K} (hI : I.Sym) (S : Shape K) (P1 : Panel K) (kt kr x1 : K)
    (s : ℕ) (x y : ℕ → K) :
    Coo.bilin (Coo.finalizeSym (fkCBFxcte11 S I P1 kt kr x1 s s)) x y
      = Coo.bilin (crossBuild s s P1.m P1.n P1.m P1.n Gen.Conn.kBFxcte11_pat (Gen.Conn.kBFxcte11 S I P1 kr kt x1)) x y := by
  rw [fkCBFxcte11, bilin_finalizeSym_pad]
  exact finalize_symBuildJL_full s P1.m P1.n pat3_ok (kBFxcte11_swap hI S P1 kr kt x1 _ _) x y

theorem fkCBFxcte22_full {I : Tab K} (hI : I.Sym) (S : Shape K) (P1 P2 : Panel K) (kt kr x2 : K)
    (s : ℕ) (x y : ℕ → K) :
    Coo.bilin (Coo.finalizeSym (fkCBFxcte22 S I P1 P2 kt kr x2 s s)) x y
      = Coo.bilin (crossBuild s s P2.m P2.n P2.m P2.n Gen.Conn.kBFxcte22_pat (Gen.Conn.kBFxcte22 S I P1 P2 kr kt x2)) x y := by
  rw [fkCBFxcte22, bilin_finalizeSym_pad]
  exact finalize_symBuildJL_full s P2.m P2.n pat3_ok (kBFxcte22_swap hI S P1 P2 kr kt x2 _ _) x y

theorem fkCBFycte11_full {I : Tab K} (hI : I.Sym) (S : Shape K) (P1 : Panel K) (kt kr x1 : K)
    (s : ℕ) (x y : ℕ → K) :
    Coo.bilin (Coo.finalizeSym (fkCBFycte11 S I P1 kt kr x1 s s)) x y
      = Coo.bilin (crossBuild s s P1.m P1.n P1.m P1.n Gen.Conn.kBFycte11_pat (Gen.Conn.kBFycte11 S I P1 kr kt x1)) x y := by
  rw [fkCBFycte11, bilin_finalizeSym_pad]
  exact finalize_symBuild_full s P1.m P1.n pat3_ok (kBFycte11_swap hI S P1 kr kt x1 _ _) x y

theorem fkCBFycte22_full {I : Tab K} (hI : I.Sym) (S : Shape K) (P1 P2 : Panel K) (kt kr x2 : K)
    (s : ℕ) (x y : ℕ → K) :
    Coo.bilin (Coo.finalizeSym (fkCBFycte22 S I P1 P2 kt kr x2 s s)) x y
      = Coo.bilin (crossBuild s s P2.m P2.n P2.m P2.n Gen.Conn.kBFycte22_pat (Gen.Conn.kBFycte22 S I P1 P2 kr kt x2)) x y := by
  rw [fkCBFycte22, bilin_finalizeSym_pad]
  exact finalize_symBuild_full s P2.m P2.n pat3_ok (kBFycte22_swap hI S P1 P2 kr kt x2 _ _) x y

theorem fkCSB11_full {I : Tab K} (hI : I.Sym) (P1 : Panel K) (kt dsb : K)
    (s : ℕ) (x y : ℕ → K) :
    Coo.bilin (Coo.finalizeSym (fkCSB11 I P1 kt dsb s s)) x y
      = Coo.bilin (crossBuild s s P1.m P1.n P1.m P1.n Gen.Conn.kSB11_pat (Gen.Conn.kSB11 I P1 dsb kt)) x y := by
  rw [fkCSB11, bilin_finalizeSym_pad]
  exact finalize_symBuild_full s P1.m P1.n pat7_ok (kSB11_swap hI P1 dsb kt _ _) x y

theorem fkCSB22_full {I : Tab K} (hI : I.Sym) (P1 P2 : Panel K) (kt : K)
    (s : ℕ) (x y : ℕ → K) :
    Coo.bilin (Coo.finalizeSym (fkCSB22 I P1 P2 kt s s)) x y
      = Coo.bilin (crossBuild s s P2.m P2.n P2.m P2.n Gen.Conn.kSB22_pat (Gen.Conn.kSB22 I P1 P2 kt)) x y := by
  rw [fkCSB22, bilin_finalizeSym_pad]
  exact finalize_symBuild_full s P2.m P2.n pat3_ok (kSB22_swap hI P1 P2 kt _ _) x y

theorem fkCpd_full (S : Shape K) (P : Panel K) (ku kv kw xp yp : K)
    (s : ℕ) (x y : ℕ → K) :
    Coo.bilin (Coo.finalizeSym (fkCpd S P ku kv kw xp yp s s)) x y
      = Coo.bilin (crossBuild s s P.m P.n P.m P.n Gen.Pd.fkCpd_pat (Gen.Pd.fkCpd S P ku kv kw xp yp)) x y := by
  rw [fkCpd, bilin_finalizeSym_pad]
  exact finalize_symBuildJL_full s P.m P.n pat3_ok (fkCpd_swap S P ku kv kw xp yp _ _) x y

theorem fkCf_full {I : Tab K} (hI : I.Sym) (S : Shape K) (P : Panel K) (ha : P.a ≠ 0) (ys bf df E1 F1 S1 Jxx : K)
    (s : ℕ) (x y : ℕ → K) :
    Coo.bilin (Coo.finalizeSym (fkCf S I P ys bf df E1 F1 S1 Jxx s s)) x y
      = Coo.bilin (crossBuild s s P.m P.n P.m P.n Gen.Blade1D.fkCf_pat (Gen.Blade1D.fkCf S I P E1 F1 Jxx S1 bf df ys)) x y := by
  rw [fkCf, bilin_finalizeSym_pad]
  exact finalize_symBuild_full s P.m P.n pat4_ok (fkCf_swap hI S P ha E1 F1 Jxx S1 bf df ys _ _) x y

theorem fkGf_full {I : Tab K} (hI : I.Sym) (S : Shape K) (P : Panel K) (ys Fx : K)
    (s : ℕ) (x y : ℕ → K) :
    Coo.bilin (Coo.finalizeSym (fkGf S I P ys Fx s s)) x y
      = Coo.bilin (crossBuild s s P.m P.n P.m P.n Gen.Blade1D.fkGf_pat (Gen.Blade1D.fkGf S I P Fx ys)) x y := by
  rw [fkGf, bilin_finalizeSym_pad]
  exact finalize_symBuild_full s P.m P.n pat1_ok (fkGf_swap hI S P Fx ys _ _) x y

theorem fkMf_full {I : Tab K} (hI : I.Sym) (S : Shape K) (P : Panel K) (ys rho h hb hf bf df : K)
    (s : ℕ) (x y : ℕ → K) :
    Coo.bilin (Coo.finalizeSym (fkMf S I P ys rho h hb hf bf df s s)) x y
      = Coo.bilin (crossBuild s s P.m P.n P.m P.n Gen.Blade1D.fkMf_pat (Gen.Blade1D.fkMf S I P bf df h hb hf rho ys)) x y := by
  rw [fkMf, bilin_finalizeSym_pad]
  exact finalize_symBuild_full s P.m P.n pat7_ok (fkMf_swap hI S P bf df h hb hf rho ys _ _) x y

theorem fkCss_full {I : Tab K} (hI : I.Sym) (S : Shape K) (P : Panel K) (kt kr ys : K)
    (s : ℕ) (x y : ℕ → K) :
    Coo.bilin (Coo.finalizeSym (fkCss S I P kt kr ys s s)) x y
      = Coo.bilin (crossBuild s s P.m P.n P.m P.n Gen.Blade2D.fkCss_pat (Gen.Blade2D.fkCss S I P kr kt ys)) x y := by
  rw [fkCss, bilin_finalizeSym_pad]
  exact finalize_symBuild_full s P.m P.n pat3_ok (fkCss_swap hI S P kr kt ys _ _) x y

theorem fkCff_full {I : Tab K} (hI : I.Sym) (S : Shape K) (P Pf : Panel K) (kt kr bf : K)
    (s : ℕ) (x y : ℕ → K) :
    Coo.bilin (Coo.finalizeSym (fkCff S I P Pf kt kr bf s s)) x y
      = Coo.bilin (crossBuild s s Pf.m Pf.n Pf.m Pf.n Gen.Blade2D.fkCff_pat (Gen.Blade2D.fkCff S I P Pf bf kr kt)) x y := by
  rw [fkCff, bilin_finalizeSym_pad]
  exact finalize_symBuild_full s Pf.m Pf.n pat3_ok (fkCff_swap hI S P Pf bf kr kt _ _) x y

/-! ## Numerical builders

The full operator accumulates, for every pair of basis functions, the contributions of all
integration points. -/

section num

variable [DecidableEq K]

theorem plateFkCnumF_full (S : Shape K) (G : GaussTab K) (P : Panel K) (ha : P.a ≠ 0) (hb : P.b ≠ 0)
    (F : ℕ → ℕ → ℕ → ℕ → K) (hF : ∀ p q, ABDSym (F p q)) (cs : ℕ → K)
    (s nx ny : ℕ) (NL : ℕ) (x y : ℕ → K) :
    Coo.bilin (Coo.finalizeSym (plateFkCnumF S G P F cs s s nx ny NL)) x y
      = Coo.bilin (crossBuild s s P.m P.n P.m P.n Gen.PlateNum.fkC_num_pat fun i k j l a b =>
          ((grid nx ny).map fun p => Gen.PlateNum.fkC_num S P (Lam.ofABD (F p.1 p.2)) (etaAt G P ny p.2) (sub P).intx
            (sub P).inty (weightAt G nx ny p.1 p.2)
            (wetaC S P cs s NL (xiAt G P nx p.1) (etaAt G P ny p.2))
            (wxiC S P cs s NL (xiAt G P nx p.1) (etaAt G P ny p.2)) (xiAt G P nx p.1)
            i k j l a b).sum) x y := by
  rw [plateFkCnumF, bilin_finalizeSym_pad]
  exact finalize_accum_full (grid nx ny) s P.m P.n pat9_ok
    (val := fun p => Gen.PlateNum.fkC_num S P (Lam.ofABD (F p.1 p.2)) (etaAt G P ny p.2) (sub P).intx
      (sub P).inty (weightAt G nx ny p.1 p.2)
      (wetaC S P cs s NL (xiAt G P nx p.1) (etaAt G P ny p.2))
      (wxiC S P cs s NL (xiAt G P nx p.1) (etaAt G P ny p.2)) (xiAt G P nx p.1))
    (fun p => plate_fkC_swap S P ha hb (F p.1 p.2) (hF p.1 p.2) (etaAt G P ny p.2) (sub P).intx
      (sub P).inty (weightAt G nx ny p.1 p.2)
      (wetaC S P cs s NL (xiAt G P nx p.1) (etaAt G P ny p.2))
      (wxiC S P cs s NL (xiAt G P nx p.1) (etaAt G P ny p.2)) (xiAt G P nx p.1) P.m P.n) x y

theorem cylFkCnumF_full (S : Shape K) (G : GaussTab K) (P : Panel K) (ha : P.a ≠ 0) (hb : P.b ≠ 0) (hr : P.r ≠ 0)
    (F : ℕ → ℕ → ℕ → ℕ → K) (hF : ∀ p q, ABDSym (F p q)) (cs : ℕ → K)
    (s nx ny : ℕ) (NL : ℕ) (x y : ℕ → K) :
    Coo.bilin (Coo.finalizeSym (cylFkCnumF S G P F cs s s nx ny NL)) x y
      = Coo.bilin (crossBuild s s P.m P.n P.m P.n Gen.CylNum.fkC_num_pat fun i k j l a b =>
          ((grid nx ny).map fun p => Gen.CylNum.fkC_num S P (Lam.ofABD (F p.1 p.2)) (etaAt G P ny p.2) (sub P).intx
            (sub P).inty (weightAt G nx ny p.1 p.2)
            (wetaCcyl S P cs s NL (xiAt G P nx p.1) (etaAt G P ny p.2))
            (wxiCcyl S P cs s NL (xiAt G P nx p.1) (etaAt G P ny p.2)) (xiAt G P nx p.1)
            i k j l a b).sum) x y := by
  rw [cylFkCnumF, bilin_finalizeSym_pad]
  exact finalize_accum_full (grid nx ny) s P.m P.n pat9_ok
    (val := fun p => Gen.CylNum.fkC_num S P (Lam.ofABD (F p.1 p.2)) (etaAt G P ny p.2) (sub P).intx
      (sub P).inty (weightAt G nx ny p.1 p.2)
      (wetaCcyl S P cs s NL (xiAt G P nx p.1) (etaAt G P ny p.2))
      (wxiCcyl S P cs s NL (xiAt G P nx p.1) (etaAt G P ny p.2)) (xiAt G P nx p.1))
    (fun p => cyl_fkC_swap S P ha hb hr (F p.1 p.2) (hF p.1 p.2) (etaAt G P ny p.2) (sub P).intx
      (sub P).inty (weightAt G nx ny p.1 p.2)
      (wetaCcyl S P cs s NL (xiAt G P nx p.1) (etaAt G P ny p.2))
      (wxiCcyl S P cs s NL (xiAt G P nx p.1) (etaAt G P ny p.2)) (xiAt G P nx p.1) P.m P.n) x y

theorem fkMnumF_full (S : Shape K) (G : GaussTab K) (P : Panel K) (offset : K) (h rho : ℕ → ℕ → K)
    (s nx ny : ℕ) (x y : ℕ → K) :
    Coo.bilin (Coo.finalizeSym (fkMnumF S G P offset h rho s s nx ny)) x y
      = Coo.bilin (crossBuild s s P.m P.n P.m P.n Gen.PlateNum.fkM_num_pat fun i k j l a b =>
          ((grid nx ny).map fun p => Gen.PlateNum.fkM_num S P offset (etaAt G P ny p.2) (h p.1 p.2) (sub P).intx
            (sub P).inty (rho p.1 p.2) (weightAt G nx ny p.1 p.2) (xiAt G P nx p.1)
            i k j l a b).sum) x y := by
  rw [fkMnumF, bilin_finalizeSym_pad]
  exact finalize_accum_full _ s P.m P.n pat7_ok (fun p => plateNum_fkM_swap S P _ _ _ _ _ _ _ _ _ _) x y

/-- `fkG_num`: same form for every vector, whatever the stress state at the points. -/
theorem plateFkGnumF_full (S : Shape K) (G : GaussTab K) (P : Panel K) (F : ℕ → ℕ → ℕ → ℕ → K)
    (cs : ℕ → K) (s nx ny NL : ℕ) (N1 N2 N3 : K) :
    ∃ N : ℕ × ℕ → K × K × K, ∀ x y : ℕ → K,
      Coo.bilin (Coo.finalizeSym (plateFkGnumF S G P F cs s s nx ny NL N1 N2 N3)) x y
        = Coo.bilin (crossBuild s s P.m P.n P.m P.n Gen.PlateNum.fkG_num_pat fun i k j l a b =>
            ((grid nx ny).map fun p => Gen.PlateNum.fkG_num S P (N p).1 (N p).2.1 (N p).2.2
              (etaAt G P ny p.2) (sub P).intx (sub P).inty (weightAt G nx ny p.1 p.2)
              (xiAt G P nx p.1) i k j l a b).sum) x y := by
  let e := fun p : ℕ × ℕ => strainG S P cs s NL (xiAt G P nx p.1) (etaAt G P ny p.2)
  refine ⟨fun p =>
    (Gen.PlateNum.fkG_num_Nxx (Lam.ofABD (F p.1 p.2)) N1 N3 N2 (e p).exx (e p).eyy (e p).gxy
        (e p).kxx (e p).kxy (e p).kyy,
     Gen.PlateNum.fkG_num_Nxy (Lam.ofABD (F p.1 p.2)) N1 N3 N2 (e p).exx (e p).eyy (e p).gxy
        (e p).kxx (e p).kxy (e p).kyy,
     Gen.PlateNum.fkG_num_Nyy (Lam.ofABD (F p.1 p.2)) N1 N3 N2 (e p).exx (e p).eyy (e p).gxy
        (e p).kxx (e p).kxy (e p).kyy), fun x y => ?_⟩
  rw [plateFkGnumF, bilin_finalizeSym_pad]
  exact finalize_accumJL_full _ s P.m P.n pat1_ok
    (fun p => plateNum_fkG_swap S P _ _ _ _ _ _ _ _ _ _) x y

/-- `fkG_num`: same form for every vector, whatever the stress state at the points. -/
theorem cylFkGnumF_full (S : Shape K) (G : GaussTab K) (P : Panel K) (F : ℕ → ℕ → ℕ → ℕ → K)
    (cs : ℕ → K) (s nx ny NL : ℕ) (N1 N2 N3 : K) :
    ∃ N : ℕ × ℕ → K × K × K, ∀ x y : ℕ → K,
      Coo.bilin (Coo.finalizeSym (cylFkGnumF S G P F cs s s nx ny NL N1 N2 N3)) x y
        = Coo.bilin (crossBuild s s P.m P.n P.m P.n Gen.CylNum.fkG_num_pat fun i k j l a b =>
            ((grid nx ny).map fun p => Gen.CylNum.fkG_num S P (N p).1 (N p).2.1 (N p).2.2
              (etaAt G P ny p.2) (sub P).intx (sub P).inty (weightAt G nx ny p.1 p.2)
              (xiAt G P nx p.1) i k j l a b).sum) x y := by
  let e := fun p : ℕ × ℕ => strainGcyl S P cs s NL (xiAt G P nx p.1) (etaAt G P ny p.2)
  refine ⟨fun p =>
    (Gen.CylNum.fkG_num_Nxx (Lam.ofABD (F p.1 p.2)) N1 N3 N2 (e p).exx (e p).eyy (e p).gxy
        (e p).kxx (e p).kxy (e p).kyy,
     Gen.CylNum.fkG_num_Nxy (Lam.ofABD (F p.1 p.2)) N1 N3 N2 (e p).exx (e p).eyy (e p).gxy
        (e p).kxx (e p).kxy (e p).kyy,
     Gen.CylNum.fkG_num_Nyy (Lam.ofABD (F p.1 p.2)) N1 N3 N2 (e p).exx (e p).eyy (e p).gxy
        (e p).kxx (e p).kxy (e p).kyy), fun x y => ?_⟩
  rw [cylFkGnumF, bilin_finalizeSym_pad]
  exact finalize_accumJL_full _ s P.m P.n pat1_ok
    (fun p => cylNum_fkG_swap S P _ _ _ _ _ _ _ _ _ _) x y

end num

/-- Concrete case: a curved panel, laminate with all couplings, exact integrals as table. -/
example (S : Shape ℚ) (M : Mean ℚ) (x y : ℕ → ℚ) :
    let I := Tab.of S M
    Coo.bilin (Coo.finalizeSym (cylFk0 I Witness.panel Witness.abd 12 12)) x y
      = Coo.bilin (crossBuild 12 12 5 7 5 7 Gen.CylAna.fk0_pat
          (Gen.CylAna.fk0 I Witness.panel (Lam.ofABD Witness.abd))) x y := by
  intro I
  have hI : I.Sym :=
    ⟨fun i j fa fb => congrArg M.L (funext fun x => mul_comm _ _),
     fun i j fa fb => congrArg M.L (funext fun x => mul_comm _ _),
     fun i j fa fb => congrArg M.L (funext fun x => mul_comm _ _)⟩
  exact cylFk0_full hI Witness.panel (by simp [Witness.panel]) (by simp [Witness.panel])
    (by simp [Witness.panel]) Witness.abd Witness.abd_sym 12 x y

/-- Without symmetry of the values the skipped half would be lost. -/
example : Coo.bilin (Coo.finalizeSym (symBuild (K := ℚ) 0 0 2 1 [(2, 2)]
      (fun i k _ _ _ _ => if i = 1 ∧ k = 0 then 1 else 0))) (fun _ => 1) (fun _ => 1)
    ≠ Coo.bilin (crossBuild (K := ℚ) 0 0 2 1 2 1 [(2, 2)]
      (fun i k _ _ _ _ => if i = 1 ∧ k = 0 then 1 else 0)) (fun _ => 1) (fun _ => 1) := by
  decide +kernel

end Verif.C25
