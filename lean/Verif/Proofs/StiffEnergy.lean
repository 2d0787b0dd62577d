import Verif.Proofs.ConnEnergy
import Verif.Model.Stiff

/-!
# Quadratic forms of the stiffener builders, in natural coordinates
-/

set_option linter.unusedSectionVars false
set_option linter.unusedSimpArgs false
set_option maxHeartbeats 1000000

namespace Verif

open Finset Spec Model

variable {K : Type*} [Field K] {I : Tab K} {S : Shape K} {M : Mean K}

/-! ## 1D blade -/

theorem fkCf_form [CharZero K] (hI : I.Exact S M) (hS : S.In M) (P : Panel K) (ha : P.a ≠ 0)
    (hb : P.b ≠ 0) (ys bf df E1 F1 S1 Jxx : K) (s : ℕ) (x y : ℕ → K) :
    Coo.bilin (crossBuild s s P.m P.n P.m P.n Gen.Blade1D.fkCf_pat
        (Gen.Blade1D.fkCf S I P E1 F1 Jxx S1 bf df ys)) x y
      = P.a / 2 * bf * (
        E1 * M.L (fun ξ => disp S P s x 0 1 0 ξ (2 * ys / P.b - 1) * disp S P s y 0 1 0 ξ (2 * ys / P.b - 1))
        + E1 * df * M.L (fun ξ => disp S P s x 0 1 0 ξ (2 * ys / P.b - 1) * disp S P s y 2 2 0 ξ (2 * ys / P.b - 1))
        + E1 * df * M.L (fun ξ => disp S P s x 2 2 0 ξ (2 * ys / P.b - 1) * disp S P s y 0 1 0 ξ (2 * ys / P.b - 1))
        + (E1 * df ^ 2 + F1) * M.L (fun ξ => disp S P s x 2 2 0 ξ (2 * ys / P.b - 1) * disp S P s y 2 2 0 ξ (2 * ys / P.b - 1))
        + Jxx * M.L (fun ξ => disp S P s x 2 1 1 ξ (2 * ys / P.b - 1) * disp S P s y 2 1 1 ξ (2 * ys / P.b - 1))
        + -S1 * M.L (fun ξ => disp S P s x 0 1 0 ξ (2 * ys / P.b - 1) * disp S P s y 2 1 1 ξ (2 * ys / P.b - 1))
        + -S1 * M.L (fun ξ => disp S P s x 2 1 1 ξ (2 * ys / P.b - 1) * disp S P s y 0 1 0 ξ (2 * ys / P.b - 1))
        + -(S1 * df) * M.L (fun ξ => disp S P s x 2 2 0 ξ (2 * ys / P.b - 1) * disp S P s y 2 1 1 ξ (2 * ys / P.b - 1))
        + -(S1 * df) * M.L (fun ξ => disp S P s x 2 1 1 ξ (2 * ys / P.b - 1) * disp S P s y 2 2 0 ξ (2 * ys / P.b - 1))) := by
  simp only [L_dispY hI hS, bilin_cross_pair, mul_pairSum, pairSum_add]
  unfold pairSum
  refine Finset.sum_congr rfl fun A _ => Finset.sum_congr rfl fun B _ => ?_
  simp only [blk, Gen.Blade1D.fkCf_pat, Gen.Blade1D.fkCf, Gen.Blade1D.fkCf_00, Gen.Blade1D.fkCf_02,
    Gen.Blade1D.fkCf_20, Gen.Blade1D.fkCf_22,
    List.map_cons, List.map_nil, List.sum_cons, List.sum_nil, Tab.get, Shape.D, Panel.xf, Panel.yf]
  field_simp
  ring

theorem fkCf_energy [CharZero K] (hI : I.Exact S M) (hS : S.In M) (P : Panel K) (ha : P.a ≠ 0)
    (hb : P.b ≠ 0) (ys bf df E1 F1 S1 Jxx : K) (s : ℕ) (c : ℕ → K) :
    Coo.quad (Coo.finalizeSym (fkCf S I P ys bf df E1 F1 S1 Jxx s s)) c
      = P.a / 2 * (bf * M.L (fun ξ =>
        E1 * (disp S P s c 0 1 0 ξ (2 * ys / P.b - 1) + df * disp S P s c 2 2 0 ξ (2 * ys / P.b - 1)) ^ 2
        + F1 * disp S P s c 2 2 0 ξ (2 * ys / P.b - 1) ^ 2
        + Jxx * disp S P s c 2 1 1 ξ (2 * ys / P.b - 1) ^ 2
        - 2 * S1 * (disp S P s c 0 1 0 ξ (2 * ys / P.b - 1) + df * disp S P s c 2 2 0 ξ (2 * ys / P.b - 1))
          * disp S P s c 2 1 1 ξ (2 * ys / P.b - 1))) := by
  have hIs : I.Sym := sym_of_exact' hI
  rw [fkCf, Coo.quad_finalizeSym_pad]
  unfold Coo.quad
  rw [finalize_symBuild_full (pat := Gen.Blade1D.fkCf_pat) s P.m P.n pat4_ok
    (fkCf_swap hIs S P ha E1 F1 Jxx S1 bf df ys _ _) c c, fkCf_form hI hS P ha hb]
  have h := (M.L_list [
      (E1, fun ξ => disp S P s c 0 1 0 ξ (2 * ys / P.b - 1) * disp S P s c 0 1 0 ξ (2 * ys / P.b - 1)),
      (E1 * df, fun ξ => disp S P s c 0 1 0 ξ (2 * ys / P.b - 1) * disp S P s c 2 2 0 ξ (2 * ys / P.b - 1)),
      (E1 * df, fun ξ => disp S P s c 2 2 0 ξ (2 * ys / P.b - 1) * disp S P s c 0 1 0 ξ (2 * ys / P.b - 1)),
      (E1 * df ^ 2 + F1, fun ξ => disp S P s c 2 2 0 ξ (2 * ys / P.b - 1) * disp S P s c 2 2 0 ξ (2 * ys / P.b - 1)),
      (Jxx, fun ξ => disp S P s c 2 1 1 ξ (2 * ys / P.b - 1) * disp S P s c 2 1 1 ξ (2 * ys / P.b - 1)),
      (-S1, fun ξ => disp S P s c 0 1 0 ξ (2 * ys / P.b - 1) * disp S P s c 2 1 1 ξ (2 * ys / P.b - 1)),
      (-S1, fun ξ => disp S P s c 2 1 1 ξ (2 * ys / P.b - 1) * disp S P s c 0 1 0 ξ (2 * ys / P.b - 1)),
      (-(S1 * df), fun ξ => disp S P s c 2 2 0 ξ (2 * ys / P.b - 1) * disp S P s c 2 1 1 ξ (2 * ys / P.b - 1)),
      (-(S1 * df), fun ξ => disp S P s c 2 1 1 ξ (2 * ys / P.b - 1) * disp S P s c 2 2 0 ξ (2 * ys / P.b - 1))] (by
    simp only [List.forall_mem_cons, List.not_mem_nil, false_imp_iff, implies_true, and_true]
    refine ⟨?_, ?_, ?_, ?_, ?_, ?_, ?_, ?_, ?_⟩ <;>
      exact M.C.mul_mem (disp_memX hS ..) (disp_memX hS ..))).2
  simp only [List.map_cons, List.map_nil, List.sum_cons, List.sum_nil] at h
  refine Eq.trans ?_ (congrArg (fun z => P.a / 2 * (bf * z)) (Eq.trans h.symm (congrArg M.L (funext fun ξ => ?_))))
  · ring
  · ring

theorem fkGf_energy [CharZero K] (hI : I.Exact S M) (hS : S.In M) (P : Panel K) (ha : P.a ≠ 0)
    (ys Fx : K) (s : ℕ) (c : ℕ → K) :
    Coo.quad (Coo.finalizeSym (fkGf S I P ys Fx s s)) c
      = P.a / 2 * (Fx * M.L (fun ξ => disp S P s c 2 1 0 ξ (2 * ys / P.b - 1) * disp S P s c 2 1 0 ξ (2 * ys / P.b - 1))) := by
  have hIs : I.Sym := sym_of_exact' hI
  rw [fkGf, Coo.quad_finalizeSym_pad]
  unfold Coo.quad
  rw [finalize_symBuild_full (pat := Gen.Blade1D.fkGf_pat) s P.m P.n pat1_ok
    (fkGf_swap hIs S P Fx ys _ _) c c]
  simp only [L_dispY hI hS, bilin_cross_pair, mul_pairSum]
  unfold pairSum
  refine Finset.sum_congr rfl fun A _ => Finset.sum_congr rfl fun B _ => ?_
  simp only [blk, Gen.Blade1D.fkGf_pat, Gen.Blade1D.fkGf, Gen.Blade1D.fkGf_22,
    List.map_cons, List.map_nil, List.sum_cons, List.sum_nil, Tab.get, Shape.D, Panel.xf, Panel.yf]
  field_simp
  ring

/-- The constant printed in `fkMf` where `1/6` is meant. -/
def sixth : K := 166666666666667 / 1000000000000000

theorem fkMf_form [CharZero K] (hI : I.Exact S M) (hS : S.In M) (P : Panel K) (ha : P.a ≠ 0)
    (hb' : P.b ≠ 0) (ys rho h hb hf bf df : K) (s : ℕ) (x y : ℕ → K) :
    Coo.bilin (crossBuild s s P.m P.n P.m P.n Gen.Blade1D.fkMf_pat
        (Gen.Blade1D.fkMf S I P bf df h hb hf rho ys)) x y
      = P.a / 2 * (bf * hf * rho) * (
        1 * M.L (fun ξ => disp S P s x 0 0 0 ξ (2 * ys / P.b - 1) * disp S P s y 0 0 0 ξ (2 * ys / P.b - 1))
        + 1 * M.L (fun ξ => disp S P s x 1 0 0 ξ (2 * ys / P.b - 1) * disp S P s y 1 0 0 ξ (2 * ys / P.b - 1))
        + 2 * df * M.L (fun ξ => disp S P s x 0 0 0 ξ (2 * ys / P.b - 1) * disp S P s y 2 1 0 ξ (2 * ys / P.b - 1))
        + 2 * df * M.L (fun ξ => disp S P s x 2 1 0 ξ (2 * ys / P.b - 1) * disp S P s y 0 0 0 ξ (2 * ys / P.b - 1))
        + 2 * df * M.L (fun ξ => disp S P s x 1 0 0 ξ (2 * ys / P.b - 1) * disp S P s y 2 0 1 ξ (2 * ys / P.b - 1))
        + 2 * df * M.L (fun ξ => disp S P s x 2 0 1 ξ (2 * ys / P.b - 1) * disp S P s y 1 0 0 ξ (2 * ys / P.b - 1))
        + 6 * sixth * M.L (fun ξ => disp S P s x 2 0 0 ξ (2 * ys / P.b - 1) * disp S P s y 2 0 0 ξ (2 * ys / P.b - 1))
        + sixth / 2 * (4 * (bf * bf) + 6 * bf * (h + 2 * hb) + 3 * (h + 2 * hb) ^ 2) * M.L (fun ξ => disp S P s x 2 1 0 ξ (2 * ys / P.b - 1) * disp S P s y 2 1 0 ξ (2 * ys / P.b - 1))
        + sixth / 2 * (4 * (bf * bf) + 6 * bf * (h + 2 * hb) + 3 * (h + 2 * hb) ^ 2) * M.L (fun ξ => disp S P s x 2 0 1 ξ (2 * ys / P.b - 1) * disp S P s y 2 0 1 ξ (2 * ys / P.b - 1))) := by
  simp only [L_dispY hI hS, bilin_cross_pair, mul_pairSum, pairSum_add]
  unfold pairSum
  refine Finset.sum_congr rfl fun A _ => Finset.sum_congr rfl fun B _ => ?_
  simp only [blk, sixth, Gen.Blade1D.fkMf_pat, Gen.Blade1D.fkMf, Gen.Blade1D.fkMf_00, Gen.Blade1D.fkMf_02, Gen.Blade1D.fkMf_11, Gen.Blade1D.fkMf_12, Gen.Blade1D.fkMf_20, Gen.Blade1D.fkMf_21, Gen.Blade1D.fkMf_22,
    List.map_cons, List.map_nil, List.sum_cons, List.sum_nil, Tab.get, Shape.D, Panel.xf, Panel.yf]
  field_simp
  ring

theorem fkMf_energy [CharZero K] (hI : I.Exact S M) (hS : S.In M) (P : Panel K) (ha : P.a ≠ 0)
    (hb' : P.b ≠ 0) (ys rho h hb hf bf df : K) (s : ℕ) (c : ℕ → K) :
    Coo.quad (Coo.finalizeSym (fkMf S I P ys rho h hb hf bf df s s)) c
      = P.a / 2 * (bf * hf * rho * M.L (fun ξ =>
        disp S P s c 0 0 0 ξ (2 * ys / P.b - 1) ^ 2 + disp S P s c 1 0 0 ξ (2 * ys / P.b - 1) ^ 2 + 6 * sixth * disp S P s c 2 0 0 ξ (2 * ys / P.b - 1) ^ 2
        + 4 * df * (disp S P s c 0 0 0 ξ (2 * ys / P.b - 1) * disp S P s c 2 1 0 ξ (2 * ys / P.b - 1) + disp S P s c 1 0 0 ξ (2 * ys / P.b - 1) * disp S P s c 2 0 1 ξ (2 * ys / P.b - 1))
        + sixth / 2 * (4 * (bf * bf) + 6 * bf * (h + 2 * hb) + 3 * (h + 2 * hb) ^ 2) * (disp S P s c 2 1 0 ξ (2 * ys / P.b - 1) ^ 2 + disp S P s c 2 0 1 ξ (2 * ys / P.b - 1) ^ 2))) := by
  have hIs : I.Sym := sym_of_exact' hI
  rw [fkMf, Coo.quad_finalizeSym_pad]
  unfold Coo.quad
  rw [finalize_symBuild_full (pat := Gen.Blade1D.fkMf_pat) s P.m P.n pat7_ok
    (fkMf_swap hIs S P bf df h hb hf rho ys _ _) c c, fkMf_form hI hS P ha hb']
  have h := (M.L_list [
      (1, fun ξ => disp S P s c 0 0 0 ξ (2 * ys / P.b - 1) * disp S P s c 0 0 0 ξ (2 * ys / P.b - 1)),
      (1, fun ξ => disp S P s c 1 0 0 ξ (2 * ys / P.b - 1) * disp S P s c 1 0 0 ξ (2 * ys / P.b - 1)),
      (2 * df, fun ξ => disp S P s c 0 0 0 ξ (2 * ys / P.b - 1) * disp S P s c 2 1 0 ξ (2 * ys / P.b - 1)),
      (2 * df, fun ξ => disp S P s c 2 1 0 ξ (2 * ys / P.b - 1) * disp S P s c 0 0 0 ξ (2 * ys / P.b - 1)),
      (2 * df, fun ξ => disp S P s c 1 0 0 ξ (2 * ys / P.b - 1) * disp S P s c 2 0 1 ξ (2 * ys / P.b - 1)),
      (2 * df, fun ξ => disp S P s c 2 0 1 ξ (2 * ys / P.b - 1) * disp S P s c 1 0 0 ξ (2 * ys / P.b - 1)),
      (6 * sixth, fun ξ => disp S P s c 2 0 0 ξ (2 * ys / P.b - 1) * disp S P s c 2 0 0 ξ (2 * ys / P.b - 1)),
      (sixth / 2 * (4 * (bf * bf) + 6 * bf * (h + 2 * hb) + 3 * (h + 2 * hb) ^ 2), fun ξ => disp S P s c 2 1 0 ξ (2 * ys / P.b - 1) * disp S P s c 2 1 0 ξ (2 * ys / P.b - 1)),
      (sixth / 2 * (4 * (bf * bf) + 6 * bf * (h + 2 * hb) + 3 * (h + 2 * hb) ^ 2), fun ξ => disp S P s c 2 0 1 ξ (2 * ys / P.b - 1) * disp S P s c 2 0 1 ξ (2 * ys / P.b - 1))] (by
    simp only [List.forall_mem_cons, List.not_mem_nil, false_imp_iff, implies_true, and_true]
    refine ⟨?_, ?_, ?_, ?_, ?_, ?_, ?_, ?_, ?_⟩ <;>
      exact M.C.mul_mem (disp_memX hS ..) (disp_memX hS ..))).2
  simp only [List.map_cons, List.map_nil, List.sum_cons, List.sum_nil] at h
  refine Eq.trans ?_ (congrArg (fun z => P.a / 2 * (bf * hf * rho * z)) (Eq.trans h.symm (congrArg M.L (funext fun ξ => ?_))))
  · ring
  · ring

/-! ## 2D blade -/

theorem fkCss_form [CharZero K] (hI : I.Exact S M) (hS : S.In M) (P : Panel K) (ha : P.a ≠ 0)
    (hb : P.b ≠ 0) (kt kr ys : K) (s : ℕ) (x y : ℕ → K) :
    Coo.bilin (crossBuild s s P.m P.n P.m P.n Gen.Blade2D.fkCss_pat
        (Gen.Blade2D.fkCss S I P kr kt ys)) x y
      = P.a / 2 * (
        kt * M.L (fun ξ => disp S P s x 0 0 0 ξ (2 * ys / P.b - 1) * disp S P s y 0 0 0 ξ (2 * ys / P.b - 1))
        + kt * M.L (fun ξ => disp S P s x 1 0 0 ξ (2 * ys / P.b - 1) * disp S P s y 1 0 0 ξ (2 * ys / P.b - 1))
        + kt * M.L (fun ξ => disp S P s x 2 0 0 ξ (2 * ys / P.b - 1) * disp S P s y 2 0 0 ξ (2 * ys / P.b - 1))
        + kr * M.L (fun ξ => disp S P s x 2 0 1 ξ (2 * ys / P.b - 1) * disp S P s y 2 0 1 ξ (2 * ys / P.b - 1))) := by
  simp only [L_dispY hI hS, bilin_cross_pair, mul_pairSum, pairSum_add]
  unfold pairSum
  refine Finset.sum_congr rfl fun A _ => Finset.sum_congr rfl fun B _ => ?_
  simp only [blk, Gen.Blade2D.fkCss_pat, Gen.Blade2D.fkCss, Gen.Blade2D.fkCss_00, Gen.Blade2D.fkCss_11, Gen.Blade2D.fkCss_22,
    List.map_cons, List.map_nil, List.sum_cons, List.sum_nil, Tab.get, Shape.D, Panel.xf, Panel.yf]
  field_simp
  ring

theorem fkCsf_form [CharZero K] (hI : I.Exact S M) (hS : S.In M) (P Pf : Panel K) (ha : P.a ≠ 0)
    (hb : P.b ≠ 0) (hf : Pf.b ≠ 0) (kt kr ys : K) (s sf : ℕ) (x y : ℕ → K) :
    Coo.bilin (crossBuild s sf P.m P.n Pf.m Pf.n Gen.Blade2D.fkCsf_pat
        (Gen.Blade2D.fkCsf S I P Pf Pf.b kr kt ys)) x y
      = P.a / 2 * (
        -kt * M.L (fun ξ => disp S P s x 0 0 0 ξ (2 * ys / P.b - 1) * disp S Pf sf y 0 0 0 ξ (-1))
        + -kt * M.L (fun ξ => disp S P s x 1 0 0 ξ (2 * ys / P.b - 1) * disp S Pf sf y 2 0 0 ξ (-1))
        + kt * M.L (fun ξ => disp S P s x 2 0 0 ξ (2 * ys / P.b - 1) * disp S Pf sf y 1 0 0 ξ (-1))
        + -kr * M.L (fun ξ => disp S P s x 2 0 1 ξ (2 * ys / P.b - 1) * disp S Pf sf y 2 0 1 ξ (-1))) := by
  simp only [L_dispY hI hS, bilin_cross_pair, mul_pairSum, pairSum_add]
  unfold pairSum
  refine Finset.sum_congr rfl fun A _ => Finset.sum_congr rfl fun B _ => ?_
  simp only [blk, Gen.Blade2D.fkCsf_pat, Gen.Blade2D.fkCsf, Gen.Blade2D.fkCsf_00, Gen.Blade2D.fkCsf_12, Gen.Blade2D.fkCsf_21, Gen.Blade2D.fkCsf_22,
    List.map_cons, List.map_nil, List.sum_cons, List.sum_nil, Tab.get, Shape.D, Panel.xf, Panel.yf]
  field_simp
  ring

theorem fkCff_form [CharZero K] (hI : I.Exact S M) (hS : S.In M) (P Pf : Panel K) (ha : P.a ≠ 0)
    (hf : Pf.b ≠ 0) (kt kr : K) (sf : ℕ) (x y : ℕ → K) :
    Coo.bilin (crossBuild sf sf Pf.m Pf.n Pf.m Pf.n Gen.Blade2D.fkCff_pat
        (Gen.Blade2D.fkCff S I P Pf Pf.b kr kt)) x y
      = P.a / 2 * (
        kt * M.L (fun ξ => disp S Pf sf x 0 0 0 ξ (-1) * disp S Pf sf y 0 0 0 ξ (-1))
        + kt * M.L (fun ξ => disp S Pf sf x 1 0 0 ξ (-1) * disp S Pf sf y 1 0 0 ξ (-1))
        + kt * M.L (fun ξ => disp S Pf sf x 2 0 0 ξ (-1) * disp S Pf sf y 2 0 0 ξ (-1))
        + kr * M.L (fun ξ => disp S Pf sf x 2 0 1 ξ (-1) * disp S Pf sf y 2 0 1 ξ (-1))) := by
  simp only [L_dispY hI hS, bilin_cross_pair, mul_pairSum, pairSum_add]
  unfold pairSum
  refine Finset.sum_congr rfl fun A _ => Finset.sum_congr rfl fun B _ => ?_
  simp only [blk, Gen.Blade2D.fkCff_pat, Gen.Blade2D.fkCff, Gen.Blade2D.fkCff_00, Gen.Blade2D.fkCff_11, Gen.Blade2D.fkCff_22,
    List.map_cons, List.map_nil, List.sum_cons, List.sum_nil, Tab.get, Shape.D, Panel.xf, Panel.yf]
  field_simp
  ring

theorem bladeConn_energy [CharZero K] (hI : I.Exact S M) (hS : S.In M) (P Pf : Panel K) (ha : P.a ≠ 0)
    (hb : P.b ≠ 0) (hf : Pf.b ≠ 0) (kt kr ys : K) (s sf : ℕ)
    (hs : s + 3 * (P.m * P.n) ≤ sf) (c : ℕ → K) :
    Coo.quad (Coo.finalizeSym (bladeConn S I P Pf kt kr ys s sf)) c
      = P.a / 2 * M.L (fun ξ =>
        kt * (disp S P s c 0 0 0 ξ (2 * ys / P.b - 1) - disp S Pf sf c 0 0 0 ξ (-1)) ^ 2
        + kt * (disp S P s c 1 0 0 ξ (2 * ys / P.b - 1) - disp S Pf sf c 2 0 0 ξ (-1)) ^ 2
        + kt * (disp S P s c 2 0 0 ξ (2 * ys / P.b - 1) + disp S Pf sf c 1 0 0 ξ (-1)) ^ 2
        + kr * (disp S P s c 2 0 1 ξ (2 * ys / P.b - 1) - disp S Pf sf c 2 0 1 ξ (-1)) ^ 2) := by
  have hIs : I.Sym := sym_of_exact' hI
  rw [bladeConn, Coo.finalizeSym_append_quad, Coo.finalizeSym_append_quad, fkCss, fkCsf, fkCff,
    Coo.quad_finalizeSym_pad, Coo.quad_finalizeSym_pad, Coo.quad_finalizeSym_pad]
  rw [quad_finalize_cross (by intro ab h; revert ab; decide) hs]
  unfold Coo.quad
  rw [finalize_symBuild_full (pat := Gen.Blade2D.fkCss_pat) s P.m P.n pat3_ok
      (fkCss_swap hIs S P kr kt ys _ _) c c,
    finalize_symBuild_full (pat := Gen.Blade2D.fkCff_pat) sf Pf.m Pf.n pat3_ok
      (fkCff_swap hIs S P Pf Pf.b kr kt _ _) c c]
  rw [fkCss_form hI hS P ha hb, fkCsf_form hI hS P Pf ha hb hf, fkCff_form hI hS P Pf ha hf]
  have h := (M.L_list [
      (kt, fun ξ => disp S P s c 0 0 0 ξ (2 * ys / P.b - 1) * disp S P s c 0 0 0 ξ (2 * ys / P.b - 1)),
      (kt, fun ξ => disp S P s c 1 0 0 ξ (2 * ys / P.b - 1) * disp S P s c 1 0 0 ξ (2 * ys / P.b - 1)),
      (kt, fun ξ => disp S P s c 2 0 0 ξ (2 * ys / P.b - 1) * disp S P s c 2 0 0 ξ (2 * ys / P.b - 1)),
      (kr, fun ξ => disp S P s c 2 0 1 ξ (2 * ys / P.b - 1) * disp S P s c 2 0 1 ξ (2 * ys / P.b - 1)),
      (kt, fun ξ => disp S Pf sf c 0 0 0 ξ (-1) * disp S Pf sf c 0 0 0 ξ (-1)),
      (kt, fun ξ => disp S Pf sf c 1 0 0 ξ (-1) * disp S Pf sf c 1 0 0 ξ (-1)),
      (kt, fun ξ => disp S Pf sf c 2 0 0 ξ (-1) * disp S Pf sf c 2 0 0 ξ (-1)),
      (kr, fun ξ => disp S Pf sf c 2 0 1 ξ (-1) * disp S Pf sf c 2 0 1 ξ (-1)),
      (-2 * kt, fun ξ => disp S P s c 0 0 0 ξ (2 * ys / P.b - 1) * disp S Pf sf c 0 0 0 ξ (-1)),
      (-2 * kt, fun ξ => disp S P s c 1 0 0 ξ (2 * ys / P.b - 1) * disp S Pf sf c 2 0 0 ξ (-1)),
      (2 * kt, fun ξ => disp S P s c 2 0 0 ξ (2 * ys / P.b - 1) * disp S Pf sf c 1 0 0 ξ (-1)),
      (-2 * kr, fun ξ => disp S P s c 2 0 1 ξ (2 * ys / P.b - 1) * disp S Pf sf c 2 0 1 ξ (-1))] (by
    simp only [List.forall_mem_cons, List.not_mem_nil, false_imp_iff, implies_true, and_true]
    refine ⟨?_, ?_, ?_, ?_, ?_, ?_, ?_, ?_, ?_, ?_, ?_, ?_⟩ <;>
      exact M.C.mul_mem (disp_memX hS ..) (disp_memX hS ..))).2
  simp only [List.map_cons, List.map_nil, List.sum_cons, List.sum_nil] at h
  refine Eq.trans ?_ (congrArg (fun z => P.a / 2 * z) (Eq.trans h.symm (congrArg M.L (funext fun ξ => ?_))))
  · ring
  · ring

end Verif
