import Verif.Proofs.ConnEnergy
import Verif.Proofs.Swap
import Verif.Model.Conn
import Verif.Spec.Work

/-!
# Quadratic forms of the matrices for prescribed displacements
-/

set_option linter.unusedSectionVars false
set_option maxHeartbeats 1000000

namespace Verif

open Finset Spec Model

variable {K : Type*} [Field K] [CharZero K] {I : Tab K} {S : Shape K} {M : Mean K}

/-- Point penalties. -/
theorem fkCpd_form (S : Shape K) (P : Panel K) (ku kv kw xp yp : K) (s : ℕ) (x y : ℕ → K) :
    Coo.bilin (Coo.finalizeSym (fkCpd S P ku kv kw xp yp s s)) x y
      = ku * Spec.field S P s x 0 xp yp * Spec.field S P s y 0 xp yp
        + kv * Spec.field S P s x 1 xp yp * Spec.field S P s y 1 xp yp
        + kw * Spec.field S P s x 2 xp yp * Spec.field S P s y 2 xp yp := by
  rw [fkCpd, bilin_finalizeSym_pad, finalize_symBuildJL_full (pat := Gen.Pd.fkCpd_pat) s P.m P.n
    pat3_ok (fkCpd_swap S P ku kv kw xp yp _ _) x y]
  have hd : ∀ (c : ℕ → K) (α : ℕ), Spec.field S P s c α xp yp = ∑ A ∈ range P.m ×ˢ range P.n,
      c (s + dof P.m A.1 A.2 + α) * (S.f A.1 (2 * xp / P.a - 1) (P.xf α)
        * S.f A.2 (2 * yp / P.b - 1) (P.yf α)) := fun c α => by
    rw [sum_product]
    simp only [Spec.field, disp, pow_zero, one_mul, Shape.D, dof]
  have hp : ∀ k α, k * Spec.field S P s x α xp yp * Spec.field S P s y α xp yp
      = pairSum P P fun A B => k * (x (s + dof P.m A.1 A.2 + α) * (S.f A.1 (2 * xp / P.a - 1)
          (P.xf α) * S.f A.2 (2 * yp / P.b - 1) (P.yf α)) * (y (s + dof P.m B.1 B.2 + α)
          * (S.f B.1 (2 * xp / P.a - 1) (P.xf α) * S.f B.2 (2 * yp / P.b - 1) (P.yf α)))) :=
    fun k α => by
    rw [mul_assoc, hd, hd, sum_mul_sum, mul_sum]
    unfold pairSum
    exact sum_congr rfl fun A _ => mul_sum ..
  simp only [hp, bilin_cross_pair, pairSum_add]
  unfold pairSum
  refine sum_congr rfl fun A _ => sum_congr rfl fun B _ => ?_
  simp only [blk, Gen.Pd.fkCpd_pat, Gen.Pd.fkCpd, Gen.Pd.fkCpd_00, Gen.Pd.fkCpd_11,
    Gen.Pd.fkCpd_22, List.map_cons, List.map_nil, List.sum_cons, List.sum_nil, Panel.xf, Panel.yf]
  ring

/-! ## Lines: three values written to the `w`-`w` position -/

/-- Sum of the three values, at `w`-`w` only. -/
def sum3 (v0 v1 v2 : ℕ → ℕ → ℕ → ℕ → K) (i k j l α β : ℕ) : K :=
  match α, β with
  | 2, 2 => v0 i k j l + v1 i k j l + v2 i k j l
  | _, _ => 0

theorem sum3_swap {m n : ℕ} {v0 v1 v2 : ℕ → ℕ → ℕ → ℕ → K} (h0 : ∀ i k j l, v0 i k j l = v0 k i l j)
    (h1 : ∀ i k j l, v1 i k j l = v1 k i l j) (h2 : ∀ i k j l, v2 i k j l = v2 k i l j) :
    SwapSym m n (sum3 v0 v1 v2) := by
  intro i k j l a b _ _ _ _
  by_cases h : a = 2 ∧ b = 2
  · obtain ⟨rfl, rfl⟩ := h
    simp only [sum3]
    rw [h0, h1, h2]
  · rw [sum3, sum3] <;> (intro h1 h2; exact h (by omega))

theorem symW_block (v : ℕ → K) (r c m : ℕ) (v0 v1 v2 : ℕ → ℕ → ℕ → ℕ → K) (i k j l : ℕ) :
    ((symBlockW r c m [((2, 2), v0), ((2, 2), v1), ((2, 2), v2)] i k j l).map (Coo.symW v)).sum
      = ((symBlock r c m pat1 (sum3 v0 v1 v2) i k j l).map (Coo.symW v)).sum := by
  unfold symBlockW symBlock
  split_ifs
  · rfl
  · simp only [pat1, List.map_cons, List.map_nil, List.sum_cons, List.sum_nil, Coo.symW, sum3]
    split_ifs <;> ring

theorem quad_buildW (r c m n : ℕ) (v0 v1 v2 : ℕ → ℕ → ℕ → ℕ → K) (v : ℕ → K) :
    Coo.quad (Coo.finalizeSym (symBuildW r c m n [((2, 2), v0), ((2, 2), v1), ((2, 2), v2)])) v
      = Coo.quad (Coo.finalizeSym (symBuild r c m n pat1 (sum3 v0 v1 v2))) v := by
  simp only [Coo.quad_finalizeSym, symBuildW, symBuild, sum_map_flatMap, symW_block]

theorem quad_buildWJL (r c m n : ℕ) (v0 v1 v2 : ℕ → ℕ → ℕ → ℕ → K) (v : ℕ → K) :
    Coo.quad (Coo.finalizeSym (symBuildWJL r c m n [((2, 2), v0), ((2, 2), v1), ((2, 2), v2)])) v
      = Coo.quad (Coo.finalizeSym (symBuildJL r c m n pat1 (sum3 v0 v1 v2))) v := by
  simp only [Coo.quad_finalizeSym, symBuildWJL, symBuildJL, sum_map_flatMap, symW_block]

/-- The panel whose deflection series uses the edge conditions of component `α`. -/
def asW (P : Panel K) (α : ℕ) : Panel K := { P with xw := P.xf α, yw := P.yf α }

theorem fkCldXcte_form (hI : I.Exact S M) (hS : S.In M) (P : Panel K) (ku kv kw xp : K) (s : ℕ)
    (c : ℕ → K) :
    Coo.quad (Coo.finalizeSym (fkCldXcte S I P ku kv kw xp s s)) c
      = P.b / 2 * M.L fun η =>
          ku * disp S (asW P 0) s c 2 0 0 (2 * xp / P.a - 1) η ^ 2
          + kv * disp S (asW P 1) s c 2 0 0 (2 * xp / P.a - 1) η ^ 2
          + kw * disp S P s c 2 0 0 (2 * xp / P.a - 1) η ^ 2 := by
  have hIs : I.Sym := sym_of_exact' hI
  rw [fkCldXcte, Coo.quad_finalizeSym_pad]
  simp only [Gen.Pd.fkCld_xcte_pat, List.zip_cons_cons, List.zip_nil_right]
  rw [quad_buildWJL]
  unfold Coo.quad
  rw [finalize_symBuildJL_full s P.m P.n pat1_ok]
  · have h := (M.L_list [
      (ku, fun η => disp S (asW P 0) s c 2 0 0 (2 * xp / P.a - 1) η
        * disp S (asW P 0) s c 2 0 0 (2 * xp / P.a - 1) η),
      (kv, fun η => disp S (asW P 1) s c 2 0 0 (2 * xp / P.a - 1) η
        * disp S (asW P 1) s c 2 0 0 (2 * xp / P.a - 1) η),
      (kw, fun η => disp S P s c 2 0 0 (2 * xp / P.a - 1) η
        * disp S P s c 2 0 0 (2 * xp / P.a - 1) η)] (by
      simp only [List.forall_mem_cons, List.not_mem_nil, false_imp_iff, implies_true, and_true]
      refine ⟨?_, ?_, ?_⟩ <;> exact M.C.mul_mem (disp_memY hS ..) (disp_memY hS ..))).2
    simp only [List.map_cons, List.map_nil, List.sum_cons, List.sum_nil] at h
    refine Eq.trans ?_ (congrArg (fun z => P.b / 2 * z)
      (Eq.trans h.symm (congrArg M.L (funext fun η => by ring))))
    simp only [L_dispX hI hS, bilin_cross_pair]
    unfold pairSum asW
    simp only [mul_sum, add_zero, ← sum_add_distrib]
    refine sum_congr rfl fun A _ => sum_congr rfl fun B _ => ?_
    simp only [blk, pat1, sum3, Gen.Pd.fkCld_xcte_w0, Gen.Pd.fkCld_xcte_w1, Gen.Pd.fkCld_xcte_w2,
      List.map_cons, List.map_nil, List.sum_cons, List.sum_nil, Tab.get, Shape.D, Panel.xf,
      Panel.yf]
    ring
  · refine sum3_swap ?_ ?_ ?_ <;> intro i k j l
    · simp only [Gen.Pd.fkCld_xcte_w0]; rw [hIs.ff j l P.yu P.yu]; ring
    · simp only [Gen.Pd.fkCld_xcte_w1]; rw [hIs.ff j l P.yv P.yv]; ring
    · simp only [Gen.Pd.fkCld_xcte_w2]; rw [hIs.ff j l P.yw P.yw]; ring

theorem fkCldYcte_form (hI : I.Exact S M) (hS : S.In M) (P : Panel K) (ku kv kw yp : K) (s : ℕ)
    (c : ℕ → K) :
    Coo.quad (Coo.finalizeSym (fkCldYcte S I P ku kv kw yp s s)) c
      = P.a / 2 * M.L fun ξ =>
          ku * disp S (asW P 0) s c 2 0 0 ξ (2 * yp / P.b - 1) ^ 2
          + kv * disp S (asW P 1) s c 2 0 0 ξ (2 * yp / P.b - 1) ^ 2
          + kw * disp S P s c 2 0 0 ξ (2 * yp / P.b - 1) ^ 2 := by
  have hIs : I.Sym := sym_of_exact' hI
  rw [fkCldYcte, Coo.quad_finalizeSym_pad]
  simp only [Gen.Pd.fkCld_ycte_pat, List.zip_cons_cons, List.zip_nil_right]
  rw [quad_buildW]
  unfold Coo.quad
  rw [finalize_symBuild_full s P.m P.n pat1_ok]
  · have h := (M.L_list [
      (ku, fun ξ => disp S (asW P 0) s c 2 0 0 ξ (2 * yp / P.b - 1)
        * disp S (asW P 0) s c 2 0 0 ξ (2 * yp / P.b - 1)),
      (kv, fun ξ => disp S (asW P 1) s c 2 0 0 ξ (2 * yp / P.b - 1)
        * disp S (asW P 1) s c 2 0 0 ξ (2 * yp / P.b - 1)),
      (kw, fun ξ => disp S P s c 2 0 0 ξ (2 * yp / P.b - 1)
        * disp S P s c 2 0 0 ξ (2 * yp / P.b - 1))] (by
      simp only [List.forall_mem_cons, List.not_mem_nil, false_imp_iff, implies_true, and_true]
      refine ⟨?_, ?_, ?_⟩ <;> exact M.C.mul_mem (disp_memX hS ..) (disp_memX hS ..))).2
    simp only [List.map_cons, List.map_nil, List.sum_cons, List.sum_nil] at h
    refine Eq.trans ?_ (congrArg (fun z => P.a / 2 * z)
      (Eq.trans h.symm (congrArg M.L (funext fun η => by ring))))
    simp only [L_dispY hI hS, bilin_cross_pair]
    unfold pairSum asW
    simp only [mul_sum, add_zero, ← sum_add_distrib]
    refine sum_congr rfl fun A _ => sum_congr rfl fun B _ => ?_
    simp only [blk, pat1, sum3, Gen.Pd.fkCld_ycte_w0, Gen.Pd.fkCld_ycte_w1, Gen.Pd.fkCld_ycte_w2,
      List.map_cons, List.map_nil, List.sum_cons, List.sum_nil, Tab.get, Shape.D, Panel.xf,
      Panel.yf]
    ring
  · refine sum3_swap ?_ ?_ ?_ <;> intro i k j l
    · simp only [Gen.Pd.fkCld_ycte_w0]; rw [hIs.ff i k P.xu P.xu]; ring
    · simp only [Gen.Pd.fkCld_ycte_w1]; rw [hIs.ff i k P.xv P.xv]; ring
    · simp only [Gen.Pd.fkCld_ycte_w2]; rw [hIs.ff i k P.xw P.xw]; ring

end Verif
