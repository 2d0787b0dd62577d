import Verif.Proofs.ConnBase
import Verif.Proofs.Swap
import Verif.Model.ConnAll

/-!
# Quadratic forms of the penalty connections, in natural coordinates
-/

set_option linter.unusedSectionVars false
set_option linter.unusedSimpArgs false
set_option maxHeartbeats 1000000

namespace Verif

open Finset Spec Model

variable {K : Type*} [Field K] {I : Tab K} {S : Shape K} {M : Mean K}

theorem sym_of_exact' (hI : I.Exact S M) : I.Sym where
  ff := fun i j fa fb => by rw [hI.ff, hI.ff]; congr 1; funext x; ring
  fpfp := fun i j fa fb => by rw [hI.fpfp, hI.fpfp]; congr 1; funext x; ring
  fppfpp := fun i j fa fb => by rw [hI.fppfpp, hI.fppfpp]; congr 1; funext x; ring

theorem SSxcte11_form [CharZero K] (hI : I.Exact S M) (hS : S.In M) (P1 : Panel K) (hP1 : P1.a ≠ 0) (hbP1 : P1.b ≠ 0)
    (kt kr x1 : K) (hkt : kt ≠ 0) (s1 : ℕ) (x y : ℕ → K) :
    Coo.bilin (crossBuild s1 s1 P1.m P1.n P1.m P1.n Gen.Conn.kSSxcte11_pat
        (Gen.Conn.kSSxcte11 S I P1 kr kt x1)) x y
      = (P1.b / 2) * (kt * M.L (fun η => disp S P1 s1 x 0 0 0 (2 * x1 / P1.a - 1) η * disp S P1 s1 y 0 0 0 (2 * x1 / P1.a - 1) η) + kt * M.L (fun η => disp S P1 s1 x 1 0 0 (2 * x1 / P1.a - 1) η * disp S P1 s1 y 1 0 0 (2 * x1 / P1.a - 1) η) + kt * M.L (fun η => disp S P1 s1 x 2 0 0 (2 * x1 / P1.a - 1) η * disp S P1 s1 y 2 0 0 (2 * x1 / P1.a - 1) η) + kr * M.L (fun η => disp S P1 s1 x 2 1 0 (2 * x1 / P1.a - 1) η * disp S P1 s1 y 2 1 0 (2 * x1 / P1.a - 1) η)) := by
  simp only [L_dispX hI hS, bilin_cross_pair, mul_pairSum, pairSum_add]
  unfold pairSum
  refine Finset.sum_congr rfl fun A _ => Finset.sum_congr rfl fun B _ => ?_
  simp only [blk, Gen.Conn.kSSxcte11_pat, Gen.Conn.kSSxcte11, Gen.Conn.kSSxcte11_00, Gen.Conn.kSSxcte11_11, Gen.Conn.kSSxcte11_22,
    List.map_cons, List.map_nil, List.sum_cons, List.sum_nil, Tab.get, Shape.D, Panel.xf, Panel.yf]
  field_simp
  ring

theorem SSxcte12_form [CharZero K] (hI : I.Exact S M) (hS : S.In M) (P1 P2 : Panel K) (hP1 : P1.a ≠ 0) (hbP1 : P1.b ≠ 0) (hP2 : P2.a ≠ 0) (hbP2 : P2.b ≠ 0)
    (kt kr x1 x2 : K) (hkt : kt ≠ 0) (s1 s2 : ℕ) (x y : ℕ → K) :
    Coo.bilin (crossBuild s1 s2 P1.m P1.n P2.m P2.n Gen.Conn.kSSxcte12_pat
        (Gen.Conn.kSSxcte12 S I P1 P2 kr kt x1 x2)) x y
      = -(P1.b / 2) * (kt * M.L (fun η => disp S P1 s1 x 0 0 0 (2 * x1 / P1.a - 1) η * disp S P2 s2 y 0 0 0 (2 * x2 / P2.a - 1) η) + kt * M.L (fun η => disp S P1 s1 x 1 0 0 (2 * x1 / P1.a - 1) η * disp S P2 s2 y 1 0 0 (2 * x2 / P2.a - 1) η) + kt * M.L (fun η => disp S P1 s1 x 2 0 0 (2 * x1 / P1.a - 1) η * disp S P2 s2 y 2 0 0 (2 * x2 / P2.a - 1) η) + kr * M.L (fun η => disp S P1 s1 x 2 1 0 (2 * x1 / P1.a - 1) η * disp S P2 s2 y 2 1 0 (2 * x2 / P2.a - 1) η)) := by
  simp only [L_dispX hI hS, bilin_cross_pair, mul_pairSum, pairSum_add]
  unfold pairSum
  refine Finset.sum_congr rfl fun A _ => Finset.sum_congr rfl fun B _ => ?_
  simp only [blk, Gen.Conn.kSSxcte12_pat, Gen.Conn.kSSxcte12, Gen.Conn.kSSxcte12_00, Gen.Conn.kSSxcte12_11, Gen.Conn.kSSxcte12_22,
    List.map_cons, List.map_nil, List.sum_cons, List.sum_nil, Tab.get, Shape.D, Panel.xf, Panel.yf]
  field_simp
  ring

theorem SSxcte22_form [CharZero K] (hI : I.Exact S M) (hS : S.In M) (P1 P2 : Panel K) (hP1 : P1.a ≠ 0) (hbP1 : P1.b ≠ 0) (hP2 : P2.a ≠ 0) (hbP2 : P2.b ≠ 0)
    (kt kr x2 : K) (hkt : kt ≠ 0) (s2 : ℕ) (x y : ℕ → K) :
    Coo.bilin (crossBuild s2 s2 P2.m P2.n P2.m P2.n Gen.Conn.kSSxcte22_pat
        (Gen.Conn.kSSxcte22 S I P1 P2 kr kt x2)) x y
      = (P1.b / 2) * (kt * M.L (fun η => disp S P2 s2 x 0 0 0 (2 * x2 / P2.a - 1) η * disp S P2 s2 y 0 0 0 (2 * x2 / P2.a - 1) η) + kt * M.L (fun η => disp S P2 s2 x 1 0 0 (2 * x2 / P2.a - 1) η * disp S P2 s2 y 1 0 0 (2 * x2 / P2.a - 1) η) + kt * M.L (fun η => disp S P2 s2 x 2 0 0 (2 * x2 / P2.a - 1) η * disp S P2 s2 y 2 0 0 (2 * x2 / P2.a - 1) η) + kr * M.L (fun η => disp S P2 s2 x 2 1 0 (2 * x2 / P2.a - 1) η * disp S P2 s2 y 2 1 0 (2 * x2 / P2.a - 1) η)) := by
  simp only [L_dispX hI hS, bilin_cross_pair, mul_pairSum, pairSum_add]
  unfold pairSum
  refine Finset.sum_congr rfl fun A _ => Finset.sum_congr rfl fun B _ => ?_
  simp only [blk, Gen.Conn.kSSxcte22_pat, Gen.Conn.kSSxcte22, Gen.Conn.kSSxcte22_00, Gen.Conn.kSSxcte22_11, Gen.Conn.kSSxcte22_22,
    List.map_cons, List.map_nil, List.sum_cons, List.sum_nil, Tab.get, Shape.D, Panel.xf, Panel.yf]
  field_simp
  ring

theorem SSxcte_energy [CharZero K] (hI : I.Exact S M) (hS : S.In M) (P1 P2 : Panel K)
    (hP1 : P1.a ≠ 0) (hbP1 : P1.b ≠ 0) (hP2 : P2.a ≠ 0) (hbP2 : P2.b ≠ 0)
    (kt kr x1 x2 : K) (hkt : kt ≠ 0) (s1 s2 : ℕ) (hs : s1 + 3 * (P1.m * P1.n) ≤ s2) (c : ℕ → K) :
    Coo.quad (Coo.finalizeSym (connSSxcte S I P1 P2 kt kr x1 x2 s1 s2)) c
      = P1.b / 2 * M.L (fun η =>
          kt * (disp S P1 s1 c 0 0 0 (2 * x1 / P1.a - 1) η - disp S P2 s2 c 0 0 0 (2 * x2 / P2.a - 1) η) ^ 2 +
          kt * (disp S P1 s1 c 1 0 0 (2 * x1 / P1.a - 1) η - disp S P2 s2 c 1 0 0 (2 * x2 / P2.a - 1) η) ^ 2 +
          kt * (disp S P1 s1 c 2 0 0 (2 * x1 / P1.a - 1) η - disp S P2 s2 c 2 0 0 (2 * x2 / P2.a - 1) η) ^ 2 +
          kr * (disp S P1 s1 c 2 1 0 (2 * x1 / P1.a - 1) η - disp S P2 s2 c 2 1 0 (2 * x2 / P2.a - 1) η) ^ 2) := by
  have hIs : I.Sym := sym_of_exact' hI
  rw [connSSxcte, Coo.finalizeSym_append_quad, Coo.finalizeSym_append_quad, fkCSSxcte11, fkCSSxcte12,
    fkCSSxcte22, Coo.quad_finalizeSym_pad, Coo.quad_finalizeSym_pad, Coo.quad_finalizeSym_pad]
  rw [quad_finalize_crossJL (by intro ab h; revert ab; decide) hs]
  unfold Coo.quad
  rw [finalize_symBuildJL_full (pat := Gen.Conn.kSSxcte11_pat) s1 P1.m P1.n pat3_ok (kSSxcte11_swap hIs S P1 kr kt x1 _ _) c c,
    finalize_symBuildJL_full (pat := Gen.Conn.kSSxcte22_pat) s2 P2.m P2.n pat3_ok (kSSxcte22_swap hIs S P1 P2 kr kt x2 _ _) c c]
  rw [SSxcte11_form hI hS P1 hP1 hbP1 kt kr x1 hkt, SSxcte12_form hI hS P1 P2 hP1 hbP1 hP2 hbP2 kt kr x1 x2 hkt,
    SSxcte22_form hI hS P1 P2 hP1 hbP1 hP2 hbP2 kt kr x2 hkt]
  have h := (M.L_list [
      (kt, fun η => disp S P1 s1 c 0 0 0 (2 * x1 / P1.a - 1) η * disp S P1 s1 c 0 0 0 (2 * x1 / P1.a - 1) η),
      (kt, fun η => disp S P2 s2 c 0 0 0 (2 * x2 / P2.a - 1) η * disp S P2 s2 c 0 0 0 (2 * x2 / P2.a - 1) η),
      (kt, fun η => disp S P1 s1 c 1 0 0 (2 * x1 / P1.a - 1) η * disp S P1 s1 c 1 0 0 (2 * x1 / P1.a - 1) η),
      (kt, fun η => disp S P2 s2 c 1 0 0 (2 * x2 / P2.a - 1) η * disp S P2 s2 c 1 0 0 (2 * x2 / P2.a - 1) η),
      (kt, fun η => disp S P1 s1 c 2 0 0 (2 * x1 / P1.a - 1) η * disp S P1 s1 c 2 0 0 (2 * x1 / P1.a - 1) η),
      (kt, fun η => disp S P2 s2 c 2 0 0 (2 * x2 / P2.a - 1) η * disp S P2 s2 c 2 0 0 (2 * x2 / P2.a - 1) η),
      (kr, fun η => disp S P1 s1 c 2 1 0 (2 * x1 / P1.a - 1) η * disp S P1 s1 c 2 1 0 (2 * x1 / P1.a - 1) η),
      (kr, fun η => disp S P2 s2 c 2 1 0 (2 * x2 / P2.a - 1) η * disp S P2 s2 c 2 1 0 (2 * x2 / P2.a - 1) η),
      (-2 * kt, fun η => disp S P1 s1 c 0 0 0 (2 * x1 / P1.a - 1) η * disp S P2 s2 c 0 0 0 (2 * x2 / P2.a - 1) η),
      (-2 * kt, fun η => disp S P1 s1 c 1 0 0 (2 * x1 / P1.a - 1) η * disp S P2 s2 c 1 0 0 (2 * x2 / P2.a - 1) η),
      (-2 * kt, fun η => disp S P1 s1 c 2 0 0 (2 * x1 / P1.a - 1) η * disp S P2 s2 c 2 0 0 (2 * x2 / P2.a - 1) η),
      (-2 * kr, fun η => disp S P1 s1 c 2 1 0 (2 * x1 / P1.a - 1) η * disp S P2 s2 c 2 1 0 (2 * x2 / P2.a - 1) η)] (by
    simp only [List.forall_mem_cons, List.not_mem_nil, false_imp_iff, implies_true, and_true]
    exact ⟨M.C.mul_mem (disp_memY hS ..) (disp_memY hS ..), M.C.mul_mem (disp_memY hS ..) (disp_memY hS ..), M.C.mul_mem (disp_memY hS ..) (disp_memY hS ..), M.C.mul_mem (disp_memY hS ..) (disp_memY hS ..), M.C.mul_mem (disp_memY hS ..) (disp_memY hS ..), M.C.mul_mem (disp_memY hS ..) (disp_memY hS ..), M.C.mul_mem (disp_memY hS ..) (disp_memY hS ..), M.C.mul_mem (disp_memY hS ..) (disp_memY hS ..), M.C.mul_mem (disp_memY hS ..) (disp_memY hS ..), M.C.mul_mem (disp_memY hS ..) (disp_memY hS ..), M.C.mul_mem (disp_memY hS ..) (disp_memY hS ..), M.C.mul_mem (disp_memY hS ..) (disp_memY hS ..)⟩)).2
  simp only [List.map_cons, List.map_nil, List.sum_cons, List.sum_nil] at h
  refine Eq.trans ?_ (congrArg (fun z => P1.b / 2 * z) (Eq.trans h.symm (congrArg M.L (funext fun η => ?_))))
  · ring
  · ring

theorem SSycte11_form [CharZero K] (hI : I.Exact S M) (hS : S.In M) (P1 : Panel K) (hP1 : P1.a ≠ 0) (hbP1 : P1.b ≠ 0)
    (kt kr y1 : K) (hkt : kt ≠ 0) (s1 : ℕ) (x y : ℕ → K) :
    Coo.bilin (crossBuild s1 s1 P1.m P1.n P1.m P1.n Gen.Conn.kSSycte11_pat
        (Gen.Conn.kSSycte11 S I P1 kr kt y1)) x y
      = (P1.a / 2) * (kt * M.L (fun ξ => disp S P1 s1 x 0 0 0 ξ (2 * y1 / P1.b - 1) * disp S P1 s1 y 0 0 0 ξ (2 * y1 / P1.b - 1)) + kt * M.L (fun ξ => disp S P1 s1 x 1 0 0 ξ (2 * y1 / P1.b - 1) * disp S P1 s1 y 1 0 0 ξ (2 * y1 / P1.b - 1)) + kt * M.L (fun ξ => disp S P1 s1 x 2 0 0 ξ (2 * y1 / P1.b - 1) * disp S P1 s1 y 2 0 0 ξ (2 * y1 / P1.b - 1)) + kr * M.L (fun ξ => disp S P1 s1 x 2 0 1 ξ (2 * y1 / P1.b - 1) * disp S P1 s1 y 2 0 1 ξ (2 * y1 / P1.b - 1))) := by
  simp only [L_dispY hI hS, bilin_cross_pair, mul_pairSum, pairSum_add]
  unfold pairSum
  refine Finset.sum_congr rfl fun A _ => Finset.sum_congr rfl fun B _ => ?_
  simp only [blk, Gen.Conn.kSSycte11_pat, Gen.Conn.kSSycte11, Gen.Conn.kSSycte11_00, Gen.Conn.kSSycte11_11, Gen.Conn.kSSycte11_22,
    List.map_cons, List.map_nil, List.sum_cons, List.sum_nil, Tab.get, Shape.D, Panel.xf, Panel.yf]
  field_simp
  ring

theorem SSycte12_form [CharZero K] (hI : I.Exact S M) (hS : S.In M) (P1 P2 : Panel K) (hP1 : P1.a ≠ 0) (hbP1 : P1.b ≠ 0) (hP2 : P2.a ≠ 0) (hbP2 : P2.b ≠ 0)
    (kt kr y1 y2 : K) (hkt : kt ≠ 0) (s1 s2 : ℕ) (x y : ℕ → K) :
    Coo.bilin (crossBuild s1 s2 P1.m P1.n P2.m P2.n Gen.Conn.kSSycte12_pat
        (Gen.Conn.kSSycte12 S I P1 P2 kr kt y1 y2)) x y
      = -(P1.a / 2) * (kt * M.L (fun ξ => disp S P1 s1 x 0 0 0 ξ (2 * y1 / P1.b - 1) * disp S P2 s2 y 0 0 0 ξ (2 * y2 / P2.b - 1)) + kt * M.L (fun ξ => disp S P1 s1 x 1 0 0 ξ (2 * y1 / P1.b - 1) * disp S P2 s2 y 1 0 0 ξ (2 * y2 / P2.b - 1)) + kt * M.L (fun ξ => disp S P1 s1 x 2 0 0 ξ (2 * y1 / P1.b - 1) * disp S P2 s2 y 2 0 0 ξ (2 * y2 / P2.b - 1)) + kr * M.L (fun ξ => disp S P1 s1 x 2 0 1 ξ (2 * y1 / P1.b - 1) * disp S P2 s2 y 2 0 1 ξ (2 * y2 / P2.b - 1))) := by
  simp only [L_dispY hI hS, bilin_cross_pair, mul_pairSum, pairSum_add]
  unfold pairSum
  refine Finset.sum_congr rfl fun A _ => Finset.sum_congr rfl fun B _ => ?_
  simp only [blk, Gen.Conn.kSSycte12_pat, Gen.Conn.kSSycte12, Gen.Conn.kSSycte12_00, Gen.Conn.kSSycte12_11, Gen.Conn.kSSycte12_22,
    List.map_cons, List.map_nil, List.sum_cons, List.sum_nil, Tab.get, Shape.D, Panel.xf, Panel.yf]
  field_simp
  ring

theorem SSycte22_form [CharZero K] (hI : I.Exact S M) (hS : S.In M) (P1 P2 : Panel K) (hP1 : P1.a ≠ 0) (hbP1 : P1.b ≠ 0) (hP2 : P2.a ≠ 0) (hbP2 : P2.b ≠ 0)
    (kt kr y2 : K) (hkt : kt ≠ 0) (s2 : ℕ) (x y : ℕ → K) :
    Coo.bilin (crossBuild s2 s2 P2.m P2.n P2.m P2.n Gen.Conn.kSSycte22_pat
        (Gen.Conn.kSSycte22 S I P1 P2 kr kt y2)) x y
      = (P1.a / 2) * (kt * M.L (fun ξ => disp S P2 s2 x 0 0 0 ξ (2 * y2 / P2.b - 1) * disp S P2 s2 y 0 0 0 ξ (2 * y2 / P2.b - 1)) + kt * M.L (fun ξ => disp S P2 s2 x 1 0 0 ξ (2 * y2 / P2.b - 1) * disp S P2 s2 y 1 0 0 ξ (2 * y2 / P2.b - 1)) + kt * M.L (fun ξ => disp S P2 s2 x 2 0 0 ξ (2 * y2 / P2.b - 1) * disp S P2 s2 y 2 0 0 ξ (2 * y2 / P2.b - 1)) + kr * M.L (fun ξ => disp S P2 s2 x 2 0 1 ξ (2 * y2 / P2.b - 1) * disp S P2 s2 y 2 0 1 ξ (2 * y2 / P2.b - 1))) := by
  simp only [L_dispY hI hS, bilin_cross_pair, mul_pairSum, pairSum_add]
  unfold pairSum
  refine Finset.sum_congr rfl fun A _ => Finset.sum_congr rfl fun B _ => ?_
  simp only [blk, Gen.Conn.kSSycte22_pat, Gen.Conn.kSSycte22, Gen.Conn.kSSycte22_00, Gen.Conn.kSSycte22_11, Gen.Conn.kSSycte22_22,
    List.map_cons, List.map_nil, List.sum_cons, List.sum_nil, Tab.get, Shape.D, Panel.xf, Panel.yf]
  field_simp
  ring

theorem SSycte_energy [CharZero K] (hI : I.Exact S M) (hS : S.In M) (P1 P2 : Panel K)
    (hP1 : P1.a ≠ 0) (hbP1 : P1.b ≠ 0) (hP2 : P2.a ≠ 0) (hbP2 : P2.b ≠ 0)
    (kt kr y1 y2 : K) (hkt : kt ≠ 0) (s1 s2 : ℕ) (hs : s1 + 3 * (P1.m * P1.n) ≤ s2) (c : ℕ → K) :
    Coo.quad (Coo.finalizeSym (connSSycte S I P1 P2 kt kr y1 y2 s1 s2)) c
      = P1.a / 2 * M.L (fun ξ =>
          kt * (disp S P1 s1 c 0 0 0 ξ (2 * y1 / P1.b - 1) - disp S P2 s2 c 0 0 0 ξ (2 * y2 / P2.b - 1)) ^ 2 +
          kt * (disp S P1 s1 c 1 0 0 ξ (2 * y1 / P1.b - 1) - disp S P2 s2 c 1 0 0 ξ (2 * y2 / P2.b - 1)) ^ 2 +
          kt * (disp S P1 s1 c 2 0 0 ξ (2 * y1 / P1.b - 1) - disp S P2 s2 c 2 0 0 ξ (2 * y2 / P2.b - 1)) ^ 2 +
          kr * (disp S P1 s1 c 2 0 1 ξ (2 * y1 / P1.b - 1) - disp S P2 s2 c 2 0 1 ξ (2 * y2 / P2.b - 1)) ^ 2) := by
  have hIs : I.Sym := sym_of_exact' hI
  rw [connSSycte, Coo.finalizeSym_append_quad, Coo.finalizeSym_append_quad, fkCSSycte11, fkCSSycte12,
    fkCSSycte22, Coo.quad_finalizeSym_pad, Coo.quad_finalizeSym_pad, Coo.quad_finalizeSym_pad]
  rw [quad_finalize_cross (by intro ab h; revert ab; decide) hs]
  unfold Coo.quad
  rw [finalize_symBuild_full (pat := Gen.Conn.kSSycte11_pat) s1 P1.m P1.n pat3_ok (kSSycte11_swap hIs S P1 kr kt y1 _ _) c c,
    finalize_symBuild_full (pat := Gen.Conn.kSSycte22_pat) s2 P2.m P2.n pat3_ok (kSSycte22_swap hIs S P1 P2 kr kt y2 _ _) c c]
  rw [SSycte11_form hI hS P1 hP1 hbP1 kt kr y1 hkt, SSycte12_form hI hS P1 P2 hP1 hbP1 hP2 hbP2 kt kr y1 y2 hkt,
    SSycte22_form hI hS P1 P2 hP1 hbP1 hP2 hbP2 kt kr y2 hkt]
  have h := (M.L_list [
      (kt, fun ξ => disp S P1 s1 c 0 0 0 ξ (2 * y1 / P1.b - 1) * disp S P1 s1 c 0 0 0 ξ (2 * y1 / P1.b - 1)),
      (kt, fun ξ => disp S P2 s2 c 0 0 0 ξ (2 * y2 / P2.b - 1) * disp S P2 s2 c 0 0 0 ξ (2 * y2 / P2.b - 1)),
      (kt, fun ξ => disp S P1 s1 c 1 0 0 ξ (2 * y1 / P1.b - 1) * disp S P1 s1 c 1 0 0 ξ (2 * y1 / P1.b - 1)),
      (kt, fun ξ => disp S P2 s2 c 1 0 0 ξ (2 * y2 / P2.b - 1) * disp S P2 s2 c 1 0 0 ξ (2 * y2 / P2.b - 1)),
      (kt, fun ξ => disp S P1 s1 c 2 0 0 ξ (2 * y1 / P1.b - 1) * disp S P1 s1 c 2 0 0 ξ (2 * y1 / P1.b - 1)),
      (kt, fun ξ => disp S P2 s2 c 2 0 0 ξ (2 * y2 / P2.b - 1) * disp S P2 s2 c 2 0 0 ξ (2 * y2 / P2.b - 1)),
      (kr, fun ξ => disp S P1 s1 c 2 0 1 ξ (2 * y1 / P1.b - 1) * disp S P1 s1 c 2 0 1 ξ (2 * y1 / P1.b - 1)),
      (kr, fun ξ => disp S P2 s2 c 2 0 1 ξ (2 * y2 / P2.b - 1) * disp S P2 s2 c 2 0 1 ξ (2 * y2 / P2.b - 1)),
      (-2 * kt, fun ξ => disp S P1 s1 c 0 0 0 ξ (2 * y1 / P1.b - 1) * disp S P2 s2 c 0 0 0 ξ (2 * y2 / P2.b - 1)),
      (-2 * kt, fun ξ => disp S P1 s1 c 1 0 0 ξ (2 * y1 / P1.b - 1) * disp S P2 s2 c 1 0 0 ξ (2 * y2 / P2.b - 1)),
      (-2 * kt, fun ξ => disp S P1 s1 c 2 0 0 ξ (2 * y1 / P1.b - 1) * disp S P2 s2 c 2 0 0 ξ (2 * y2 / P2.b - 1)),
      (-2 * kr, fun ξ => disp S P1 s1 c 2 0 1 ξ (2 * y1 / P1.b - 1) * disp S P2 s2 c 2 0 1 ξ (2 * y2 / P2.b - 1))] (by
    simp only [List.forall_mem_cons, List.not_mem_nil, false_imp_iff, implies_true, and_true]
    exact ⟨M.C.mul_mem (disp_memX hS ..) (disp_memX hS ..), M.C.mul_mem (disp_memX hS ..) (disp_memX hS ..), M.C.mul_mem (disp_memX hS ..) (disp_memX hS ..), M.C.mul_mem (disp_memX hS ..) (disp_memX hS ..), M.C.mul_mem (disp_memX hS ..) (disp_memX hS ..), M.C.mul_mem (disp_memX hS ..) (disp_memX hS ..), M.C.mul_mem (disp_memX hS ..) (disp_memX hS ..), M.C.mul_mem (disp_memX hS ..) (disp_memX hS ..), M.C.mul_mem (disp_memX hS ..) (disp_memX hS ..), M.C.mul_mem (disp_memX hS ..) (disp_memX hS ..), M.C.mul_mem (disp_memX hS ..) (disp_memX hS ..), M.C.mul_mem (disp_memX hS ..) (disp_memX hS ..)⟩)).2
  simp only [List.map_cons, List.map_nil, List.sum_cons, List.sum_nil] at h
  refine Eq.trans ?_ (congrArg (fun z => P1.a / 2 * z) (Eq.trans h.symm (congrArg M.L (funext fun ξ => ?_))))
  · ring
  · ring

theorem BFxcte11_form [CharZero K] (hI : I.Exact S M) (hS : S.In M) (P1 : Panel K) (hP1 : P1.a ≠ 0) (hbP1 : P1.b ≠ 0)
    (kt kr x1 : K) (hkt : kt ≠ 0) (s1 : ℕ) (x y : ℕ → K) :
    Coo.bilin (crossBuild s1 s1 P1.m P1.n P1.m P1.n Gen.Conn.kBFxcte11_pat
        (Gen.Conn.kBFxcte11 S I P1 kr kt x1)) x y
      = (P1.b / 2) * (kt * M.L (fun η => disp S P1 s1 x 0 0 0 (2 * x1 / P1.a - 1) η * disp S P1 s1 y 0 0 0 (2 * x1 / P1.a - 1) η) + kt * M.L (fun η => disp S P1 s1 x 1 0 0 (2 * x1 / P1.a - 1) η * disp S P1 s1 y 1 0 0 (2 * x1 / P1.a - 1) η) + kt * M.L (fun η => disp S P1 s1 x 2 0 0 (2 * x1 / P1.a - 1) η * disp S P1 s1 y 2 0 0 (2 * x1 / P1.a - 1) η) + kr * M.L (fun η => disp S P1 s1 x 2 1 0 (2 * x1 / P1.a - 1) η * disp S P1 s1 y 2 1 0 (2 * x1 / P1.a - 1) η)) := by
  simp only [L_dispX hI hS, bilin_cross_pair, mul_pairSum, pairSum_add]
  unfold pairSum
  refine Finset.sum_congr rfl fun A _ => Finset.sum_congr rfl fun B _ => ?_
  simp only [blk, Gen.Conn.kBFxcte11_pat, Gen.Conn.kBFxcte11, Gen.Conn.kBFxcte11_00, Gen.Conn.kBFxcte11_11, Gen.Conn.kBFxcte11_22,
    List.map_cons, List.map_nil, List.sum_cons, List.sum_nil, Tab.get, Shape.D, Panel.xf, Panel.yf]
  field_simp
  ring

theorem BFxcte12_form [CharZero K] (hI : I.Exact S M) (hS : S.In M) (P1 P2 : Panel K) (hP1 : P1.a ≠ 0) (hbP1 : P1.b ≠ 0) (hP2 : P2.a ≠ 0) (hbP2 : P2.b ≠ 0)
    (kt kr x1 x2 : K) (hkt : kt ≠ 0) (s1 s2 : ℕ) (x y : ℕ → K) :
    Coo.bilin (crossBuild s1 s2 P1.m P1.n P2.m P2.n Gen.Conn.kBFxcte12_pat
        (Gen.Conn.kBFxcte12 S I P1 P2 kr kt x1 x2)) x y
      = -(P1.b / 2) * (kt * M.L (fun η => disp S P1 s1 x 0 0 0 (2 * x1 / P1.a - 1) η * disp S P2 s2 y 2 0 0 (2 * x2 / P2.a - 1) η) + kt * M.L (fun η => disp S P1 s1 x 1 0 0 (2 * x1 / P1.a - 1) η * disp S P2 s2 y 1 0 0 (2 * x2 / P2.a - 1) η) + -kt * M.L (fun η => disp S P1 s1 x 2 0 0 (2 * x1 / P1.a - 1) η * disp S P2 s2 y 0 0 0 (2 * x2 / P2.a - 1) η) + kr * M.L (fun η => disp S P1 s1 x 2 1 0 (2 * x1 / P1.a - 1) η * disp S P2 s2 y 2 1 0 (2 * x2 / P2.a - 1) η)) := by
  simp only [L_dispX hI hS, bilin_cross_pair, mul_pairSum, pairSum_add]
  unfold pairSum
  refine Finset.sum_congr rfl fun A _ => Finset.sum_congr rfl fun B _ => ?_
  simp only [blk, Gen.Conn.kBFxcte12_pat, Gen.Conn.kBFxcte12, Gen.Conn.kBFxcte12_02, Gen.Conn.kBFxcte12_11, Gen.Conn.kBFxcte12_20, Gen.Conn.kBFxcte12_22,
    List.map_cons, List.map_nil, List.sum_cons, List.sum_nil, Tab.get, Shape.D, Panel.xf, Panel.yf]
  field_simp
  ring

theorem BFxcte22_form [CharZero K] (hI : I.Exact S M) (hS : S.In M) (P1 P2 : Panel K) (hP1 : P1.a ≠ 0) (hbP1 : P1.b ≠ 0) (hP2 : P2.a ≠ 0) (hbP2 : P2.b ≠ 0)
    (kt kr x2 : K) (hkt : kt ≠ 0) (s2 : ℕ) (x y : ℕ → K) :
    Coo.bilin (crossBuild s2 s2 P2.m P2.n P2.m P2.n Gen.Conn.kBFxcte22_pat
        (Gen.Conn.kBFxcte22 S I P1 P2 kr kt x2)) x y
      = (P1.b / 2) * (kt * M.L (fun η => disp S P2 s2 x 0 0 0 (2 * x2 / P2.a - 1) η * disp S P2 s2 y 0 0 0 (2 * x2 / P2.a - 1) η) + kt * M.L (fun η => disp S P2 s2 x 1 0 0 (2 * x2 / P2.a - 1) η * disp S P2 s2 y 1 0 0 (2 * x2 / P2.a - 1) η) + kt * M.L (fun η => disp S P2 s2 x 2 0 0 (2 * x2 / P2.a - 1) η * disp S P2 s2 y 2 0 0 (2 * x2 / P2.a - 1) η) + kr * M.L (fun η => disp S P2 s2 x 2 1 0 (2 * x2 / P2.a - 1) η * disp S P2 s2 y 2 1 0 (2 * x2 / P2.a - 1) η)) := by
  simp only [L_dispX hI hS, bilin_cross_pair, mul_pairSum, pairSum_add]
  unfold pairSum
  refine Finset.sum_congr rfl fun A _ => Finset.sum_congr rfl fun B _ => ?_
  simp only [blk, Gen.Conn.kBFxcte22_pat, Gen.Conn.kBFxcte22, Gen.Conn.kBFxcte22_00, Gen.Conn.kBFxcte22_11, Gen.Conn.kBFxcte22_22,
    List.map_cons, List.map_nil, List.sum_cons, List.sum_nil, Tab.get, Shape.D, Panel.xf, Panel.yf]
  field_simp
  ring

theorem BFxcte_energy [CharZero K] (hI : I.Exact S M) (hS : S.In M) (P1 P2 : Panel K)
    (hP1 : P1.a ≠ 0) (hbP1 : P1.b ≠ 0) (hP2 : P2.a ≠ 0) (hbP2 : P2.b ≠ 0)
    (kt kr x1 x2 : K) (hkt : kt ≠ 0) (s1 s2 : ℕ) (hs : s1 + 3 * (P1.m * P1.n) ≤ s2) (c : ℕ → K) :
    Coo.quad (Coo.finalizeSym (connBFxcte S I P1 P2 kt kr x1 x2 s1 s2)) c
      = P1.b / 2 * M.L (fun η =>
          kt * (disp S P1 s1 c 0 0 0 (2 * x1 / P1.a - 1) η - disp S P2 s2 c 2 0 0 (2 * x2 / P2.a - 1) η) ^ 2 +
          kt * (disp S P1 s1 c 1 0 0 (2 * x1 / P1.a - 1) η - disp S P2 s2 c 1 0 0 (2 * x2 / P2.a - 1) η) ^ 2 +
          kt * (disp S P1 s1 c 2 0 0 (2 * x1 / P1.a - 1) η + disp S P2 s2 c 0 0 0 (2 * x2 / P2.a - 1) η) ^ 2 +
          kr * (disp S P1 s1 c 2 1 0 (2 * x1 / P1.a - 1) η - disp S P2 s2 c 2 1 0 (2 * x2 / P2.a - 1) η) ^ 2) := by
  have hIs : I.Sym := sym_of_exact' hI
  rw [connBFxcte, Coo.finalizeSym_append_quad, Coo.finalizeSym_append_quad, fkCBFxcte11, fkCBFxcte12,
    fkCBFxcte22, Coo.quad_finalizeSym_pad, Coo.quad_finalizeSym_pad, Coo.quad_finalizeSym_pad]
  rw [quad_finalize_crossJL (by intro ab h; revert ab; decide) hs]
  unfold Coo.quad
  rw [finalize_symBuildJL_full (pat := Gen.Conn.kBFxcte11_pat) s1 P1.m P1.n pat3_ok (kBFxcte11_swap hIs S P1 kr kt x1 _ _) c c,
    finalize_symBuildJL_full (pat := Gen.Conn.kBFxcte22_pat) s2 P2.m P2.n pat3_ok (kBFxcte22_swap hIs S P1 P2 kr kt x2 _ _) c c]
  rw [BFxcte11_form hI hS P1 hP1 hbP1 kt kr x1 hkt, BFxcte12_form hI hS P1 P2 hP1 hbP1 hP2 hbP2 kt kr x1 x2 hkt,
    BFxcte22_form hI hS P1 P2 hP1 hbP1 hP2 hbP2 kt kr x2 hkt]
  have h := (M.L_list [
      (kt, fun η => disp S P1 s1 c 0 0 0 (2 * x1 / P1.a - 1) η * disp S P1 s1 c 0 0 0 (2 * x1 / P1.a - 1) η),
      (kt, fun η => disp S P2 s2 c 0 0 0 (2 * x2 / P2.a - 1) η * disp S P2 s2 c 0 0 0 (2 * x2 / P2.a - 1) η),
      (kt, fun η => disp S P1 s1 c 1 0 0 (2 * x1 / P1.a - 1) η * disp S P1 s1 c 1 0 0 (2 * x1 / P1.a - 1) η),
      (kt, fun η => disp S P2 s2 c 1 0 0 (2 * x2 / P2.a - 1) η * disp S P2 s2 c 1 0 0 (2 * x2 / P2.a - 1) η),
      (kt, fun η => disp S P1 s1 c 2 0 0 (2 * x1 / P1.a - 1) η * disp S P1 s1 c 2 0 0 (2 * x1 / P1.a - 1) η),
      (kt, fun η => disp S P2 s2 c 2 0 0 (2 * x2 / P2.a - 1) η * disp S P2 s2 c 2 0 0 (2 * x2 / P2.a - 1) η),
      (kr, fun η => disp S P1 s1 c 2 1 0 (2 * x1 / P1.a - 1) η * disp S P1 s1 c 2 1 0 (2 * x1 / P1.a - 1) η),
      (kr, fun η => disp S P2 s2 c 2 1 0 (2 * x2 / P2.a - 1) η * disp S P2 s2 c 2 1 0 (2 * x2 / P2.a - 1) η),
      (-2 * kt, fun η => disp S P1 s1 c 0 0 0 (2 * x1 / P1.a - 1) η * disp S P2 s2 c 2 0 0 (2 * x2 / P2.a - 1) η),
      (-2 * kt, fun η => disp S P1 s1 c 1 0 0 (2 * x1 / P1.a - 1) η * disp S P2 s2 c 1 0 0 (2 * x2 / P2.a - 1) η),
      (2 * kt, fun η => disp S P1 s1 c 2 0 0 (2 * x1 / P1.a - 1) η * disp S P2 s2 c 0 0 0 (2 * x2 / P2.a - 1) η),
      (-2 * kr, fun η => disp S P1 s1 c 2 1 0 (2 * x1 / P1.a - 1) η * disp S P2 s2 c 2 1 0 (2 * x2 / P2.a - 1) η)] (by
    simp only [List.forall_mem_cons, List.not_mem_nil, false_imp_iff, implies_true, and_true]
    exact ⟨M.C.mul_mem (disp_memY hS ..) (disp_memY hS ..), M.C.mul_mem (disp_memY hS ..) (disp_memY hS ..), M.C.mul_mem (disp_memY hS ..) (disp_memY hS ..), M.C.mul_mem (disp_memY hS ..) (disp_memY hS ..), M.C.mul_mem (disp_memY hS ..) (disp_memY hS ..), M.C.mul_mem (disp_memY hS ..) (disp_memY hS ..), M.C.mul_mem (disp_memY hS ..) (disp_memY hS ..), M.C.mul_mem (disp_memY hS ..) (disp_memY hS ..), M.C.mul_mem (disp_memY hS ..) (disp_memY hS ..), M.C.mul_mem (disp_memY hS ..) (disp_memY hS ..), M.C.mul_mem (disp_memY hS ..) (disp_memY hS ..), M.C.mul_mem (disp_memY hS ..) (disp_memY hS ..)⟩)).2
  simp only [List.map_cons, List.map_nil, List.sum_cons, List.sum_nil] at h
  refine Eq.trans ?_ (congrArg (fun z => P1.b / 2 * z) (Eq.trans h.symm (congrArg M.L (funext fun η => ?_))))
  · ring
  · ring

theorem BFycte11_form [CharZero K] (hI : I.Exact S M) (hS : S.In M) (P1 : Panel K) (hP1 : P1.a ≠ 0) (hbP1 : P1.b ≠ 0)
    (kt kr y1 : K) (hkt : kt ≠ 0) (s1 : ℕ) (x y : ℕ → K) :
    Coo.bilin (crossBuild s1 s1 P1.m P1.n P1.m P1.n Gen.Conn.kBFycte11_pat
        (Gen.Conn.kBFycte11 S I P1 kr kt y1)) x y
      = (P1.a / 2) * (kt * M.L (fun ξ => disp S P1 s1 x 0 0 0 ξ (2 * y1 / P1.b - 1) * disp S P1 s1 y 0 0 0 ξ (2 * y1 / P1.b - 1)) + kt * M.L (fun ξ => disp S P1 s1 x 1 0 0 ξ (2 * y1 / P1.b - 1) * disp S P1 s1 y 1 0 0 ξ (2 * y1 / P1.b - 1)) + kt * M.L (fun ξ => disp S P1 s1 x 2 0 0 ξ (2 * y1 / P1.b - 1) * disp S P1 s1 y 2 0 0 ξ (2 * y1 / P1.b - 1)) + kr * M.L (fun ξ => disp S P1 s1 x 2 0 1 ξ (2 * y1 / P1.b - 1) * disp S P1 s1 y 2 0 1 ξ (2 * y1 / P1.b - 1))) := by
  simp only [L_dispY hI hS, bilin_cross_pair, mul_pairSum, pairSum_add]
  unfold pairSum
  refine Finset.sum_congr rfl fun A _ => Finset.sum_congr rfl fun B _ => ?_
  simp only [blk, Gen.Conn.kBFycte11_pat, Gen.Conn.kBFycte11, Gen.Conn.kBFycte11_00, Gen.Conn.kBFycte11_11, Gen.Conn.kBFycte11_22,
    List.map_cons, List.map_nil, List.sum_cons, List.sum_nil, Tab.get, Shape.D, Panel.xf, Panel.yf]
  field_simp
  ring

theorem BFycte12_form [CharZero K] (hI : I.Exact S M) (hS : S.In M) (P1 P2 : Panel K) (hP1 : P1.a ≠ 0) (hbP1 : P1.b ≠ 0) (hP2 : P2.a ≠ 0) (hbP2 : P2.b ≠ 0)
    (kt kr y1 y2 : K) (hkt : kt ≠ 0) (s1 s2 : ℕ) (x y : ℕ → K) :
    Coo.bilin (crossBuild s1 s2 P1.m P1.n P2.m P2.n Gen.Conn.kBFycte12_pat
        (Gen.Conn.kBFycte12 S I P1 P2 kr kt y1 y2)) x y
      = -(P1.a / 2) * (kt * M.L (fun ξ => disp S P1 s1 x 0 0 0 ξ (2 * y1 / P1.b - 1) * disp S P2 s2 y 0 0 0 ξ (2 * y2 / P2.b - 1)) + kt * M.L (fun ξ => disp S P1 s1 x 1 0 0 ξ (2 * y1 / P1.b - 1) * disp S P2 s2 y 2 0 0 ξ (2 * y2 / P2.b - 1)) + -kt * M.L (fun ξ => disp S P1 s1 x 2 0 0 ξ (2 * y1 / P1.b - 1) * disp S P2 s2 y 1 0 0 ξ (2 * y2 / P2.b - 1)) + kr * M.L (fun ξ => disp S P1 s1 x 2 0 1 ξ (2 * y1 / P1.b - 1) * disp S P2 s2 y 2 0 1 ξ (2 * y2 / P2.b - 1))) := by
  simp only [L_dispY hI hS, bilin_cross_pair, mul_pairSum, pairSum_add]
  unfold pairSum
  refine Finset.sum_congr rfl fun A _ => Finset.sum_congr rfl fun B _ => ?_
  simp only [blk, Gen.Conn.kBFycte12_pat, Gen.Conn.kBFycte12, Gen.Conn.kBFycte12_00, Gen.Conn.kBFycte12_12, Gen.Conn.kBFycte12_21, Gen.Conn.kBFycte12_22,
    List.map_cons, List.map_nil, List.sum_cons, List.sum_nil, Tab.get, Shape.D, Panel.xf, Panel.yf]
  field_simp
  ring

theorem BFycte22_form [CharZero K] (hI : I.Exact S M) (hS : S.In M) (P1 P2 : Panel K) (hP1 : P1.a ≠ 0) (hbP1 : P1.b ≠ 0) (hP2 : P2.a ≠ 0) (hbP2 : P2.b ≠ 0)
    (kt kr y2 : K) (hkt : kt ≠ 0) (s2 : ℕ) (x y : ℕ → K) :
    Coo.bilin (crossBuild s2 s2 P2.m P2.n P2.m P2.n Gen.Conn.kBFycte22_pat
        (Gen.Conn.kBFycte22 S I P1 P2 kr kt y2)) x y
      = (P1.a / 2) * (kt * M.L (fun ξ => disp S P2 s2 x 0 0 0 ξ (2 * y2 / P2.b - 1) * disp S P2 s2 y 0 0 0 ξ (2 * y2 / P2.b - 1)) + kt * M.L (fun ξ => disp S P2 s2 x 1 0 0 ξ (2 * y2 / P2.b - 1) * disp S P2 s2 y 1 0 0 ξ (2 * y2 / P2.b - 1)) + kt * M.L (fun ξ => disp S P2 s2 x 2 0 0 ξ (2 * y2 / P2.b - 1) * disp S P2 s2 y 2 0 0 ξ (2 * y2 / P2.b - 1)) + kr * M.L (fun ξ => disp S P2 s2 x 2 0 1 ξ (2 * y2 / P2.b - 1) * disp S P2 s2 y 2 0 1 ξ (2 * y2 / P2.b - 1))) := by
  simp only [L_dispY hI hS, bilin_cross_pair, mul_pairSum, pairSum_add]
  unfold pairSum
  refine Finset.sum_congr rfl fun A _ => Finset.sum_congr rfl fun B _ => ?_
  simp only [blk, Gen.Conn.kBFycte22_pat, Gen.Conn.kBFycte22, Gen.Conn.kBFycte22_00, Gen.Conn.kBFycte22_11, Gen.Conn.kBFycte22_22,
    List.map_cons, List.map_nil, List.sum_cons, List.sum_nil, Tab.get, Shape.D, Panel.xf, Panel.yf]
  field_simp
  ring

theorem BFycte_energy [CharZero K] (hI : I.Exact S M) (hS : S.In M) (P1 P2 : Panel K)
    (hP1 : P1.a ≠ 0) (hbP1 : P1.b ≠ 0) (hP2 : P2.a ≠ 0) (hbP2 : P2.b ≠ 0)
    (kt kr y1 y2 : K) (hkt : kt ≠ 0) (s1 s2 : ℕ) (hs : s1 + 3 * (P1.m * P1.n) ≤ s2) (c : ℕ → K) :
    Coo.quad (Coo.finalizeSym (connBFycte S I P1 P2 kt kr y1 y2 s1 s2)) c
      = P1.a / 2 * M.L (fun ξ =>
          kt * (disp S P1 s1 c 0 0 0 ξ (2 * y1 / P1.b - 1) - disp S P2 s2 c 0 0 0 ξ (2 * y2 / P2.b - 1)) ^ 2 +
          kt * (disp S P1 s1 c 1 0 0 ξ (2 * y1 / P1.b - 1) - disp S P2 s2 c 2 0 0 ξ (2 * y2 / P2.b - 1)) ^ 2 +
          kt * (disp S P1 s1 c 2 0 0 ξ (2 * y1 / P1.b - 1) + disp S P2 s2 c 1 0 0 ξ (2 * y2 / P2.b - 1)) ^ 2 +
          kr * (disp S P1 s1 c 2 0 1 ξ (2 * y1 / P1.b - 1) - disp S P2 s2 c 2 0 1 ξ (2 * y2 / P2.b - 1)) ^ 2) := by
  have hIs : I.Sym := sym_of_exact' hI
  rw [connBFycte, Coo.finalizeSym_append_quad, Coo.finalizeSym_append_quad, fkCBFycte11, fkCBFycte12,
    fkCBFycte22, Coo.quad_finalizeSym_pad, Coo.quad_finalizeSym_pad, Coo.quad_finalizeSym_pad]
  rw [quad_finalize_cross (by intro ab h; revert ab; decide) hs]
  unfold Coo.quad
  rw [finalize_symBuild_full (pat := Gen.Conn.kBFycte11_pat) s1 P1.m P1.n pat3_ok (kBFycte11_swap hIs S P1 kr kt y1 _ _) c c,
    finalize_symBuild_full (pat := Gen.Conn.kBFycte22_pat) s2 P2.m P2.n pat3_ok (kBFycte22_swap hIs S P1 P2 kr kt y2 _ _) c c]
  rw [BFycte11_form hI hS P1 hP1 hbP1 kt kr y1 hkt, BFycte12_form hI hS P1 P2 hP1 hbP1 hP2 hbP2 kt kr y1 y2 hkt,
    BFycte22_form hI hS P1 P2 hP1 hbP1 hP2 hbP2 kt kr y2 hkt]
  have h := (M.L_list [
      (kt, fun ξ => disp S P1 s1 c 0 0 0 ξ (2 * y1 / P1.b - 1) * disp S P1 s1 c 0 0 0 ξ (2 * y1 / P1.b - 1)),
      (kt, fun ξ => disp S P2 s2 c 0 0 0 ξ (2 * y2 / P2.b - 1) * disp S P2 s2 c 0 0 0 ξ (2 * y2 / P2.b - 1)),
      (kt, fun ξ => disp S P1 s1 c 1 0 0 ξ (2 * y1 / P1.b - 1) * disp S P1 s1 c 1 0 0 ξ (2 * y1 / P1.b - 1)),
      (kt, fun ξ => disp S P2 s2 c 1 0 0 ξ (2 * y2 / P2.b - 1) * disp S P2 s2 c 1 0 0 ξ (2 * y2 / P2.b - 1)),
      (kt, fun ξ => disp S P1 s1 c 2 0 0 ξ (2 * y1 / P1.b - 1) * disp S P1 s1 c 2 0 0 ξ (2 * y1 / P1.b - 1)),
      (kt, fun ξ => disp S P2 s2 c 2 0 0 ξ (2 * y2 / P2.b - 1) * disp S P2 s2 c 2 0 0 ξ (2 * y2 / P2.b - 1)),
      (kr, fun ξ => disp S P1 s1 c 2 0 1 ξ (2 * y1 / P1.b - 1) * disp S P1 s1 c 2 0 1 ξ (2 * y1 / P1.b - 1)),
      (kr, fun ξ => disp S P2 s2 c 2 0 1 ξ (2 * y2 / P2.b - 1) * disp S P2 s2 c 2 0 1 ξ (2 * y2 / P2.b - 1)),
      (-2 * kt, fun ξ => disp S P1 s1 c 0 0 0 ξ (2 * y1 / P1.b - 1) * disp S P2 s2 c 0 0 0 ξ (2 * y2 / P2.b - 1)),
      (-2 * kt, fun ξ => disp S P1 s1 c 1 0 0 ξ (2 * y1 / P1.b - 1) * disp S P2 s2 c 2 0 0 ξ (2 * y2 / P2.b - 1)),
      (2 * kt, fun ξ => disp S P1 s1 c 2 0 0 ξ (2 * y1 / P1.b - 1) * disp S P2 s2 c 1 0 0 ξ (2 * y2 / P2.b - 1)),
      (-2 * kr, fun ξ => disp S P1 s1 c 2 0 1 ξ (2 * y1 / P1.b - 1) * disp S P2 s2 c 2 0 1 ξ (2 * y2 / P2.b - 1))] (by
    simp only [List.forall_mem_cons, List.not_mem_nil, false_imp_iff, implies_true, and_true]
    exact ⟨M.C.mul_mem (disp_memX hS ..) (disp_memX hS ..), M.C.mul_mem (disp_memX hS ..) (disp_memX hS ..), M.C.mul_mem (disp_memX hS ..) (disp_memX hS ..), M.C.mul_mem (disp_memX hS ..) (disp_memX hS ..), M.C.mul_mem (disp_memX hS ..) (disp_memX hS ..), M.C.mul_mem (disp_memX hS ..) (disp_memX hS ..), M.C.mul_mem (disp_memX hS ..) (disp_memX hS ..), M.C.mul_mem (disp_memX hS ..) (disp_memX hS ..), M.C.mul_mem (disp_memX hS ..) (disp_memX hS ..), M.C.mul_mem (disp_memX hS ..) (disp_memX hS ..), M.C.mul_mem (disp_memX hS ..) (disp_memX hS ..), M.C.mul_mem (disp_memX hS ..) (disp_memX hS ..)⟩)).2
  simp only [List.map_cons, List.map_nil, List.sum_cons, List.sum_nil] at h
  refine Eq.trans ?_ (congrArg (fun z => P1.a / 2 * z) (Eq.trans h.symm (congrArg M.L (funext fun ξ => ?_))))
  · ring
  · ring

theorem SB11_form [CharZero K] (hI : I.Exact S M) (hS : S.In M) (P1 : Panel K) (hP1 : P1.a ≠ 0) (hbP1 : P1.b ≠ 0)
    (d kt : K) (s1 : ℕ) (x y : ℕ → K) :
    Coo.bilin (crossBuild s1 s1 P1.m P1.n P1.m P1.n Gen.Conn.kSB11_pat
        (Gen.Conn.kSB11 I P1 d kt)) x y
      = (P1.a * P1.b / 4 * kt) * (1 * M.L (fun ξ => M.L fun η => disp S P1 s1 x 0 0 0 ξ η * disp S P1 s1 y 0 0 0 ξ η) + d * M.L (fun ξ => M.L fun η => disp S P1 s1 x 0 0 0 ξ η * disp S P1 s1 y 2 1 0 ξ η) + d * M.L (fun ξ => M.L fun η => disp S P1 s1 x 2 1 0 ξ η * disp S P1 s1 y 0 0 0 ξ η) + d ^ 2 * M.L (fun ξ => M.L fun η => disp S P1 s1 x 2 1 0 ξ η * disp S P1 s1 y 2 1 0 ξ η) + 1 * M.L (fun ξ => M.L fun η => disp S P1 s1 x 1 0 0 ξ η * disp S P1 s1 y 1 0 0 ξ η) + d * M.L (fun ξ => M.L fun η => disp S P1 s1 x 1 0 0 ξ η * disp S P1 s1 y 2 0 1 ξ η) + d * M.L (fun ξ => M.L fun η => disp S P1 s1 x 2 0 1 ξ η * disp S P1 s1 y 1 0 0 ξ η) + d ^ 2 * M.L (fun ξ => M.L fun η => disp S P1 s1 x 2 0 1 ξ η * disp S P1 s1 y 2 0 1 ξ η) + 1 * M.L (fun ξ => M.L fun η => disp S P1 s1 x 2 0 0 ξ η * disp S P1 s1 y 2 0 0 ξ η)) := by
  simp only [L2_disp hI hS, bilin_cross_pair, mul_pairSum, pairSum_add]
  unfold pairSum
  refine Finset.sum_congr rfl fun A _ => Finset.sum_congr rfl fun B _ => ?_
  simp only [blk, Gen.Conn.kSB11_pat, Gen.Conn.kSB11, Gen.Conn.kSB11_00, Gen.Conn.kSB11_02, Gen.Conn.kSB11_11, Gen.Conn.kSB11_12, Gen.Conn.kSB11_20, Gen.Conn.kSB11_21, Gen.Conn.kSB11_22,
    List.map_cons, List.map_nil, List.sum_cons, List.sum_nil, Tab.get, Panel.xf, Panel.yf]
  field_simp
  ring

theorem SB12_form [CharZero K] (hI : I.Exact S M) (hS : S.In M) (P1 P2 : Panel K) (hP1 : P1.a ≠ 0) (hbP1 : P1.b ≠ 0) (hP2 : P2.a ≠ 0) (hbP2 : P2.b ≠ 0)
    (d kt : K) (s1 s2 : ℕ) (x y : ℕ → K) :
    Coo.bilin (crossBuild s1 s2 P1.m P1.n P2.m P2.n Gen.Conn.kSB12_pat
        (Gen.Conn.kSB12 I P1 P2 d kt)) x y
      = -(P1.a * P1.b / 4 * kt) * (1 * M.L (fun ξ => M.L fun η => disp S P1 s1 x 0 0 0 ξ η * disp S P2 s2 y 0 0 0 ξ η) + d * M.L (fun ξ => M.L fun η => disp S P1 s1 x 2 1 0 ξ η * disp S P2 s2 y 0 0 0 ξ η) + 1 * M.L (fun ξ => M.L fun η => disp S P1 s1 x 1 0 0 ξ η * disp S P2 s2 y 1 0 0 ξ η) + d * M.L (fun ξ => M.L fun η => disp S P1 s1 x 2 0 1 ξ η * disp S P2 s2 y 1 0 0 ξ η) + 1 * M.L (fun ξ => M.L fun η => disp S P1 s1 x 2 0 0 ξ η * disp S P2 s2 y 2 0 0 ξ η)) := by
  simp only [L2_disp hI hS, bilin_cross_pair, mul_pairSum, pairSum_add]
  unfold pairSum
  refine Finset.sum_congr rfl fun A _ => Finset.sum_congr rfl fun B _ => ?_
  simp only [blk, Gen.Conn.kSB12_pat, Gen.Conn.kSB12, Gen.Conn.kSB12_00, Gen.Conn.kSB12_11, Gen.Conn.kSB12_20, Gen.Conn.kSB12_21, Gen.Conn.kSB12_22,
    List.map_cons, List.map_nil, List.sum_cons, List.sum_nil, Tab.get, Panel.xf, Panel.yf]
  field_simp
  ring

theorem SB22_form [CharZero K] (hI : I.Exact S M) (hS : S.In M) (P1 P2 : Panel K) (hP1 : P1.a ≠ 0) (hbP1 : P1.b ≠ 0) (hP2 : P2.a ≠ 0) (hbP2 : P2.b ≠ 0)
    (kt : K) (s2 : ℕ) (x y : ℕ → K) :
    Coo.bilin (crossBuild s2 s2 P2.m P2.n P2.m P2.n Gen.Conn.kSB22_pat
        (Gen.Conn.kSB22 I P1 P2 kt)) x y
      = (P1.a * P1.b / 4 * kt) * (1 * M.L (fun ξ => M.L fun η => disp S P2 s2 x 0 0 0 ξ η * disp S P2 s2 y 0 0 0 ξ η) + 1 * M.L (fun ξ => M.L fun η => disp S P2 s2 x 1 0 0 ξ η * disp S P2 s2 y 1 0 0 ξ η) + 1 * M.L (fun ξ => M.L fun η => disp S P2 s2 x 2 0 0 ξ η * disp S P2 s2 y 2 0 0 ξ η)) := by
  simp only [L2_disp hI hS, bilin_cross_pair, mul_pairSum, pairSum_add]
  unfold pairSum
  refine Finset.sum_congr rfl fun A _ => Finset.sum_congr rfl fun B _ => ?_
  simp only [blk, Gen.Conn.kSB22_pat, Gen.Conn.kSB22, Gen.Conn.kSB22_00, Gen.Conn.kSB22_11, Gen.Conn.kSB22_22,
    List.map_cons, List.map_nil, List.sum_cons, List.sum_nil, Tab.get, Panel.xf, Panel.yf]
  field_simp
  ring

theorem SB_energy [CharZero K] (hI : I.Exact S M) (hS : S.In M) (P1 P2 : Panel K)
    (hP1 : P1.a ≠ 0) (hbP1 : P1.b ≠ 0) (hP2 : P2.a ≠ 0) (hbP2 : P2.b ≠ 0)
    (kt d : K) (s1 s2 : ℕ) (hs : s1 + 3 * (P1.m * P1.n) ≤ s2) (c : ℕ → K) :
    Coo.quad (Coo.finalizeSym (connSB I P1 P2 kt d s1 s2)) c
      = P1.a * P1.b / 4 * kt * M.L (fun ξ => M.L fun η =>
          (disp S P1 s1 c 0 0 0 ξ η + d * disp S P1 s1 c 2 1 0 ξ η - disp S P2 s2 c 0 0 0 ξ η) ^ 2 +
          (disp S P1 s1 c 1 0 0 ξ η + d * disp S P1 s1 c 2 0 1 ξ η - disp S P2 s2 c 1 0 0 ξ η) ^ 2 +
          (disp S P1 s1 c 2 0 0 ξ η - disp S P2 s2 c 2 0 0 ξ η) ^ 2) := by
  have hIs : I.Sym := sym_of_exact' hI
  rw [connSB, Coo.finalizeSym_append_quad, Coo.finalizeSym_append_quad, fkCSB11, fkCSB12,
    fkCSB22, Coo.quad_finalizeSym_pad, Coo.quad_finalizeSym_pad, Coo.quad_finalizeSym_pad]
  rw [quad_finalize_cross (by intro ab h; revert ab; decide) hs]
  unfold Coo.quad
  rw [finalize_symBuild_full (pat := Gen.Conn.kSB11_pat) s1 P1.m P1.n pat7_ok (kSB11_swap hIs P1 d kt _ _) c c,
    finalize_symBuild_full (pat := Gen.Conn.kSB22_pat) s2 P2.m P2.n pat3_ok (kSB22_swap hIs P1 P2 kt _ _) c c]
  rw [SB11_form hI hS P1 hP1 hbP1 d kt, SB12_form hI hS P1 P2 hP1 hbP1 hP2 hbP2 d kt,
    SB22_form hI hS P1 P2 hP1 hbP1 hP2 hbP2 kt]
  have h := M.L2_list [
      (1, fun ξ η => disp S P1 s1 c 0 0 0 ξ η * disp S P1 s1 c 0 0 0 ξ η),
      (d, fun ξ η => disp S P1 s1 c 0 0 0 ξ η * disp S P1 s1 c 2 1 0 ξ η),
      (d, fun ξ η => disp S P1 s1 c 2 1 0 ξ η * disp S P1 s1 c 0 0 0 ξ η),
      (d ^ 2, fun ξ η => disp S P1 s1 c 2 1 0 ξ η * disp S P1 s1 c 2 1 0 ξ η),
      (1, fun ξ η => disp S P1 s1 c 1 0 0 ξ η * disp S P1 s1 c 1 0 0 ξ η),
      (d, fun ξ η => disp S P1 s1 c 1 0 0 ξ η * disp S P1 s1 c 2 0 1 ξ η),
      (d, fun ξ η => disp S P1 s1 c 2 0 1 ξ η * disp S P1 s1 c 1 0 0 ξ η),
      (d ^ 2, fun ξ η => disp S P1 s1 c 2 0 1 ξ η * disp S P1 s1 c 2 0 1 ξ η),
      (1, fun ξ η => disp S P1 s1 c 2 0 0 ξ η * disp S P1 s1 c 2 0 0 ξ η),
      (-2 * 1, fun ξ η => disp S P1 s1 c 0 0 0 ξ η * disp S P2 s2 c 0 0 0 ξ η),
      (-2 * d, fun ξ η => disp S P1 s1 c 2 1 0 ξ η * disp S P2 s2 c 0 0 0 ξ η),
      (-2 * 1, fun ξ η => disp S P1 s1 c 1 0 0 ξ η * disp S P2 s2 c 1 0 0 ξ η),
      (-2 * d, fun ξ η => disp S P1 s1 c 2 0 1 ξ η * disp S P2 s2 c 1 0 0 ξ η),
      (-2 * 1, fun ξ η => disp S P1 s1 c 2 0 0 ξ η * disp S P2 s2 c 2 0 0 ξ η),
      (1, fun ξ η => disp S P2 s2 c 0 0 0 ξ η * disp S P2 s2 c 0 0 0 ξ η),
      (1, fun ξ η => disp S P2 s2 c 1 0 0 ξ η * disp S P2 s2 c 1 0 0 ξ η),
      (1, fun ξ η => disp S P2 s2 c 2 0 0 ξ η * disp S P2 s2 c 2 0 0 ξ η)] (by
    simp only [List.forall_mem_cons, List.not_mem_nil, false_imp_iff, implies_true, and_true]
    exact ⟨sep_disp hI hS .., sep_disp hI hS .., sep_disp hI hS .., sep_disp hI hS .., sep_disp hI hS .., sep_disp hI hS .., sep_disp hI hS .., sep_disp hI hS .., sep_disp hI hS .., sep_disp hI hS .., sep_disp hI hS .., sep_disp hI hS .., sep_disp hI hS .., sep_disp hI hS .., sep_disp hI hS .., sep_disp hI hS .., sep_disp hI hS ..⟩)
  simp only [List.map_cons, List.map_nil, List.sum_cons, List.sum_nil] at h
  refine Eq.trans ?_ (congrArg (fun z => P1.a * P1.b / 4 * kt * z) (Eq.trans h.symm
    (congrArg M.L (funext fun ξ => congrArg M.L (funext fun η => ?_)))))
  · ring
  · ring

end Verif
