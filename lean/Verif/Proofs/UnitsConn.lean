import Verif.Proofs.UnitsBuild
import Verif.Proofs.UnitsField
import Verif.Model.ConnAll

/-!
# Connections in other units
-/

namespace Verif

open Spec

variable {K : Type} [Field K] [DecidableEq K] (U : UnitSys K) (S : Shape K) (I : Tab K) (P1 P2 : Panel K)

/-- Cancel the factors. -/
macro "conn_val" U:term : tactic => `(tactic| (
  have := UnitSys.len_ne $U
  have := UnitSys.force_ne $U
  simp only [UnitSys.panel, Model.xi_units]
  simp only [UnitSys.line, UnitSys.area, UnitSys.vol]
  try field_simp
  try ring))

theorem kSSxcte11_units (kr kt xcte1 : K) (i1 k1 j1 l1 α β : ℕ) :
    Gen.Conn.kSSxcte11 S I (U.panel P1) (U.force * kr) (U.area * kt) (U.len * xcte1) i1 k1 j1 l1 α β
      = U.line * Gen.Conn.kSSxcte11 S I P1 kr kt xcte1 i1 k1 j1 l1 α β := by
  unfold Gen.Conn.kSSxcte11
  split
  · unfold Gen.Conn.kSSxcte11_00; conn_val U
  · unfold Gen.Conn.kSSxcte11_11; conn_val U
  · unfold Gen.Conn.kSSxcte11_22; conn_val U
  · simp

theorem kSSxcte12_units (kr kt xcte1 xcte2 : K) (i1 k2 j1 l2 α β : ℕ) :
    Gen.Conn.kSSxcte12 S I (U.panel P1) (U.panel P2) (U.force * kr) (U.area * kt) (U.len * xcte1) (U.len * xcte2) i1 k2 j1 l2 α β
      = U.line * Gen.Conn.kSSxcte12 S I P1 P2 kr kt xcte1 xcte2 i1 k2 j1 l2 α β := by
  unfold Gen.Conn.kSSxcte12
  split
  · unfold Gen.Conn.kSSxcte12_00; conn_val U
  · unfold Gen.Conn.kSSxcte12_11; conn_val U
  · unfold Gen.Conn.kSSxcte12_22; conn_val U
  · simp

theorem kSSxcte22_units (kr kt xcte2 : K) (i2 k2 j2 l2 α β : ℕ) :
    Gen.Conn.kSSxcte22 S I (U.panel P1) (U.panel P2) (U.force * kr) (U.area * kt) (U.len * xcte2) i2 k2 j2 l2 α β
      = U.line * Gen.Conn.kSSxcte22 S I P1 P2 kr kt xcte2 i2 k2 j2 l2 α β := by
  unfold Gen.Conn.kSSxcte22
  split
  · unfold Gen.Conn.kSSxcte22_00; conn_val U
  · unfold Gen.Conn.kSSxcte22_11; conn_val U
  · unfold Gen.Conn.kSSxcte22_22; conn_val U
  · simp

theorem kSSycte11_units (kr kt ycte1 : K) (i1 k1 j1 l1 α β : ℕ) :
    Gen.Conn.kSSycte11 S I (U.panel P1) (U.force * kr) (U.area * kt) (U.len * ycte1) i1 k1 j1 l1 α β
      = U.line * Gen.Conn.kSSycte11 S I P1 kr kt ycte1 i1 k1 j1 l1 α β := by
  unfold Gen.Conn.kSSycte11
  split
  · unfold Gen.Conn.kSSycte11_00; conn_val U
  · unfold Gen.Conn.kSSycte11_11; conn_val U
  · unfold Gen.Conn.kSSycte11_22; conn_val U
  · simp

theorem kSSycte12_units (kr kt ycte1 ycte2 : K) (i1 k2 j1 l2 α β : ℕ) :
    Gen.Conn.kSSycte12 S I (U.panel P1) (U.panel P2) (U.force * kr) (U.area * kt) (U.len * ycte1) (U.len * ycte2) i1 k2 j1 l2 α β
      = U.line * Gen.Conn.kSSycte12 S I P1 P2 kr kt ycte1 ycte2 i1 k2 j1 l2 α β := by
  unfold Gen.Conn.kSSycte12
  split
  · unfold Gen.Conn.kSSycte12_00; conn_val U
  · unfold Gen.Conn.kSSycte12_11; conn_val U
  · unfold Gen.Conn.kSSycte12_22; conn_val U
  · simp

theorem kSSycte22_units (kr kt ycte2 : K) (i2 k2 j2 l2 α β : ℕ) :
    Gen.Conn.kSSycte22 S I (U.panel P1) (U.panel P2) (U.force * kr) (U.area * kt) (U.len * ycte2) i2 k2 j2 l2 α β
      = U.line * Gen.Conn.kSSycte22 S I P1 P2 kr kt ycte2 i2 k2 j2 l2 α β := by
  unfold Gen.Conn.kSSycte22
  split
  · unfold Gen.Conn.kSSycte22_00; conn_val U
  · unfold Gen.Conn.kSSycte22_11; conn_val U
  · unfold Gen.Conn.kSSycte22_22; conn_val U
  · simp

theorem kBFxcte11_units (kr kt xcte1 : K) (i1 k1 j1 l1 α β : ℕ) :
    Gen.Conn.kBFxcte11 S I (U.panel P1) (U.force * kr) (U.area * kt) (U.len * xcte1) i1 k1 j1 l1 α β
      = U.line * Gen.Conn.kBFxcte11 S I P1 kr kt xcte1 i1 k1 j1 l1 α β := by
  unfold Gen.Conn.kBFxcte11
  split
  · unfold Gen.Conn.kBFxcte11_00; conn_val U
  · unfold Gen.Conn.kBFxcte11_11; conn_val U
  · unfold Gen.Conn.kBFxcte11_22; conn_val U
  · simp

theorem kBFxcte12_units (kr kt xcte1 xcte2 : K) (i1 k2 j1 l2 α β : ℕ) :
    Gen.Conn.kBFxcte12 S I (U.panel P1) (U.panel P2) (U.force * kr) (U.area * kt) (U.len * xcte1) (U.len * xcte2) i1 k2 j1 l2 α β
      = U.line * Gen.Conn.kBFxcte12 S I P1 P2 kr kt xcte1 xcte2 i1 k2 j1 l2 α β := by
  unfold Gen.Conn.kBFxcte12
  split
  · unfold Gen.Conn.kBFxcte12_02; conn_val U
  · unfold Gen.Conn.kBFxcte12_11; conn_val U
  · unfold Gen.Conn.kBFxcte12_20; conn_val U
  · unfold Gen.Conn.kBFxcte12_22; conn_val U
  · simp

theorem kBFxcte22_units (kr kt xcte2 : K) (i2 k2 j2 l2 α β : ℕ) :
    Gen.Conn.kBFxcte22 S I (U.panel P1) (U.panel P2) (U.force * kr) (U.area * kt) (U.len * xcte2) i2 k2 j2 l2 α β
      = U.line * Gen.Conn.kBFxcte22 S I P1 P2 kr kt xcte2 i2 k2 j2 l2 α β := by
  unfold Gen.Conn.kBFxcte22
  split
  · unfold Gen.Conn.kBFxcte22_00; conn_val U
  · unfold Gen.Conn.kBFxcte22_11; conn_val U
  · unfold Gen.Conn.kBFxcte22_22; conn_val U
  · simp

theorem kBFycte11_units (kr kt ycte1 : K) (i1 k1 j1 l1 α β : ℕ) :
    Gen.Conn.kBFycte11 S I (U.panel P1) (U.force * kr) (U.area * kt) (U.len * ycte1) i1 k1 j1 l1 α β
      = U.line * Gen.Conn.kBFycte11 S I P1 kr kt ycte1 i1 k1 j1 l1 α β := by
  unfold Gen.Conn.kBFycte11
  split
  · unfold Gen.Conn.kBFycte11_00; conn_val U
  · unfold Gen.Conn.kBFycte11_11; conn_val U
  · unfold Gen.Conn.kBFycte11_22; conn_val U
  · simp

theorem kBFycte12_units (kr kt ycte1 ycte2 : K) (i1 k2 j1 l2 α β : ℕ) :
    Gen.Conn.kBFycte12 S I (U.panel P1) (U.panel P2) (U.force * kr) (U.area * kt) (U.len * ycte1) (U.len * ycte2) i1 k2 j1 l2 α β
      = U.line * Gen.Conn.kBFycte12 S I P1 P2 kr kt ycte1 ycte2 i1 k2 j1 l2 α β := by
  unfold Gen.Conn.kBFycte12
  split
  · unfold Gen.Conn.kBFycte12_00; conn_val U
  · unfold Gen.Conn.kBFycte12_12; conn_val U
  · unfold Gen.Conn.kBFycte12_21; conn_val U
  · unfold Gen.Conn.kBFycte12_22; conn_val U
  · simp

theorem kBFycte22_units (kr kt ycte2 : K) (i2 k2 j2 l2 α β : ℕ) :
    Gen.Conn.kBFycte22 S I (U.panel P1) (U.panel P2) (U.force * kr) (U.area * kt) (U.len * ycte2) i2 k2 j2 l2 α β
      = U.line * Gen.Conn.kBFycte22 S I P1 P2 kr kt ycte2 i2 k2 j2 l2 α β := by
  unfold Gen.Conn.kBFycte22
  split
  · unfold Gen.Conn.kBFycte22_00; conn_val U
  · unfold Gen.Conn.kBFycte22_11; conn_val U
  · unfold Gen.Conn.kBFycte22_22; conn_val U
  · simp

theorem kSB11_units (dsb kt : K) (i1 k1 j1 l1 α β : ℕ) :
    Gen.Conn.kSB11 I (U.panel P1) (U.len * dsb) (U.vol * kt) i1 k1 j1 l1 α β
      = U.line * Gen.Conn.kSB11 I P1 dsb kt i1 k1 j1 l1 α β := by
  unfold Gen.Conn.kSB11
  split
  · unfold Gen.Conn.kSB11_00; conn_val U
  · unfold Gen.Conn.kSB11_02; conn_val U
  · unfold Gen.Conn.kSB11_11; conn_val U
  · unfold Gen.Conn.kSB11_12; conn_val U
  · unfold Gen.Conn.kSB11_20; conn_val U
  · unfold Gen.Conn.kSB11_21; conn_val U
  · unfold Gen.Conn.kSB11_22; conn_val U
  · simp

theorem kSB12_units (dsb kt : K) (i1 k2 j1 l2 α β : ℕ) :
    Gen.Conn.kSB12 I (U.panel P1) (U.panel P2) (U.len * dsb) (U.vol * kt) i1 k2 j1 l2 α β
      = U.line * Gen.Conn.kSB12 I P1 P2 dsb kt i1 k2 j1 l2 α β := by
  unfold Gen.Conn.kSB12
  split
  · unfold Gen.Conn.kSB12_00; conn_val U
  · unfold Gen.Conn.kSB12_11; conn_val U
  · unfold Gen.Conn.kSB12_20; conn_val U
  · unfold Gen.Conn.kSB12_21; conn_val U
  · unfold Gen.Conn.kSB12_22; conn_val U
  · simp

theorem kSB22_units (kt : K) (i2 k2 j2 l2 α β : ℕ) :
    Gen.Conn.kSB22 I (U.panel P1) (U.panel P2) (U.vol * kt) i2 k2 j2 l2 α β
      = U.line * Gen.Conn.kSB22 I P1 P2 kt i2 k2 j2 l2 α β := by
  unfold Gen.Conn.kSB22
  split
  · unfold Gen.Conn.kSB22_00; conn_val U
  · unfold Gen.Conn.kSB22_11; conn_val U
  · unfold Gen.Conn.kSB22_22; conn_val U
  · simp

namespace Model

theorem fkCSSxcte11_units (kt kr xcte1 : K) (row0 col0 : ℕ) :
    fkCSSxcte11 S I (U.panel P1) (U.area * kt) (U.force * kr) (U.len * xcte1) row0 col0
      = scale U.line (fkCSSxcte11 S I P1 kt kr xcte1 row0 col0) := by
  unfold fkCSSxcte11
  rw [scale_pad]
  exact congrArg _ (scale_symBuildJL (fun i k j l α β => kSSxcte11_units ..) ..)

theorem fkCSSxcte12_units (kt kr xcte1 xcte2 : K) (row0 col0 : ℕ) :
    fkCSSxcte12 S I (U.panel P1) (U.panel P2) (U.area * kt) (U.force * kr) (U.len * xcte1) (U.len * xcte2) row0 col0
      = scale U.line (fkCSSxcte12 S I P1 P2 kt kr xcte1 xcte2 row0 col0) := by
  unfold fkCSSxcte12
  rw [scale_pad]
  exact congrArg _ (scale_crossBuildJL (fun i k j l α β => kSSxcte12_units ..) ..)

theorem fkCSSxcte22_units (kt kr xcte2 : K) (row0 col0 : ℕ) :
    fkCSSxcte22 S I (U.panel P1) (U.panel P2) (U.area * kt) (U.force * kr) (U.len * xcte2) row0 col0
      = scale U.line (fkCSSxcte22 S I P1 P2 kt kr xcte2 row0 col0) := by
  unfold fkCSSxcte22
  rw [scale_pad]
  exact congrArg _ (scale_symBuildJL (fun i k j l α β => kSSxcte22_units ..) ..)

theorem fkCSSycte11_units (kt kr ycte1 : K) (row0 col0 : ℕ) :
    fkCSSycte11 S I (U.panel P1) (U.area * kt) (U.force * kr) (U.len * ycte1) row0 col0
      = scale U.line (fkCSSycte11 S I P1 kt kr ycte1 row0 col0) := by
  unfold fkCSSycte11
  rw [scale_pad]
  exact congrArg _ (scale_symBuild (fun i k j l α β => kSSycte11_units ..) ..)

theorem fkCSSycte12_units (kt kr ycte1 ycte2 : K) (row0 col0 : ℕ) :
    fkCSSycte12 S I (U.panel P1) (U.panel P2) (U.area * kt) (U.force * kr) (U.len * ycte1) (U.len * ycte2) row0 col0
      = scale U.line (fkCSSycte12 S I P1 P2 kt kr ycte1 ycte2 row0 col0) := by
  unfold fkCSSycte12
  rw [scale_pad]
  exact congrArg _ (scale_crossBuild (fun i k j l α β => kSSycte12_units ..) ..)

theorem fkCSSycte22_units (kt kr ycte2 : K) (row0 col0 : ℕ) :
    fkCSSycte22 S I (U.panel P1) (U.panel P2) (U.area * kt) (U.force * kr) (U.len * ycte2) row0 col0
      = scale U.line (fkCSSycte22 S I P1 P2 kt kr ycte2 row0 col0) := by
  unfold fkCSSycte22
  rw [scale_pad]
  exact congrArg _ (scale_symBuild (fun i k j l α β => kSSycte22_units ..) ..)

theorem fkCBFxcte11_units (kt kr xcte1 : K) (row0 col0 : ℕ) :
    fkCBFxcte11 S I (U.panel P1) (U.area * kt) (U.force * kr) (U.len * xcte1) row0 col0
      = scale U.line (fkCBFxcte11 S I P1 kt kr xcte1 row0 col0) := by
  unfold fkCBFxcte11
  rw [scale_pad]
  exact congrArg _ (scale_symBuildJL (fun i k j l α β => kBFxcte11_units ..) ..)

theorem fkCBFxcte12_units (kt kr xcte1 xcte2 : K) (row0 col0 : ℕ) :
    fkCBFxcte12 S I (U.panel P1) (U.panel P2) (U.area * kt) (U.force * kr) (U.len * xcte1) (U.len * xcte2) row0 col0
      = scale U.line (fkCBFxcte12 S I P1 P2 kt kr xcte1 xcte2 row0 col0) := by
  unfold fkCBFxcte12
  rw [scale_pad]
  exact congrArg _ (scale_crossBuildJL (fun i k j l α β => kBFxcte12_units ..) ..)

theorem fkCBFxcte22_units (kt kr xcte2 : K) (row0 col0 : ℕ) :
    fkCBFxcte22 S I (U.panel P1) (U.panel P2) (U.area * kt) (U.force * kr) (U.len * xcte2) row0 col0
      = scale U.line (fkCBFxcte22 S I P1 P2 kt kr xcte2 row0 col0) := by
  unfold fkCBFxcte22
  rw [scale_pad]
  exact congrArg _ (scale_symBuildJL (fun i k j l α β => kBFxcte22_units ..) ..)

theorem fkCBFycte11_units (kt kr ycte1 : K) (row0 col0 : ℕ) :
    fkCBFycte11 S I (U.panel P1) (U.area * kt) (U.force * kr) (U.len * ycte1) row0 col0
      = scale U.line (fkCBFycte11 S I P1 kt kr ycte1 row0 col0) := by
  unfold fkCBFycte11
  rw [scale_pad]
  exact congrArg _ (scale_symBuild (fun i k j l α β => kBFycte11_units ..) ..)

theorem fkCBFycte12_units (kt kr ycte1 ycte2 : K) (row0 col0 : ℕ) :
    fkCBFycte12 S I (U.panel P1) (U.panel P2) (U.area * kt) (U.force * kr) (U.len * ycte1) (U.len * ycte2) row0 col0
      = scale U.line (fkCBFycte12 S I P1 P2 kt kr ycte1 ycte2 row0 col0) := by
  unfold fkCBFycte12
  rw [scale_pad]
  exact congrArg _ (scale_crossBuild (fun i k j l α β => kBFycte12_units ..) ..)

theorem fkCBFycte22_units (kt kr ycte2 : K) (row0 col0 : ℕ) :
    fkCBFycte22 S I (U.panel P1) (U.panel P2) (U.area * kt) (U.force * kr) (U.len * ycte2) row0 col0
      = scale U.line (fkCBFycte22 S I P1 P2 kt kr ycte2 row0 col0) := by
  unfold fkCBFycte22
  rw [scale_pad]
  exact congrArg _ (scale_symBuild (fun i k j l α β => kBFycte22_units ..) ..)

theorem fkCSB11_units (kt dsb : K) (row0 col0 : ℕ) :
    fkCSB11 I (U.panel P1) (U.vol * kt) (U.len * dsb) row0 col0
      = scale U.line (fkCSB11 I P1 kt dsb row0 col0) := by
  unfold fkCSB11
  rw [scale_pad]
  exact congrArg _ (scale_symBuild (fun i k j l α β => kSB11_units ..) ..)

theorem fkCSB12_units (kt dsb : K) (row0 col0 : ℕ) :
    fkCSB12 I (U.panel P1) (U.panel P2) (U.vol * kt) (U.len * dsb) row0 col0
      = scale U.line (fkCSB12 I P1 P2 kt dsb row0 col0) := by
  unfold fkCSB12
  rw [scale_pad]
  exact congrArg _ (scale_crossBuild (fun i k j l α β => kSB12_units ..) ..)

theorem fkCSB22_units (kt : K) (row0 col0 : ℕ) :
    fkCSB22 I (U.panel P1) (U.panel P2) (U.vol * kt) row0 col0
      = scale U.line (fkCSB22 I P1 P2 kt row0 col0) := by
  unfold fkCSB22
  rw [scale_pad]
  exact congrArg _ (scale_symBuild (fun i k j l α β => kSB22_units ..) ..)

theorem connSSxcte_units (kt kr x1 x2 : K) (s1 s2 : ℕ) :
    connSSxcte S I (U.panel P1) (U.panel P2) (U.area * kt) (U.force * kr) (U.len * x1) (U.len * x2) s1 s2
      = scale U.line (connSSxcte S I P1 P2 kt kr x1 x2 s1 s2) := by
  simp only [connSSxcte, scale_append, fkCSSxcte11_units, fkCSSxcte12_units, fkCSSxcte22_units]

theorem connSSycte_units (kt kr y1 y2 : K) (s1 s2 : ℕ) :
    connSSycte S I (U.panel P1) (U.panel P2) (U.area * kt) (U.force * kr) (U.len * y1) (U.len * y2) s1 s2
      = scale U.line (connSSycte S I P1 P2 kt kr y1 y2 s1 s2) := by
  simp only [connSSycte, scale_append, fkCSSycte11_units, fkCSSycte12_units, fkCSSycte22_units]

theorem connBFxcte_units (kt kr x1 x2 : K) (s1 s2 : ℕ) :
    connBFxcte S I (U.panel P1) (U.panel P2) (U.area * kt) (U.force * kr) (U.len * x1) (U.len * x2) s1 s2
      = scale U.line (connBFxcte S I P1 P2 kt kr x1 x2 s1 s2) := by
  simp only [connBFxcte, scale_append, fkCBFxcte11_units, fkCBFxcte12_units, fkCBFxcte22_units]

theorem connBFycte_units (kt kr y1 y2 : K) (s1 s2 : ℕ) :
    connBFycte S I (U.panel P1) (U.panel P2) (U.area * kt) (U.force * kr) (U.len * y1) (U.len * y2) s1 s2
      = scale U.line (connBFycte S I P1 P2 kt kr y1 y2 s1 s2) := by
  simp only [connBFycte, scale_append, fkCBFycte11_units, fkCBFycte12_units, fkCBFycte22_units]

theorem connSB_units (kt dsb : K) (s1 s2 : ℕ) :
    connSB I (U.panel P1) (U.panel P2) (U.vol * kt) (U.len * dsb) s1 s2
      = scale U.line (connSB I P1 P2 kt dsb s1 s2) := by
  simp only [connSB, scale_append, fkCSB11_units, fkCSB12_units, fkCSB22_units]

/-! ## Prescribed displacements -/

theorem scale_symBuildW (c : K) (r0 c0 m n : ℕ) (pat : List (ℕ × ℕ)) (w v : List (ℕ → ℕ → ℕ → ℕ → K))
    (h : w = v.map fun f i k j l => c * f i k j l) :
    symBuildW r0 c0 m n (pat.zip w) = scale c (symBuildW r0 c0 m n (pat.zip v)) ∧
      symBuildWJL r0 c0 m n (pat.zip w) = scale c (symBuildWJL r0 c0 m n (pat.zip v)) := by
  have hb : ∀ i k j l, symBlockW r0 c0 m (pat.zip w) i k j l
      = scale c (symBlockW r0 c0 m (pat.zip v) i k j l) := by
    intro i k j l
    subst h
    unfold symBlockW
    split
    · rfl
    · simp [scale, List.zip_map_right, Function.comp_def]
  constructor
  · simp only [symBuildW, scale_flatMap, hb]
  · simp only [symBuildWJL, scale_flatMap, hb]

/-- A displacement prescribed at a point. -/
theorem fkCpd_units (P : Panel K) (ku kv kw xp yp : K) (row0 col0 : ℕ) :
    fkCpd S (U.panel P) (U.line * ku) (U.line * kv) (U.line * kw) (U.len * xp) (U.len * yp) row0 col0
      = scale U.line (fkCpd S P ku kv kw xp yp row0 col0) := by
  unfold fkCpd
  rw [scale_pad]
  refine congrArg _ (scale_symBuildJL (fun i k j l α β => ?_) ..)
  unfold Gen.Pd.fkCpd
  split
  · simp only [Gen.Pd.fkCpd_00, UnitSys.panel, xi_units]; ring
  · simp only [Gen.Pd.fkCpd_11, UnitSys.panel, xi_units]; ring
  · simp only [Gen.Pd.fkCpd_22, UnitSys.panel, xi_units]; ring
  · simp

theorem area_len (z : K) : U.area * (U.len * z) = U.line * z := by
  have := U.len_ne
  unfold UnitSys.area UnitSys.line
  field_simp

/-- A displacement prescribed along a line `x = xp`. -/
theorem fkCldXcte_units (P : Panel K) (ku kv kw xp : K) (row0 col0 : ℕ) :
    fkCldXcte S I (U.panel P) (U.area * ku) (U.area * kv) (U.area * kw) (U.len * xp) row0 col0
      = scale U.line (fkCldXcte S I P ku kv kw xp row0 col0) := by
  unfold fkCldXcte
  rw [scale_pad]
  refine congrArg _ (scale_symBuildW U.line _ _ _ _ _ _ _ ?_).2
  have h : U.line = U.area * U.len := by have := area_len U 1; simpa using this.symm
  have e0 : Gen.Pd.fkCld_xcte_w0 S I (U.panel P) (U.area * ku) (U.area * kv) (U.area * kw) (U.len * xp)
      = fun i k j l => U.line * Gen.Pd.fkCld_xcte_w0 S I P ku kv kw xp i k j l := by
    funext i k j l
    simp only [Gen.Pd.fkCld_xcte_w0, UnitSys.panel, xi_units]
    rw [h]
    ring
  have e1 : Gen.Pd.fkCld_xcte_w1 S I (U.panel P) (U.area * ku) (U.area * kv) (U.area * kw) (U.len * xp)
      = fun i k j l => U.line * Gen.Pd.fkCld_xcte_w1 S I P ku kv kw xp i k j l := by
    funext i k j l
    simp only [Gen.Pd.fkCld_xcte_w1, UnitSys.panel, xi_units]
    rw [h]
    ring
  have e2 : Gen.Pd.fkCld_xcte_w2 S I (U.panel P) (U.area * ku) (U.area * kv) (U.area * kw) (U.len * xp)
      = fun i k j l => U.line * Gen.Pd.fkCld_xcte_w2 S I P ku kv kw xp i k j l := by
    funext i k j l
    simp only [Gen.Pd.fkCld_xcte_w2, UnitSys.panel, xi_units]
    rw [h]
    ring
  rw [e0, e1, e2]
  rfl

/-- A displacement prescribed along a line `y = yp`. -/
theorem fkCldYcte_units (P : Panel K) (ku kv kw yp : K) (row0 col0 : ℕ) :
    fkCldYcte S I (U.panel P) (U.area * ku) (U.area * kv) (U.area * kw) (U.len * yp) row0 col0
      = scale U.line (fkCldYcte S I P ku kv kw yp row0 col0) := by
  unfold fkCldYcte
  rw [scale_pad]
  refine congrArg _ (scale_symBuildW U.line _ _ _ _ _ _ _ ?_).1
  have h : U.line = U.area * U.len := by have := area_len U 1; simpa using this.symm
  have e0 : Gen.Pd.fkCld_ycte_w0 S I (U.panel P) (U.area * ku) (U.area * kv) (U.area * kw) (U.len * yp)
      = fun i k j l => U.line * Gen.Pd.fkCld_ycte_w0 S I P ku kv kw yp i k j l := by
    funext i k j l
    simp only [Gen.Pd.fkCld_ycte_w0, UnitSys.panel, xi_units]
    rw [h]
    ring
  have e1 : Gen.Pd.fkCld_ycte_w1 S I (U.panel P) (U.area * ku) (U.area * kv) (U.area * kw) (U.len * yp)
      = fun i k j l => U.line * Gen.Pd.fkCld_ycte_w1 S I P ku kv kw yp i k j l := by
    funext i k j l
    simp only [Gen.Pd.fkCld_ycte_w1, UnitSys.panel, xi_units]
    rw [h]
    ring
  have e2 : Gen.Pd.fkCld_ycte_w2 S I (U.panel P) (U.area * ku) (U.area * kv) (U.area * kw) (U.len * yp)
      = fun i k j l => U.line * Gen.Pd.fkCld_ycte_w2 S I P ku kv kw yp i k j l := by
    funext i k j l
    simp only [Gen.Pd.fkCld_ycte_w2, UnitSys.panel, xi_units]
    rw [h]
    ring
  rw [e0, e1, e2]
  rfl

end Model

end Verif
