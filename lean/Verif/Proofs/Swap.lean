import Verif.Proofs.PatZero
import Verif.Proofs.FullOp
import Verif.Model.Conn
import Verif.Model.Stiff

/-!
# Exchange symmetry of the entry expressions
-/

set_option linter.unusedSectionVars false
set_option linter.unusedSimpArgs false
set_option linter.unusedTactic false
set_option linter.unreachableTactic false
set_option linter.unnecessarySeqFocus false

namespace Verif

variable {K : Type*} [Field K] [CharZero K]

set_option maxHeartbeats 1000000 in
theorem plateAna_fkG0_swap {I : Tab K} (hI : I.Sym) (P : Panel K) (Nxx Nxy Nyy : K) (m n : ℕ) : SwapSym m n (Gen.PlateAna.fkG0 I P Nxx Nxy Nyy) := by
  intro i k j l a b _ _ _ _
  rcases a with _ | _ | _ | a <;> rcases b with _ | _ | _ | b <;>
    simp only [Gen.PlateAna.fkG0, Nat.zero_add, Nat.reduceAdd] <;> first
    | rfl
    | (simp only [Gen.PlateAna.fkG0_22, hI.ff i k, hI.ff j l, hI.fpfp i k, hI.fpfp j l, hI.fppfpp i k, hI.fppfpp j l]; try ring1)
    | (simp only [Gen.PlateAna.fkG0_22]; try ring1)

set_option maxHeartbeats 1000000 in
theorem plateAna_fkM_swap {I : Tab K} (hI : I.Sym) (P : Panel K) (d h rho : K) (m n : ℕ) : SwapSym m n (Gen.PlateAna.fkM I P d h rho) := by
  intro i k j l a b _ _ _ _
  rcases a with _ | _ | _ | a <;> rcases b with _ | _ | _ | b <;>
    simp only [Gen.PlateAna.fkM, Nat.zero_add, Nat.reduceAdd] <;> first
    | rfl
    | (simp only [Gen.PlateAna.fkM_00, Gen.PlateAna.fkM_02, Gen.PlateAna.fkM_11, Gen.PlateAna.fkM_12, Gen.PlateAna.fkM_20, Gen.PlateAna.fkM_21, Gen.PlateAna.fkM_22, hI.ff i k, hI.ff j l, hI.fpfp i k, hI.fpfp j l, hI.fppfpp i k, hI.fppfpp j l]; try ring1)
    | (simp only [Gen.PlateAna.fkM_00, Gen.PlateAna.fkM_02, Gen.PlateAna.fkM_11, Gen.PlateAna.fkM_12, Gen.PlateAna.fkM_20, Gen.PlateAna.fkM_21, Gen.PlateAna.fkM_22]; try ring1)

set_option maxHeartbeats 1000000 in
theorem plateAna_fcA_swap {I : Tab K} (hI : I.Sym) (P : Panel K) (aeromu : K) (m n : ℕ) : SwapSym m n (Gen.PlateAna.fcA I P aeromu) := by
  intro i k j l a b _ _ _ _
  rcases a with _ | _ | _ | a <;> rcases b with _ | _ | _ | b <;>
    simp only [Gen.PlateAna.fcA, Nat.zero_add, Nat.reduceAdd] <;> first
    | rfl
    | (simp only [Gen.PlateAna.fcA_22, hI.ff i k, hI.ff j l, hI.fpfp i k, hI.fpfp j l, hI.fppfpp i k, hI.fppfpp j l]; try ring1)
    | (simp only [Gen.PlateAna.fcA_22]; try ring1)

set_option maxHeartbeats 1000000 in
theorem cylAna_fkG0_swap {I : Tab K} (hI : I.Sym) (P : Panel K) (Nxx Nxy Nyy : K) (m n : ℕ) : SwapSym m n (Gen.CylAna.fkG0 I P Nxx Nxy Nyy) := by
  intro i k j l a b _ _ _ _
  rcases a with _ | _ | _ | a <;> rcases b with _ | _ | _ | b <;>
    simp only [Gen.CylAna.fkG0, Nat.zero_add, Nat.reduceAdd] <;> first
    | rfl
    | (simp only [Gen.CylAna.fkG0_22, hI.ff i k, hI.ff j l, hI.fpfp i k, hI.fpfp j l, hI.fppfpp i k, hI.fppfpp j l]; try ring1)
    | (simp only [Gen.CylAna.fkG0_22]; try ring1)

set_option maxHeartbeats 1000000 in
theorem cylAna_fkM_swap {I : Tab K} (hI : I.Sym) (P : Panel K) (d h rho : K) (m n : ℕ) : SwapSym m n (Gen.CylAna.fkM I P d h rho) := by
  intro i k j l a b _ _ _ _
  rcases a with _ | _ | _ | a <;> rcases b with _ | _ | _ | b <;>
    simp only [Gen.CylAna.fkM, Nat.zero_add, Nat.reduceAdd] <;> first
    | rfl
    | (simp only [Gen.CylAna.fkM_00, Gen.CylAna.fkM_02, Gen.CylAna.fkM_11, Gen.CylAna.fkM_12, Gen.CylAna.fkM_20, Gen.CylAna.fkM_21, Gen.CylAna.fkM_22, hI.ff i k, hI.ff j l, hI.fpfp i k, hI.fpfp j l, hI.fppfpp i k, hI.fppfpp j l]; try ring1)
    | (simp only [Gen.CylAna.fkM_00, Gen.CylAna.fkM_02, Gen.CylAna.fkM_11, Gen.CylAna.fkM_12, Gen.CylAna.fkM_20, Gen.CylAna.fkM_21, Gen.CylAna.fkM_22]; try ring1)

set_option maxHeartbeats 1000000 in
theorem cylAna_fcA_swap {I : Tab K} (hI : I.Sym) (P : Panel K) (aeromu : K) (m n : ℕ) : SwapSym m n (Gen.CylAna.fcA I P aeromu) := by
  intro i k j l a b _ _ _ _
  rcases a with _ | _ | _ | a <;> rcases b with _ | _ | _ | b <;>
    simp only [Gen.CylAna.fcA, Nat.zero_add, Nat.reduceAdd] <;> first
    | rfl
    | (simp only [Gen.CylAna.fcA_22, hI.ff i k, hI.ff j l, hI.fpfp i k, hI.fpfp j l, hI.fppfpp i k, hI.fppfpp j l]; try ring1)
    | (simp only [Gen.CylAna.fcA_22]; try ring1)

set_option maxHeartbeats 1000000 in
theorem plateNum_fkG_swap (S : Shape K) (P : Panel K) (Nxx Nxy Nyy eta intx inty weight xi : K) (m n : ℕ) : SwapSym m n (Gen.PlateNum.fkG_num S P Nxx Nxy Nyy eta intx inty weight xi) := by
  intro i k j l a b _ _ _ _
  rcases a with _ | _ | _ | a <;> rcases b with _ | _ | _ | b <;>
    simp only [Gen.PlateNum.fkG_num, Nat.zero_add, Nat.reduceAdd] <;> first
    | rfl
    | (simp only [Gen.PlateNum.fkG_num_22]; try ring1)
    | (simp only [Gen.PlateNum.fkG_num_22]; try ring1)

set_option maxHeartbeats 1000000 in
theorem cylNum_fkG_swap (S : Shape K) (P : Panel K) (Nxx Nxy Nyy eta intx inty weight xi : K) (m n : ℕ) : SwapSym m n (Gen.CylNum.fkG_num S P Nxx Nxy Nyy eta intx inty weight xi) := by
  intro i k j l a b _ _ _ _
  rcases a with _ | _ | _ | a <;> rcases b with _ | _ | _ | b <;>
    simp only [Gen.CylNum.fkG_num, Nat.zero_add, Nat.reduceAdd] <;> first
    | rfl
    | (simp only [Gen.CylNum.fkG_num_22]; try ring1)
    | (simp only [Gen.CylNum.fkG_num_22]; try ring1)

set_option maxHeartbeats 1000000 in
theorem plateNum_fkM_swap (S : Shape K) (P : Panel K) (d eta h intx inty rho weight xi : K) (m n : ℕ) : SwapSym m n (Gen.PlateNum.fkM_num S P d eta h intx inty rho weight xi) := by
  intro i k j l a b _ _ _ _
  rcases a with _ | _ | _ | a <;> rcases b with _ | _ | _ | b <;>
    simp only [Gen.PlateNum.fkM_num, Nat.zero_add, Nat.reduceAdd] <;> first
    | rfl
    | (simp only [Gen.PlateNum.fkM_num_00, Gen.PlateNum.fkM_num_02, Gen.PlateNum.fkM_num_11, Gen.PlateNum.fkM_num_12, Gen.PlateNum.fkM_num_20, Gen.PlateNum.fkM_num_21, Gen.PlateNum.fkM_num_22]; try ring1)
    | (simp only [Gen.PlateNum.fkM_num_00, Gen.PlateNum.fkM_num_02, Gen.PlateNum.fkM_num_11, Gen.PlateNum.fkM_num_12, Gen.PlateNum.fkM_num_20, Gen.PlateNum.fkM_num_21, Gen.PlateNum.fkM_num_22]; try ring1)

set_option maxHeartbeats 1000000 in
theorem kSSxcte11_swap {I : Tab K} (hI : I.Sym) (S : Shape K) (P1 : Panel K) (kr kt x1 : K) (m n : ℕ) : SwapSym m n (Gen.Conn.kSSxcte11 S I P1 kr kt x1) := by
  intro i k j l a b _ _ _ _
  rcases a with _ | _ | _ | a <;> rcases b with _ | _ | _ | b <;>
    simp only [Gen.Conn.kSSxcte11, Nat.zero_add, Nat.reduceAdd] <;> first
    | rfl
    | (simp only [Gen.Conn.kSSxcte11_00, Gen.Conn.kSSxcte11_11, Gen.Conn.kSSxcte11_22, hI.ff i k, hI.ff j l, hI.fpfp i k, hI.fpfp j l, hI.fppfpp i k, hI.fppfpp j l]; try ring1)
    | (simp only [Gen.Conn.kSSxcte11_00, Gen.Conn.kSSxcte11_11, Gen.Conn.kSSxcte11_22]; try ring1)

set_option maxHeartbeats 1000000 in
theorem kSSxcte22_swap {I : Tab K} (hI : I.Sym) (S : Shape K) (P1 P2 : Panel K) (kr kt x2 : K) (m n : ℕ) : SwapSym m n (Gen.Conn.kSSxcte22 S I P1 P2 kr kt x2) := by
  intro i k j l a b _ _ _ _
  rcases a with _ | _ | _ | a <;> rcases b with _ | _ | _ | b <;>
    simp only [Gen.Conn.kSSxcte22, Nat.zero_add, Nat.reduceAdd] <;> first
    | rfl
    | (simp only [Gen.Conn.kSSxcte22_00, Gen.Conn.kSSxcte22_11, Gen.Conn.kSSxcte22_22, hI.ff i k, hI.ff j l, hI.fpfp i k, hI.fpfp j l, hI.fppfpp i k, hI.fppfpp j l]; try ring1)
    | (simp only [Gen.Conn.kSSxcte22_00, Gen.Conn.kSSxcte22_11, Gen.Conn.kSSxcte22_22]; try ring1)

set_option maxHeartbeats 1000000 in
theorem kSSycte11_swap {I : Tab K} (hI : I.Sym) (S : Shape K) (P1 : Panel K) (kr kt x1 : K) (m n : ℕ) : SwapSym m n (Gen.Conn.kSSycte11 S I P1 kr kt x1) := by
  intro i k j l a b _ _ _ _
  rcases a with _ | _ | _ | a <;> rcases b with _ | _ | _ | b <;>
    simp only [Gen.Conn.kSSycte11, Nat.zero_add, Nat.reduceAdd] <;> first
    | rfl
    | (simp only [Gen.Conn.kSSycte11_00, Gen.Conn.kSSycte11_11, Gen.Conn.kSSycte11_22, hI.ff i k, hI.ff j l, hI.fpfp i k, hI.fpfp j l, hI.fppfpp i k, hI.fppfpp j l]; try ring1)
    | (simp only [Gen.Conn.kSSycte11_00, Gen.Conn.kSSycte11_11, Gen.Conn.kSSycte11_22]; try ring1)

set_option maxHeartbeats 1000000 in
theorem kSSycte22_swap {I : Tab K} (hI : I.Sym) (S : Shape K) (P1 P2 : Panel K) (kr kt x2 : K) (m n : ℕ) : SwapSym m n (Gen.Conn.kSSycte22 S I P1 P2 kr kt x2) := by
  intro i k j l a b _ _ _ _
  rcases a with _ | _ | _ | a <;> rcases b with _ | _ | _ | b <;>
    simp only [Gen.Conn.kSSycte22, Nat.zero_add, Nat.reduceAdd] <;> first
    | rfl
    | (simp only [Gen.Conn.kSSycte22_00, Gen.Conn.kSSycte22_11, Gen.Conn.kSSycte22_22, hI.ff i k, hI.ff j l, hI.fpfp i k, hI.fpfp j l, hI.fppfpp i k, hI.fppfpp j l]; try ring1)
    | (simp only [Gen.Conn.kSSycte22_00, Gen.Conn.kSSycte22_11, Gen.Conn.kSSycte22_22]; try ring1)

set_option maxHeartbeats 1000000 in
theorem kBFxcte11_swap {I : Tab K} (hI : I.Sym) (S : Shape K) (P1 : Panel K) (kr kt x1 : K) (m n : ℕ) : SwapSym m n (Gen.Conn.kBFxcte11 S I P1 kr kt x1) := by
  intro i k j l a b _ _ _ _
  rcases a with _ | _ | _ | a <;> rcases b with _ | _ | _ | b <;>
    simp only [Gen.Conn.kBFxcte11, Nat.zero_add, Nat.reduceAdd] <;> first
    | rfl
    | (simp only [Gen.Conn.kBFxcte11_00, Gen.Conn.kBFxcte11_11, Gen.Conn.kBFxcte11_22, hI.ff i k, hI.ff j l, hI.fpfp i k, hI.fpfp j l, hI.fppfpp i k, hI.fppfpp j l]; try ring1)
    | (simp only [Gen.Conn.kBFxcte11_00, Gen.Conn.kBFxcte11_11, Gen.Conn.kBFxcte11_22]; try ring1)

set_option maxHeartbeats 1000000 in
theorem kBFxcte22_swap {I : Tab K} (hI : I.Sym) (S : Shape K) (P1 P2 : Panel K) (kr kt x2 : K) (m n : ℕ) : SwapSym m n (Gen.Conn.kBFxcte22 S I P1 P2 kr kt x2) := by
  intro i k j l a b _ _ _ _
  rcases a with _ | _ | _ | a <;> rcases b with _ | _ | _ | b <;>
    simp only [Gen.Conn.kBFxcte22, Nat.zero_add, Nat.reduceAdd] <;> first
    | rfl
    | (simp only [Gen.Conn.kBFxcte22_00, Gen.Conn.kBFxcte22_11, Gen.Conn.kBFxcte22_22, hI.ff i k, hI.ff j l, hI.fpfp i k, hI.fpfp j l, hI.fppfpp i k, hI.fppfpp j l]; try ring1)
    | (simp only [Gen.Conn.kBFxcte22_00, Gen.Conn.kBFxcte22_11, Gen.Conn.kBFxcte22_22]; try ring1)

set_option maxHeartbeats 1000000 in
theorem kBFycte11_swap {I : Tab K} (hI : I.Sym) (S : Shape K) (P1 : Panel K) (kr kt x1 : K) (m n : ℕ) : SwapSym m n (Gen.Conn.kBFycte11 S I P1 kr kt x1) := by
  intro i k j l a b _ _ _ _
  rcases a with _ | _ | _ | a <;> rcases b with _ | _ | _ | b <;>
    simp only [Gen.Conn.kBFycte11, Nat.zero_add, Nat.reduceAdd] <;> first
    | rfl
    | (simp only [Gen.Conn.kBFycte11_00, Gen.Conn.kBFycte11_11, Gen.Conn.kBFycte11_22, hI.ff i k, hI.ff j l, hI.fpfp i k, hI.fpfp j l, hI.fppfpp i k, hI.fppfpp j l]; try ring1)
    | (simp only [Gen.Conn.kBFycte11_00, Gen.Conn.kBFycte11_11, Gen.Conn.kBFycte11_22]; try ring1)

set_option maxHeartbeats 1000000 in
theorem kBFycte22_swap {I : Tab K} (hI : I.Sym) (S : Shape K) (P1 P2 : Panel K) (kr kt x2 : K) (m n : ℕ) : SwapSym m n (Gen.Conn.kBFycte22 S I P1 P2 kr kt x2) := by
  intro i k j l a b _ _ _ _
  rcases a with _ | _ | _ | a <;> rcases b with _ | _ | _ | b <;>
    simp only [Gen.Conn.kBFycte22, Nat.zero_add, Nat.reduceAdd] <;> first
    | rfl
    | (simp only [Gen.Conn.kBFycte22_00, Gen.Conn.kBFycte22_11, Gen.Conn.kBFycte22_22, hI.ff i k, hI.ff j l, hI.fpfp i k, hI.fpfp j l, hI.fppfpp i k, hI.fppfpp j l]; try ring1)
    | (simp only [Gen.Conn.kBFycte22_00, Gen.Conn.kBFycte22_11, Gen.Conn.kBFycte22_22]; try ring1)

set_option maxHeartbeats 1000000 in
theorem kSB11_swap {I : Tab K} (hI : I.Sym) (P1 : Panel K) (dsb kt : K) (m n : ℕ) : SwapSym m n (Gen.Conn.kSB11 I P1 dsb kt) := by
  intro i k j l a b _ _ _ _
  rcases a with _ | _ | _ | a <;> rcases b with _ | _ | _ | b <;>
    simp only [Gen.Conn.kSB11, Nat.zero_add, Nat.reduceAdd] <;> first
    | rfl
    | (simp only [Gen.Conn.kSB11_00, Gen.Conn.kSB11_02, Gen.Conn.kSB11_11, Gen.Conn.kSB11_12, Gen.Conn.kSB11_20, Gen.Conn.kSB11_21, Gen.Conn.kSB11_22, hI.ff i k, hI.ff j l, hI.fpfp i k, hI.fpfp j l, hI.fppfpp i k, hI.fppfpp j l]; try ring1)
    | (simp only [Gen.Conn.kSB11_00, Gen.Conn.kSB11_02, Gen.Conn.kSB11_11, Gen.Conn.kSB11_12, Gen.Conn.kSB11_20, Gen.Conn.kSB11_21, Gen.Conn.kSB11_22]; try ring1)

set_option maxHeartbeats 1000000 in
theorem kSB22_swap {I : Tab K} (hI : I.Sym) (P1 P2 : Panel K) (kt : K) (m n : ℕ) : SwapSym m n (Gen.Conn.kSB22 I P1 P2 kt) := by
  intro i k j l a b _ _ _ _
  rcases a with _ | _ | _ | a <;> rcases b with _ | _ | _ | b <;>
    simp only [Gen.Conn.kSB22, Nat.zero_add, Nat.reduceAdd] <;> first
    | rfl
    | (simp only [Gen.Conn.kSB22_00, Gen.Conn.kSB22_11, Gen.Conn.kSB22_22, hI.ff i k, hI.ff j l, hI.fpfp i k, hI.fpfp j l, hI.fppfpp i k, hI.fppfpp j l]; try ring1)
    | (simp only [Gen.Conn.kSB22_00, Gen.Conn.kSB22_11, Gen.Conn.kSB22_22]; try ring1)

set_option maxHeartbeats 1000000 in
theorem fkCpd_swap (S : Shape K) (P : Panel K) (ku kv kw xp yp : K) (m n : ℕ) : SwapSym m n (Gen.Pd.fkCpd S P ku kv kw xp yp) := by
  intro i k j l a b _ _ _ _
  rcases a with _ | _ | _ | a <;> rcases b with _ | _ | _ | b <;>
    simp only [Gen.Pd.fkCpd, Nat.zero_add, Nat.reduceAdd] <;> first
    | rfl
    | (simp only [Gen.Pd.fkCpd_00, Gen.Pd.fkCpd_11, Gen.Pd.fkCpd_22]; try ring1)
    | (simp only [Gen.Pd.fkCpd_00, Gen.Pd.fkCpd_11, Gen.Pd.fkCpd_22]; try ring1)

set_option maxHeartbeats 1000000 in
theorem fkCf_swap {I : Tab K} (hI : I.Sym) (S : Shape K) (P : Panel K) (ha : P.a ≠ 0) (E1 F1 Jxx S1 bf df ys : K) (m n : ℕ) : SwapSym m n (Gen.Blade1D.fkCf S I P E1 F1 Jxx S1 bf df ys) := by
  intro i k j l a b _ _ _ _
  rcases a with _ | _ | _ | a <;> rcases b with _ | _ | _ | b <;>
    simp only [Gen.Blade1D.fkCf, Nat.zero_add, Nat.reduceAdd] <;> first
    | rfl
    | (simp only [Gen.Blade1D.fkCf_00, Gen.Blade1D.fkCf_02, Gen.Blade1D.fkCf_20, Gen.Blade1D.fkCf_22, hI.ff i k, hI.ff j l, hI.fpfp i k, hI.fpfp j l, hI.fppfpp i k, hI.fppfpp j l]; field_simp; try ring1)
    | (simp only [Gen.Blade1D.fkCf_00, Gen.Blade1D.fkCf_02, Gen.Blade1D.fkCf_20, Gen.Blade1D.fkCf_22]; field_simp; try ring1)

set_option maxHeartbeats 1000000 in
theorem fkGf_swap {I : Tab K} (hI : I.Sym) (S : Shape K) (P : Panel K) (Fx ys : K) (m n : ℕ) : SwapSym m n (Gen.Blade1D.fkGf S I P Fx ys) := by
  intro i k j l a b _ _ _ _
  rcases a with _ | _ | _ | a <;> rcases b with _ | _ | _ | b <;>
    simp only [Gen.Blade1D.fkGf, Nat.zero_add, Nat.reduceAdd] <;> first
    | rfl
    | (simp only [Gen.Blade1D.fkGf_22, hI.ff i k, hI.ff j l, hI.fpfp i k, hI.fpfp j l, hI.fppfpp i k, hI.fppfpp j l]; try ring1)
    | (simp only [Gen.Blade1D.fkGf_22]; try ring1)

set_option maxHeartbeats 1000000 in
theorem fkMf_swap {I : Tab K} (hI : I.Sym) (S : Shape K) (P : Panel K) (bf df h hb hf rho ys : K) (m n : ℕ) : SwapSym m n (Gen.Blade1D.fkMf S I P bf df h hb hf rho ys) := by
  intro i k j l a b _ _ _ _
  rcases a with _ | _ | _ | a <;> rcases b with _ | _ | _ | b <;>
    simp only [Gen.Blade1D.fkMf, Nat.zero_add, Nat.reduceAdd] <;> first
    | rfl
    | (simp only [Gen.Blade1D.fkMf_00, Gen.Blade1D.fkMf_02, Gen.Blade1D.fkMf_11, Gen.Blade1D.fkMf_12, Gen.Blade1D.fkMf_20, Gen.Blade1D.fkMf_21, Gen.Blade1D.fkMf_22, hI.ff i k, hI.ff j l, hI.fpfp i k, hI.fpfp j l, hI.fppfpp i k, hI.fppfpp j l]; try ring1)
    | (simp only [Gen.Blade1D.fkMf_00, Gen.Blade1D.fkMf_02, Gen.Blade1D.fkMf_11, Gen.Blade1D.fkMf_12, Gen.Blade1D.fkMf_20, Gen.Blade1D.fkMf_21, Gen.Blade1D.fkMf_22]; try ring1)

set_option maxHeartbeats 1000000 in
theorem fkCss_swap {I : Tab K} (hI : I.Sym) (S : Shape K) (P : Panel K) (kr kt ys : K) (m n : ℕ) : SwapSym m n (Gen.Blade2D.fkCss S I P kr kt ys) := by
  intro i k j l a b _ _ _ _
  rcases a with _ | _ | _ | a <;> rcases b with _ | _ | _ | b <;>
    simp only [Gen.Blade2D.fkCss, Nat.zero_add, Nat.reduceAdd] <;> first
    | rfl
    | (simp only [Gen.Blade2D.fkCss_00, Gen.Blade2D.fkCss_11, Gen.Blade2D.fkCss_22, hI.ff i k, hI.ff j l, hI.fpfp i k, hI.fpfp j l, hI.fppfpp i k, hI.fppfpp j l]; try ring1)
    | (simp only [Gen.Blade2D.fkCss_00, Gen.Blade2D.fkCss_11, Gen.Blade2D.fkCss_22]; try ring1)

set_option maxHeartbeats 1000000 in
theorem fkCff_swap {I : Tab K} (hI : I.Sym) (S : Shape K) (P Pf : Panel K) (bf kr kt : K) (m n : ℕ) : SwapSym m n (Gen.Blade2D.fkCff S I P Pf bf kr kt) := by
  intro i k j l a b _ _ _ _
  rcases a with _ | _ | _ | a <;> rcases b with _ | _ | _ | b <;>
    simp only [Gen.Blade2D.fkCff, Nat.zero_add, Nat.reduceAdd] <;> first
    | rfl
    | (simp only [Gen.Blade2D.fkCff_00, Gen.Blade2D.fkCff_11, Gen.Blade2D.fkCff_22, hI.ff i k, hI.ff j l, hI.fpfp i k, hI.fpfp j l, hI.fppfpp i k, hI.fppfpp j l]; try ring1)
    | (simp only [Gen.Blade2D.fkCff_00, Gen.Blade2D.fkCff_11, Gen.Blade2D.fkCff_22]; try ring1)

end Verif
