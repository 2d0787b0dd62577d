import Verif.Gen.PlateAna
import Verif.Gen.CylAna
import Verif.Gen.PlateNum
import Verif.Gen.CylNum
import Verif.Gen.Conn
import Verif.Gen.Blade1D
import Verif.Gen.Blade2D

/-!
# Entries outside the listed pattern are not written
-/

namespace Verif

variable {K : Type*} [Field K]

theorem plateAna_fk0_zero (I : Tab K) (P : Panel K) (F : Lam K) (i k j l : ℕ) (α β : ℕ) (hp : (α, β) ∉ Gen.PlateAna.fk0_pat) :
    Gen.PlateAna.fk0 I P F i k j l α β = 0 := by
  unfold Gen.PlateAna.fk0
  split
  all_goals first | rfl | exact absurd (by decide) hp

theorem plateAna_fkG0_zero (I : Tab K) (P : Panel K) (Nxx Nxy Nyy : K) (i k j l : ℕ) (α β : ℕ) (hp : (α, β) ∉ Gen.PlateAna.fkG0_pat) :
    Gen.PlateAna.fkG0 I P Nxx Nxy Nyy i k j l α β = 0 := by
  unfold Gen.PlateAna.fkG0
  split
  all_goals first | rfl | exact absurd (by decide) hp

theorem plateAna_fkM_zero (I : Tab K) (P : Panel K) (d h rho : K) (i k j l : ℕ) (α β : ℕ) (hp : (α, β) ∉ Gen.PlateAna.fkM_pat) :
    Gen.PlateAna.fkM I P d h rho i k j l α β = 0 := by
  unfold Gen.PlateAna.fkM
  split
  all_goals first | rfl | exact absurd (by decide) hp

theorem plateAna_fkAx_zero (I : Tab K) (P : Panel K) (beta : K) (i k j l : ℕ) (α β : ℕ) (hp : (α, β) ∉ Gen.PlateAna.fkAx_pat) :
    Gen.PlateAna.fkAx I P beta i k j l α β = 0 := by
  unfold Gen.PlateAna.fkAx
  split
  all_goals first | rfl | exact absurd (by decide) hp

theorem plateAna_fkAy_zero (I : Tab K) (P : Panel K) (beta : K) (i k j l : ℕ) (α β : ℕ) (hp : (α, β) ∉ Gen.PlateAna.fkAy_pat) :
    Gen.PlateAna.fkAy I P beta i k j l α β = 0 := by
  unfold Gen.PlateAna.fkAy
  split
  all_goals first | rfl | exact absurd (by decide) hp

theorem plateAna_fcA_zero (I : Tab K) (P : Panel K) (aeromu : K) (i k j l : ℕ) (α β : ℕ) (hp : (α, β) ∉ Gen.PlateAna.fcA_pat) :
    Gen.PlateAna.fcA I P aeromu i k j l α β = 0 := by
  unfold Gen.PlateAna.fcA
  split
  all_goals first | rfl | exact absurd (by decide) hp

theorem cylAna_fk0_zero (I : Tab K) (P : Panel K) (F : Lam K) (i k j l : ℕ) (α β : ℕ) (hp : (α, β) ∉ Gen.CylAna.fk0_pat) :
    Gen.CylAna.fk0 I P F i k j l α β = 0 := by
  unfold Gen.CylAna.fk0
  split
  all_goals first | rfl | exact absurd (by decide) hp

theorem cylAna_fkG0_zero (I : Tab K) (P : Panel K) (Nxx Nxy Nyy : K) (i k j l : ℕ) (α β : ℕ) (hp : (α, β) ∉ Gen.CylAna.fkG0_pat) :
    Gen.CylAna.fkG0 I P Nxx Nxy Nyy i k j l α β = 0 := by
  unfold Gen.CylAna.fkG0
  split
  all_goals first | rfl | exact absurd (by decide) hp

theorem cylAna_fkM_zero (I : Tab K) (P : Panel K) (d h rho : K) (i k j l : ℕ) (α β : ℕ) (hp : (α, β) ∉ Gen.CylAna.fkM_pat) :
    Gen.CylAna.fkM I P d h rho i k j l α β = 0 := by
  unfold Gen.CylAna.fkM
  split
  all_goals first | rfl | exact absurd (by decide) hp

theorem cylAna_fkAx_zero (I : Tab K) (P : Panel K) (beta gamma : K) (i k j l : ℕ) (α β : ℕ) (hp : (α, β) ∉ Gen.CylAna.fkAx_pat) :
    Gen.CylAna.fkAx I P beta gamma i k j l α β = 0 := by
  unfold Gen.CylAna.fkAx
  split
  all_goals first | rfl | exact absurd (by decide) hp

theorem cylAna_fkAy_zero (I : Tab K) (P : Panel K) (beta : K) (i k j l : ℕ) (α β : ℕ) (hp : (α, β) ∉ Gen.CylAna.fkAy_pat) :
    Gen.CylAna.fkAy I P beta i k j l α β = 0 := by
  unfold Gen.CylAna.fkAy
  split
  all_goals first | rfl | exact absurd (by decide) hp

theorem cylAna_fcA_zero (I : Tab K) (P : Panel K) (aeromu : K) (i k j l : ℕ) (α β : ℕ) (hp : (α, β) ∉ Gen.CylAna.fcA_pat) :
    Gen.CylAna.fcA I P aeromu i k j l α β = 0 := by
  unfold Gen.CylAna.fcA
  split
  all_goals first | rfl | exact absurd (by decide) hp

theorem plateNum_fkC_num_zero (S : Shape K) (P : Panel K) (F : Lam K) (eta intx inty weight weta wxi xi : K) (i k j l : ℕ) (α β : ℕ) (hp : (α, β) ∉ Gen.PlateNum.fkC_num_pat) :
    Gen.PlateNum.fkC_num S P F eta intx inty weight weta wxi xi i k j l α β = 0 := by
  unfold Gen.PlateNum.fkC_num
  split
  all_goals first | rfl | exact absurd (by decide) hp

theorem plateNum_fkG_num_zero (S : Shape K) (P : Panel K) (Nxx Nxy Nyy eta intx inty weight xi : K) (i k j l : ℕ) (α β : ℕ) (hp : (α, β) ∉ Gen.PlateNum.fkG_num_pat) :
    Gen.PlateNum.fkG_num S P Nxx Nxy Nyy eta intx inty weight xi i k j l α β = 0 := by
  unfold Gen.PlateNum.fkG_num
  split
  all_goals first | rfl | exact absurd (by decide) hp

theorem plateNum_fkM_num_zero (S : Shape K) (P : Panel K) (d eta h intx inty rho weight xi : K) (i k j l : ℕ) (α β : ℕ) (hp : (α, β) ∉ Gen.PlateNum.fkM_num_pat) :
    Gen.PlateNum.fkM_num S P d eta h intx inty rho weight xi i k j l α β = 0 := by
  unfold Gen.PlateNum.fkM_num
  split
  all_goals first | rfl | exact absurd (by decide) hp

theorem plateNum_fkAx_num_zero (S : Shape K) (P : Panel K) (beta eta gamma intx inty weight xi : K) (i k j l : ℕ) (α β : ℕ) (hp : (α, β) ∉ Gen.PlateNum.fkAx_num_pat) :
    Gen.PlateNum.fkAx_num S P beta eta gamma intx inty weight xi i k j l α β = 0 := by
  unfold Gen.PlateNum.fkAx_num
  split
  all_goals first | rfl | exact absurd (by decide) hp

theorem plateNum_fkAy_num_zero (S : Shape K) (P : Panel K) (beta eta intx inty weight xi : K) (i k j l : ℕ) (α β : ℕ) (hp : (α, β) ∉ Gen.PlateNum.fkAy_num_pat) :
    Gen.PlateNum.fkAy_num S P beta eta intx inty weight xi i k j l α β = 0 := by
  unfold Gen.PlateNum.fkAy_num
  split
  all_goals first | rfl | exact absurd (by decide) hp

theorem cylNum_fkC_num_zero (S : Shape K) (P : Panel K) (F : Lam K) (eta intx inty weight weta wxi xi : K) (i k j l : ℕ) (α β : ℕ) (hp : (α, β) ∉ Gen.CylNum.fkC_num_pat) :
    Gen.CylNum.fkC_num S P F eta intx inty weight weta wxi xi i k j l α β = 0 := by
  unfold Gen.CylNum.fkC_num
  split
  all_goals first | rfl | exact absurd (by decide) hp

theorem cylNum_fkG_num_zero (S : Shape K) (P : Panel K) (Nxx Nxy Nyy eta intx inty weight xi : K) (i k j l : ℕ) (α β : ℕ) (hp : (α, β) ∉ Gen.CylNum.fkG_num_pat) :
    Gen.CylNum.fkG_num S P Nxx Nxy Nyy eta intx inty weight xi i k j l α β = 0 := by
  unfold Gen.CylNum.fkG_num
  split
  all_goals first | rfl | exact absurd (by decide) hp

theorem cylNum_fkAx_num_zero (S : Shape K) (P : Panel K) (beta eta gamma intx inty weight xi : K) (i k j l : ℕ) (α β : ℕ) (hp : (α, β) ∉ Gen.CylNum.fkAx_num_pat) :
    Gen.CylNum.fkAx_num S P beta eta gamma intx inty weight xi i k j l α β = 0 := by
  unfold Gen.CylNum.fkAx_num
  split
  all_goals first | rfl | exact absurd (by decide) hp

theorem conn_kSSxcte11_zero (S : Shape K) (I : Tab K) (P1 : Panel K) (kr kt xcte1 : K) (i1 k1 j1 l1 : ℕ) (α β : ℕ) (hp : (α, β) ∉ Gen.Conn.kSSxcte11_pat) :
    Gen.Conn.kSSxcte11 S I P1 kr kt xcte1 i1 k1 j1 l1 α β = 0 := by
  unfold Gen.Conn.kSSxcte11
  split
  all_goals first | rfl | exact absurd (by decide) hp

theorem conn_kSSxcte12_zero (S : Shape K) (I : Tab K) (P1 P2 : Panel K) (kr kt xcte1 xcte2 : K) (i1 k2 j1 l2 : ℕ) (α β : ℕ) (hp : (α, β) ∉ Gen.Conn.kSSxcte12_pat) :
    Gen.Conn.kSSxcte12 S I P1 P2 kr kt xcte1 xcte2 i1 k2 j1 l2 α β = 0 := by
  unfold Gen.Conn.kSSxcte12
  split
  all_goals first | rfl | exact absurd (by decide) hp

theorem conn_kSSxcte22_zero (S : Shape K) (I : Tab K) (P1 P2 : Panel K) (kr kt xcte2 : K) (i2 k2 j2 l2 : ℕ) (α β : ℕ) (hp : (α, β) ∉ Gen.Conn.kSSxcte22_pat) :
    Gen.Conn.kSSxcte22 S I P1 P2 kr kt xcte2 i2 k2 j2 l2 α β = 0 := by
  unfold Gen.Conn.kSSxcte22
  split
  all_goals first | rfl | exact absurd (by decide) hp

theorem conn_kSSycte11_zero (S : Shape K) (I : Tab K) (P1 : Panel K) (kr kt ycte1 : K) (i1 k1 j1 l1 : ℕ) (α β : ℕ) (hp : (α, β) ∉ Gen.Conn.kSSycte11_pat) :
    Gen.Conn.kSSycte11 S I P1 kr kt ycte1 i1 k1 j1 l1 α β = 0 := by
  unfold Gen.Conn.kSSycte11
  split
  all_goals first | rfl | exact absurd (by decide) hp

theorem conn_kSSycte12_zero (S : Shape K) (I : Tab K) (P1 P2 : Panel K) (kr kt ycte1 ycte2 : K) (i1 k2 j1 l2 : ℕ) (α β : ℕ) (hp : (α, β) ∉ Gen.Conn.kSSycte12_pat) :
    Gen.Conn.kSSycte12 S I P1 P2 kr kt ycte1 ycte2 i1 k2 j1 l2 α β = 0 := by
  unfold Gen.Conn.kSSycte12
  split
  all_goals first | rfl | exact absurd (by decide) hp

theorem conn_kSSycte22_zero (S : Shape K) (I : Tab K) (P1 P2 : Panel K) (kr kt ycte2 : K) (i2 k2 j2 l2 : ℕ) (α β : ℕ) (hp : (α, β) ∉ Gen.Conn.kSSycte22_pat) :
    Gen.Conn.kSSycte22 S I P1 P2 kr kt ycte2 i2 k2 j2 l2 α β = 0 := by
  unfold Gen.Conn.kSSycte22
  split
  all_goals first | rfl | exact absurd (by decide) hp

theorem conn_kBFxcte11_zero (S : Shape K) (I : Tab K) (P1 : Panel K) (kr kt xcte1 : K) (i1 k1 j1 l1 : ℕ) (α β : ℕ) (hp : (α, β) ∉ Gen.Conn.kBFxcte11_pat) :
    Gen.Conn.kBFxcte11 S I P1 kr kt xcte1 i1 k1 j1 l1 α β = 0 := by
  unfold Gen.Conn.kBFxcte11
  split
  all_goals first | rfl | exact absurd (by decide) hp

theorem conn_kBFxcte12_zero (S : Shape K) (I : Tab K) (P1 P2 : Panel K) (kr kt xcte1 xcte2 : K) (i1 k2 j1 l2 : ℕ) (α β : ℕ) (hp : (α, β) ∉ Gen.Conn.kBFxcte12_pat) :
    Gen.Conn.kBFxcte12 S I P1 P2 kr kt xcte1 xcte2 i1 k2 j1 l2 α β = 0 := by
  unfold Gen.Conn.kBFxcte12
  split
  all_goals first | rfl | exact absurd (by decide) hp

theorem conn_kBFxcte22_zero (S : Shape K) (I : Tab K) (P1 P2 : Panel K) (kr kt xcte2 : K) (i2 k2 j2 l2 : ℕ) (α β : ℕ) (hp : (α, β) ∉ Gen.Conn.kBFxcte22_pat) :
    Gen.Conn.kBFxcte22 S I P1 P2 kr kt xcte2 i2 k2 j2 l2 α β = 0 := by
  unfold Gen.Conn.kBFxcte22
  split
  all_goals first | rfl | exact absurd (by decide) hp

theorem conn_kBFycte11_zero (S : Shape K) (I : Tab K) (P1 : Panel K) (kr kt ycte1 : K) (i1 k1 j1 l1 : ℕ) (α β : ℕ) (hp : (α, β) ∉ Gen.Conn.kBFycte11_pat) :
    Gen.Conn.kBFycte11 S I P1 kr kt ycte1 i1 k1 j1 l1 α β = 0 := by
  unfold Gen.Conn.kBFycte11
  split
  all_goals first | rfl | exact absurd (by decide) hp

theorem conn_kBFycte12_zero (S : Shape K) (I : Tab K) (P1 P2 : Panel K) (kr kt ycte1 ycte2 : K) (i1 k2 j1 l2 : ℕ) (α β : ℕ) (hp : (α, β) ∉ Gen.Conn.kBFycte12_pat) :
    Gen.Conn.kBFycte12 S I P1 P2 kr kt ycte1 ycte2 i1 k2 j1 l2 α β = 0 := by
  unfold Gen.Conn.kBFycte12
  split
  all_goals first | rfl | exact absurd (by decide) hp

theorem conn_kBFycte22_zero (S : Shape K) (I : Tab K) (P1 P2 : Panel K) (kr kt ycte2 : K) (i2 k2 j2 l2 : ℕ) (α β : ℕ) (hp : (α, β) ∉ Gen.Conn.kBFycte22_pat) :
    Gen.Conn.kBFycte22 S I P1 P2 kr kt ycte2 i2 k2 j2 l2 α β = 0 := by
  unfold Gen.Conn.kBFycte22
  split
  all_goals first | rfl | exact absurd (by decide) hp

theorem conn_kSB11_zero (I : Tab K) (P1 : Panel K) (dsb kt : K) (i1 k1 j1 l1 : ℕ) (α β : ℕ) (hp : (α, β) ∉ Gen.Conn.kSB11_pat) :
    Gen.Conn.kSB11 I P1 dsb kt i1 k1 j1 l1 α β = 0 := by
  unfold Gen.Conn.kSB11
  split
  all_goals first | rfl | exact absurd (by decide) hp

theorem conn_kSB12_zero (I : Tab K) (P1 P2 : Panel K) (dsb kt : K) (i1 k2 j1 l2 : ℕ) (α β : ℕ) (hp : (α, β) ∉ Gen.Conn.kSB12_pat) :
    Gen.Conn.kSB12 I P1 P2 dsb kt i1 k2 j1 l2 α β = 0 := by
  unfold Gen.Conn.kSB12
  split
  all_goals first | rfl | exact absurd (by decide) hp

theorem conn_kSB22_zero (I : Tab K) (P1 P2 : Panel K) (kt : K) (i2 k2 j2 l2 : ℕ) (α β : ℕ) (hp : (α, β) ∉ Gen.Conn.kSB22_pat) :
    Gen.Conn.kSB22 I P1 P2 kt i2 k2 j2 l2 α β = 0 := by
  unfold Gen.Conn.kSB22
  split
  all_goals first | rfl | exact absurd (by decide) hp

theorem blade1D_fkCf_zero (S : Shape K) (I : Tab K) (P : Panel K) (E1 F1 Jxx S1 bf df ys : K) (i k j l : ℕ) (α β : ℕ) (hp : (α, β) ∉ Gen.Blade1D.fkCf_pat) :
    Gen.Blade1D.fkCf S I P E1 F1 Jxx S1 bf df ys i k j l α β = 0 := by
  unfold Gen.Blade1D.fkCf
  split
  all_goals first | rfl | exact absurd (by decide) hp

theorem blade1D_fkGf_zero (S : Shape K) (I : Tab K) (P : Panel K) (Fx ys : K) (i k j l : ℕ) (α β : ℕ) (hp : (α, β) ∉ Gen.Blade1D.fkGf_pat) :
    Gen.Blade1D.fkGf S I P Fx ys i k j l α β = 0 := by
  unfold Gen.Blade1D.fkGf
  split
  all_goals first | rfl | exact absurd (by decide) hp

theorem blade1D_fkMf_zero (S : Shape K) (I : Tab K) (P : Panel K) (bf df h hb hf rho ys : K) (i k j l : ℕ) (α β : ℕ) (hp : (α, β) ∉ Gen.Blade1D.fkMf_pat) :
    Gen.Blade1D.fkMf S I P bf df h hb hf rho ys i k j l α β = 0 := by
  unfold Gen.Blade1D.fkMf
  split
  all_goals first | rfl | exact absurd (by decide) hp

theorem blade2D_fkCss_zero (S : Shape K) (I : Tab K) (P : Panel K) (kr kt ys : K) (i k j l : ℕ) (α β : ℕ) (hp : (α, β) ∉ Gen.Blade2D.fkCss_pat) :
    Gen.Blade2D.fkCss S I P kr kt ys i k j l α β = 0 := by
  unfold Gen.Blade2D.fkCss
  split
  all_goals first | rfl | exact absurd (by decide) hp

theorem blade2D_fkCsf_zero (S : Shape K) (I : Tab K) (P Pf : Panel K) (bf kr kt ys : K) (i k1 j l1 : ℕ) (α β : ℕ) (hp : (α, β) ∉ Gen.Blade2D.fkCsf_pat) :
    Gen.Blade2D.fkCsf S I P Pf bf kr kt ys i k1 j l1 α β = 0 := by
  unfold Gen.Blade2D.fkCsf
  split
  all_goals first | rfl | exact absurd (by decide) hp

theorem blade2D_fkCff_zero (S : Shape K) (I : Tab K) (P Pf : Panel K) (bf kr kt : K) (i1 k1 j1 l1 : ℕ) (α β : ℕ) (hp : (α, β) ∉ Gen.Blade2D.fkCff_pat) :
    Gen.Blade2D.fkCff S I P Pf bf kr kt i1 k1 j1 l1 α β = 0 := by
  unfold Gen.Blade2D.fkCff
  split
  all_goals first | rfl | exact absurd (by decide) hp

end Verif
