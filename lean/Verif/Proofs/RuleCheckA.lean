import Verif.Proofs.RuleCheck

/-!
# Kernel evaluation of the checker
-/

set_option maxRecDepth 100000

namespace Verif.RuleCheck

theorem row_f : rowOK Gen.sc_f = true := by decide +kernel
theorem row_fp : rowOK Gen.sc_fp = true := by decide +kernel
theorem row_fpp : rowOK Gen.sc_fpp = true := by decide +kernel

theorem ff_ok : chkAll Gen.i_ff (lst Gen.sc_f) (lst Gen.sc_f) = true := by decide +kernel
theorem fpfp_ok : chkAll Gen.i_fpfp (lst Gen.sc_fp) (lst Gen.sc_fp) = true := by decide +kernel

end Verif.RuleCheck
