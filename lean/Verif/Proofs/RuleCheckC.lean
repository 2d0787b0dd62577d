import Verif.Proofs.RuleCheck

/-!
# Kernel evaluation of the checker
-/

set_option maxRecDepth 100000

namespace Verif.RuleCheck

theorem fpfpp_ok : chkAll Gen.i_fpfpp (lst Gen.sc_fp) (lst Gen.sc_fpp) = true := by decide +kernel
theorem fppfpp_ok : chkAll Gen.i_fppfpp (lst Gen.sc_fpp) (lst Gen.sc_fpp) = true := by decide +kernel

end Verif.RuleCheck
