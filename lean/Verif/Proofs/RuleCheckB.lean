import Verif.Proofs.RuleCheck

/-!
# Kernel evaluation of the checker
-/

set_option maxRecDepth 100000

namespace Verif.RuleCheck

theorem ffp_ok : chkAll Gen.i_ffp (lst Gen.sc_f) (lst Gen.sc_fp) = true := by decide +kernel
theorem ffpp_ok : chkAll Gen.i_ffpp (lst Gen.sc_f) (lst Gen.sc_fpp) = true := by decide +kernel

end Verif.RuleCheck
