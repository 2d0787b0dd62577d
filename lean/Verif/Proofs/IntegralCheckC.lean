import Verif.Proofs.IntegralCheck

/-!
# Kernel evaluation of the checker
-/

set_option maxRecDepth 100000

namespace Verif.IntCheck

open Spec

theorem fpfpp_ok : chkAll Gen.i_fpfpp (fun i => pder (bardell i)) (fun i => pder (pder (bardell i))) = true := by decide +kernel

theorem fppfpp_ok : chkAll Gen.i_fppfpp (fun i => pder (pder (bardell i))) (fun i => pder (pder (bardell i))) = true := by decide +kernel

end Verif.IntCheck
