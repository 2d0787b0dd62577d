import Verif.Proofs.IntegralCheck

/-!
# Kernel evaluation of the checker
-/

set_option maxRecDepth 100000

namespace Verif.IntCheck

open Spec

theorem ff_ok : chkAll Gen.i_ff bardell bardell = true := by decide +kernel

theorem fpfp_ok : chkAll Gen.i_fpfp (fun i => pder (bardell i)) (fun i => pder (bardell i)) = true := by decide +kernel

end Verif.IntCheck
