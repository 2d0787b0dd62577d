import Verif.Proofs.IntegralCheck

/-!
# Kernel evaluation of the checker
-/

set_option maxRecDepth 100000

namespace Verif.IntCheck

open Spec

theorem ffp_ok : chkAll Gen.i_ffp bardell (fun i => pder (bardell i)) = true := by decide +kernel

theorem ffpp_ok : chkAll Gen.i_ffpp bardell (fun i => pder (pder (bardell i))) = true := by decide +kernel

end Verif.IntCheck
