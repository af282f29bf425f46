import Verif.Spec.Regions
import Verif.Data.Shipped
import Verif.Lemmas.Fast
/-!
# The regions of the shared country codes of the shipped metadata
-/
namespace Verif
open Spec

theorem Data.wf_sharedCodes : sharedCodesOk Data.container = true := by
  simp only [sharedCodesOk, mapGet_str]
  kernel_rfl

end Verif
