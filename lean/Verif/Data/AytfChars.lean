import Verif.Data.AytfWf
import Verif.Lemmas.AytfChars
/-!
# The literal characters of the shipped formats
-/
namespace Verif.Data
open Spec Aytf

theorem wf_lits : container.allMeta.all litsOk = true := by kernel_rfl

theorem litsShipped : LitsOk container := by
  constructor
  · intro r
    have key : litsOk emptyMetadata = true := by decide +kernel
    unfold metaFor
    cases h : container.metaForRegion (container.mainRegion (container.ccForRegion r)) with
    | none => exact key
    | some m => exact List.all_eq_true.1 wf_lits m (Container.metaForRegion_mem h)
  · intro c
    have key : litsOk nilMetadata = true := by decide +kernel
    cases h : container.metaForNonGeo c with
    | none => exact key
    | some m => exact List.all_eq_true.1 wf_lits m (Container.metaForNonGeo_mem h)

end Verif.Data
