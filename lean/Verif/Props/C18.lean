import Verif.Props.C15
/-!
# C18: formatting a number with unsupported country code
-/
namespace Verif.Props
open Spec

/-- Every format other than E164 returns exactly the national significant number. -/
theorem C18_nsn (C : Container) (n : PhoneNumber) (hcc : C.hasCC n.cc = false) (hraw : ¬ (n.nn = 0 ∧ n.raw ≠ [])) (f : Fmt)
    (hf : f ≠ .e164) : format C n f = nsnOf n := by
  simp [format, if_neg hraw, formatCore, hf, hcc]

/-- E164 still writes the country code. -/
theorem C18_e164 (C : Container) (n : PhoneNumber) (hcc : 0 ≤ n.cc) (_ : C.hasCC n.cc = false) (hraw : ¬ (n.nn = 0 ∧ n.raw ≠ [])) :
    format C n .e164 = '+'.toNat :: (decimal n.cc.toNat ++ nsnOf n) := C15_shape C n hcc hraw

/-- The carrier-code and out-of-country variants return the national significant number too. -/
theorem C18_variants (C : Container) (n : PhoneNumber) (hcc : C.hasCC n.cc = false) (carrier from_ : Str) (user : List NumberFormat)
    (f : Fmt) (hr : C.validRegion from_ = true) :
    formatWithCarrier C n carrier = nsnOf n ∧ formatByPattern C n f user = nsnOf n ∧ formatOutOfCountry C n from_ = nsnOf n := by
  simp [formatWithCarrier, formatByPattern, formatOutOfCountry, hcc, hr]

example : Data.container.hasCC 999 = false := by kernel_rfl
example : format Data.container { countryCode := some 999, nationalNumber := some 123456, extension := some (str!"1") } .international
    = str!"123456" := by kernel_rfl
example : format Data.container { countryCode := some 999, nationalNumber := some 123456 } .e164 = str!"+999123456" := by kernel_rfl

end Verif.Props
