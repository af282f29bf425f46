import Verif.Lemmas.ApiTotal
import Verif.Props.C35
import Verif.Props.C36
import Verif.Props.C38
import Verif.Props.C40
import Verif.Props.C54
import Verif.Props.C61
import Verif.Props.C78
import Verif.Props.C81
import Verif.Props.C98
/-!
# C102: no call panics

The exceptions, outside of `Request`: nil pointers given as arguments, formats with invalid patterns given to `FormatByPattern`, and
the exported method `Verify` of the leniency levels on a number and a text that do not belong together (`C61_verify_panics`).
-/
namespace Verif.Props
open Verif Spec

/-- With the shipped metadata every call, whatever its arguments, returns. -/
theorem C102_returns (q : Request) : q.run Data.container Data.shortMap = .ok () := by
  cases q with
  | parse s r n => exact (ret_parseHelper ..).quiet
  | parseKeepRaw s r n => exact (ret_parseHelper ..).quiet
  | numberType n => exact (ret_type n).quiet
  | regionOf n => exact (ret_region n).quiet
  | isValid n => exact (ret_valid n).quiet
  | isValidIn n r => exact Ret.quiet (C27_total n r)
  | isPossible n => exact Ret.quiet (isPossibleNumber_ok n)
  | possibleReason n => exact (ret_possible n).quiet
  | isPossibleForType n t => exact ((ret_length n t).bind fun _ => Ret.pure _).quiet
  | possibleForTypeReason n t => exact (ret_length n t).quiet
  | isPossibleText s r => obtain ⟨b, h, -⟩ := C81_iff s r; exact Ret.quiet ⟨b, h⟩
  | truncate n => obtain ⟨b, m, h⟩ := C29_total n; exact Ret.quiet ⟨_, h⟩
  | dialledFromAbroad n => exact (ret_dialled n).quiet
  | isGeographical n => exact (ret_geographical n).quiet
  | lengthOfAreaCode n => exact (ret_area n).quiet
  | lengthOfDestinationCode n => exact (ret_ndc n).quiet
  | formatForMobile n r b => exact (ret_mobile n r b).quiet
  | formatInOriginal n r => exact (ret_original n r).quiet
  | matchOne n s => exact Ret.quiet (numberMatchOne_ok n s)
  | matchTexts s t => obtain ⟨m, h, -⟩ := C78_texts s t; exact Ret.quiet ⟨m, h⟩
  | example_ r => exact (ret_exampleIn r _).quiet
  | exampleOfTypeIn r t => exact (ret_exampleIn r t).quiet
  | exampleOfType rs cs t => exact (ret_exampleOfType rs cs t).quiet
  | exampleNonGeographical cc => exact (ret_nonGeo cc).quiet
  | invalidExample r =>
    obtain ⟨o, h, -⟩ := C54_invalid _ built_shipped Data.wf_tables Data.wf_allDescs Data.wf_generalLengths r
    exact Ret.quiet ⟨o, h⟩
  | find alt s r l k => obtain ⟨ms, c, h⟩ := C61_no_panic alt s r l k; exact Ret.quiet ⟨_, h⟩
  | typing r h =>
    obtain ⟨a, ha⟩ := C38_no_panic r h
    obtain ⟨p, hp, -⟩ := C40_inside _ r h a ha
    simp only [Request.run, ha]
    exact Ret.quiet ⟨p, hp⟩
  | carrier p n => exact (ret_carrier p n).quiet
  | carrierSafe p n => exact (ret_carrierSafe p n).quiet
  | descriptionOfValid d p n => exact (ret_describeValid d p n).quiet
  | descriptionOfValidFor d p n u => exact (ret_describeValidFor d p n u).quiet
  | description d p n => exact (ret_describe d p n).quiet
  | descriptionFor d p n u => exact (ret_describeFor d p n u).quiet
  | timeZones z n => exact (ret_zones z n).quiet
  | possibleShort n => obtain ⟨b, h, -⟩ := C36_possible_iff Data.container _ Data.wf_shortGeneral n; exact Ret.quiet ⟨b, h⟩
  | possibleShortIn n r => obtain ⟨b, h, -⟩ := C36_possible_region_iff Data.container _ Data.wf_shortGeneral n r; exact Ret.quiet ⟨b, h⟩
  | expectedCost n => exact Ret.quiet (C35_total Data.container _ Data.wf_shortGeneral n).2
  | expectedCostIn n r => exact Ret.quiet ((C35_total Data.container _ Data.wf_shortGeneral n).1 r)
  | command args => obtain ⟨o, st, h, -⟩ := C98_total args; exact Ret.quiet ⟨_, h⟩

/-- The theorem is about the metadata that is shipped: on a country without descriptions of its numbers the same calls panic. -/
theorem C102_needs_metadata : ∃ (C : Container) (n : PhoneNumber),
    newContainer [{ id := str!"GB", countryCode := 44 }] [(44, [str!"GB"])] = some C ∧
    (Request.numberType n).run C [] = .error .nilDeref ∧
    (Request.isValid n).run C [] = .error .nilDeref ∧ (Request.parse (str!"+44 20 7946 0958") [] {}).run C [] = .error .nilDeref :=
  ⟨(newContainer [{ id := str!"GB", countryCode := 44 }] [(44, [str!"GB"])]).get (by kernel_rfl),
    { countryCode := some 44, nationalNumber := some 2079460958 }, by kernel_rfl, by kernel_rfl, by kernel_rfl, by kernel_rfl⟩

/-! ## The requests are not trivial: what some of them return -/

example : formatInOriginal Data.container
    { countryCode := some 44, nationalNumber := some 2079460958, countryCodeSource := some .withoutPlusSign } (str!"GB") =
    .ok (str!"44 20 7946 0958") := by kernel_rfl
/-- A number no parser returns: no country code, a negative count of zeros. -/
example : formatInOriginal Data.container
    { nationalNumber := some 7, italianLeadingZero := some true, numberOfLeadingZeros := some (-3), countryCodeSource := some .withoutPlusSign }
    (str!"nowhere") = .ok [] := by kernel_rfl
example : formatForMobile Data.container { countryCode := some 1, nationalNumber := some 6502530000 } (str!"US") true =
    .ok (str!"+1 650-253-0000") := by kernel_rfl
example : exampleForType Data.container [str!"nowhere"] [12345, -7] .uan = .ok none := by kernel_rfl
example : possibleForTypeWithReason Data.container { countryCode := some (-5) } .voicemail = .ok .invalidCountryCode := by kernel_rfl

end Verif.Props
