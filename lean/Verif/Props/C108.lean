import Verif.Model.IntEnums
import Verif.Lemmas.ApiTotal
/-!
# C108: formats and types that are none of the named ones

`PhoneNumberFormat` and `PhoneNumberType` are integers, so a caller can pass any integer.
-/
namespace Verif

theorem prefixInt_code (cc : Int) (f : Fmt) (s : Str) : prefixWithCCInt cc f.code s = prefixWithCC cc f s := by
  cases f <;> rfl

theorem fmt_national (f : Fmt) : f.code = 2 ↔ f = .national := by cases f <;> decide

theorem fmt_rfc (f : Fmt) : f.code = 3 ↔ f = .rfc3966 := by cases f <;> decide

theorem fmt_e164 (f : Fmt) : f.code = 0 ↔ f = .e164 := by cases f <;> decide

theorem usingInt_code (nsn : Str) (p : NumberFormat) (f : Fmt) (c : Str) :
    formatNsnUsingPatternInt nsn p f.code c = formatNsnUsingPattern nsn p f c := by
  simp only [formatNsnUsingPatternInt, formatNsnUsingPattern, fmt_national, fmt_rfc]

theorem nsnInt_code (nsn : Str) (m : Option Metadata) (f : Fmt) (c : Str) : formatNsnInt nsn m f.code c = formatNsn nsn m f c := by
  cases m <;> simp only [formatNsnInt, formatNsn, usingInt_code, fmt_national] <;> rfl

theorem extInt_code (n : PhoneNumber) (m : Option Metadata) (f : Fmt) (s : Str) :
    appendExtensionInt n m f.code s = appendExtension n m f s := by
  cases m <;> simp only [appendExtensionInt, appendExtension, fmt_rfc]

/-- What a value that is none of the named formats does to the national significant number is what INTERNATIONAL does. -/
theorem usingInt_other (nsn : Str) (p : NumberFormat) {k : Int} (h2 : k ≠ 2) (h3 : k ≠ 3) (c : Str) :
    formatNsnUsingPatternInt nsn p k c = formatNsnUsingPattern nsn p .international c := by
  simp [formatNsnUsingPatternInt, formatNsnUsingPattern, h2, h3]

theorem nsnInt_other (nsn : Str) (m : Option Metadata) {k : Int} (h2 : k ≠ 2) (h3 : k ≠ 3) (c : Str) :
    formatNsnInt nsn m k c = formatNsn nsn m .international c := by
  cases m <;> simp [formatNsnInt, formatNsn, usingInt_other _ _ h2 h3, h2] <;> rfl

theorem extInt_other (n : PhoneNumber) (m : Option Metadata) {k : Int} (h3 : k ≠ 3) (s : Str) :
    appendExtensionInt n m k s = appendExtension n m .international s := by
  cases m <;> simp [appendExtensionInt, appendExtension, h3]

theorem descInt_code (m : Option Metadata) (t : NumType) : descByTypeInt m t.code = descByType m t := by
  cases m <;> cases t <;> rfl

theorem descInt_other (m : Option Metadata) {k : Int} (h : ∀ t : NumType, k ≠ t.code) : descByTypeInt m k = descByType m .unknown := by
  cases m with
  | none => rfl
  | some m =>
    have := h .fixedLine; have := h .mobile; have := h .fixedLineOrMobile; have := h .tollFree; have := h .premiumRate
    have := h .sharedCost; have := h .voip; have := h .personalNumber; have := h .pager; have := h .uan; have := h .voicemail
    simp only [NumType.code] at *
    simp [descByTypeInt, descByType, *]

namespace Props

/-- The functions on integers are, on the values of the named constants, the functions the other properties are about. -/
theorem C108_named (C : Container) (n : PhoneNumber) :
    (∀ f : Fmt, formatInt C n f.code = format C n f) ∧
    (∀ (f : Fmt) user, formatByPatternInt C n f.code user = formatByPattern C n f user) ∧
    (∀ t : NumType, possibleForTypeInt C n t.code = possibleForTypeWithReason C n t) := by
  refine ⟨fun f => ?_, fun f user => ?_, fun t => ?_⟩
  · simp only [formatInt, format, formatCore, fmt_e164, prefixInt_code, extInt_code, nsnInt_code]
    rfl
  · simp only [formatByPatternInt, formatByPattern, prefixInt_code, extInt_code, usingInt_code]
    cases chooseFormat user (nsnOf n) <;> cases C.metaFor n.cc (C.mainRegion n.cc) <;> rfl
  · simp only [possibleForTypeInt, possibleForTypeWithReason, testNumberLengthInt, testNumberLength, testNumberLengthSimple, descInt_code]
    cases t <;> rfl

/-- A number with a known country calling code, formatted with a value that is none of the named formats, is the INTERNATIONAL form
without the plus sign, the country calling code and the space. -/
theorem C108_format (C : Container) (n : PhoneNumber) (k : Int) (hk : ∀ f : Fmt, k ≠ f.code) (hcc : C.hasCC n.cc = true)
    (hraw : ¬ (n.nn = 0 ∧ n.raw ≠ [])) :
    format C n .international = 43 :: (decInt n.cc ++ 32 :: formatInt C n k) := by
  have h0 : k ≠ 0 := hk .e164
  have h1 : k ≠ 1 := hk .international
  have h2 : k ≠ 2 := hk .national
  have h3 : k ≠ 3 := hk .rfc3966
  simp [formatInt, format, formatCore, hraw, hcc, h0, prefixWithCCInt, h1, h3, extInt_other _ _ h3, nsnInt_other _ _ h2 h3, prefixWithCC]

/-- The same with rules given by the caller. -/
theorem C108_pattern (C : Container) (n : PhoneNumber) (user : List NumberFormat) (k : Int) (hk : ∀ f : Fmt, k ≠ f.code)
    (hcc : C.hasCC n.cc = true) :
    formatByPattern C n .international user = 43 :: (decInt n.cc ++ 32 :: formatByPatternInt C n k user) := by
  have h0 : k ≠ 0 := hk .e164
  have h1 : k ≠ 1 := hk .international
  have h2 : k ≠ 2 := hk .national
  have h3 : k ≠ 3 := hk .rfc3966
  simp [formatByPatternInt, formatByPattern, hcc, prefixWithCCInt, h0, h1, h3, extInt_other _ _ h3, usingInt_other _ _ h2 h3, prefixWithCC]
  cases chooseFormat user (nsnOf n) <;> cases C.metaFor n.cc (C.mainRegion n.cc) <;> rfl

/-- A number whose country calling code is not known is its national significant number, and a number that could not be parsed the
text it was read from, whatever value is given as format, but for E164. -/
theorem C108_rest (C : Container) (n : PhoneNumber) (k : Int) :
    (n.nn = 0 → n.raw ≠ [] → formatInt C n k = n.raw) ∧
    (¬ (n.nn = 0 ∧ n.raw ≠ []) → C.hasCC n.cc = false → k ≠ 0 → formatInt C n k = nsnOf n) ∧
    (∀ user, C.hasCC n.cc = false → formatByPatternInt C n k user = nsnOf n) := by
  refine ⟨fun h1 h2 => ?_, fun h1 h2 h3 => ?_, fun user h => ?_⟩
  · simp [formatInt, h1, h2]
  · simp [formatInt, h1, h2, h3]
  · simp [formatByPatternInt, h]

/-- A value that is none of the named types asks the same question as UNKNOWN: whether the length fits numbers of any type. -/
theorem C108_type (C : Container) (n : PhoneNumber) (k : Int) (hk : ∀ t : NumType, k ≠ t.code) :
    possibleForTypeInt C n k = possibleForTypeWithReason C n .unknown := by
  have h2 : k ≠ 2 := hk .fixedLineOrMobile
  simp [possibleForTypeInt, possibleForTypeWithReason, testNumberLengthInt, testNumberLength, testNumberLengthSimple, h2, descInt_other _ hk]
  cases descByType (C.metaFor n.cc (C.mainRegion n.cc)) .unknown <;> rfl

example : (∀ f : Fmt, (7 : Int) ≠ f.code) ∧ (∀ f : Fmt, (-1 : Int) ≠ f.code) ∧ ∀ t : NumType, (12 : Int) ≠ t.code := by
  refine ⟨fun f => ?_, fun f => ?_, fun t => ?_⟩
  · cases f <;> decide
  · cases f <;> decide
  · cases t <;> decide
example : Data.container.hasCC 39 = true := by kernel_rfl
example : formatInt Data.container { countryCode := some 44, nationalNumber := some 2070313000 } 7 = str!"20 7031 3000" := by kernel_rfl
example : formatInt Data.container { countryCode := some 44, nationalNumber := some 2070313000 } 2 = str!"020 7031 3000" := by kernel_rfl
/-- In Argentina the INTERNATIONAL form has rules of its own. -/
example : formatInt Data.container { countryCode := some 54, nationalNumber := some 91123456789 } (-1) = str!"9 11 2345-6789" ∧
    formatInt Data.container { countryCode := some 54, nationalNumber := some 91123456789 } 2 = str!"011 15-2345-6789" :=
  ⟨by kernel_rfl, by kernel_rfl⟩

end Props
end Verif
