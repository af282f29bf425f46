import Verif.Lemmas.SameCountryShort
import Verif.Data.Wf
import Verif.Data.ShippedShort
/-!
# C117: the metadata of other countries does not matter

A program can put other metadata in place of the shipped ones, and new releases change the metadata of a few countries at a
time.  What the library says about a number, and how it writes it, depends on the metadata of the number's own calling code
only.  (Reading a text as a number is another matter: which calling codes exist decides where the code ends.)
-/
namespace Verif.Props

/-- Region, type, validity, possibility, truncation and the other facts of a number are the same under any two sets of
metadata that say the same about its calling code. -/
theorem C117_classify (C D : Container) (n : PhoneNumber) (h : SameCountry C D n.cc) (t : NumType) :
    regionForNumber C n = regionForNumber D n ∧
    numberType C n = numberType D n ∧
    isValidNumber C n = isValidNumber D n ∧
    (∀ r ∈ C.regionsOf n.cc, isValidForRegion C n r = isValidForRegion D n r) ∧
    possibleWithReason C n = possibleWithReason D n ∧
    possibleForTypeWithReason C n t = possibleForTypeWithReason D n t ∧
    isPossibleNumber C n = isPossibleNumber D n ∧
    isPossibleForType C n t = isPossibleForType D n t ∧
    truncateTooLong C n = truncateTooLong D n ∧
    canBeInternationallyDialled C n = canBeInternationallyDialled D n ∧
    isGeographical C n = isGeographical D n ∧
    lengthOfNdc C n = lengthOfNdc D n ∧
    lengthOfAreaCode C n = lengthOfAreaCode D n :=
  ⟨h.region, h.type, h.valid, fun _ hr => h.validFor (.inr hr), h.reason, h.reasonFor t, h.possible, h.possibleFor t,
    h.truncate, h.dialled, h.geographical, h.ndc, h.area⟩

/-- The number is written the same under any two sets of metadata that say the same about its calling code. -/
theorem C117_format (C D : Container) (n : PhoneNumber) (h : SameCountry C D n.cc) (f : Fmt) (user : List NumberFormat)
    (carrier from_ : Str) (w : Bool) :
    format C n f = format D n f ∧
    formatByPattern C n f user = formatByPattern D n f user ∧
    formatWithCarrier C n carrier = formatWithCarrier D n carrier ∧
    formatWithPreferredCarrier C n carrier = formatWithPreferredCarrier D n carrier ∧
    formatForMobile C n from_ w = formatForMobile D n from_ w :=
  ⟨h.form f, h.byPattern f user, h.withCarrier carrier, h.preferred carrier, h.mobile from_ w⟩

/-- For a call from another region, the two sets of metadata also have to say the same about that region. -/
theorem C117_abroad (C D : Container) (n : PhoneNumber) (h : SameCountry C D n.cc) (from_ : Str)
    (hv : C.validRegion from_ = D.validRegion from_) (hm : C.metaForRegion from_ = D.metaForRegion from_)
    (hn : C.isNanpa from_ = D.isNanpa from_) : formatOutOfCountry C n from_ = formatOutOfCountry D n from_ :=
  h.abroad from_ hv hm hn

/-- Carrier names and time zones. -/
theorem C117_lookup (C D : Container) (n : PhoneNumber) (h : SameCountry C D n.cc) (p : Option (List (Int × Bytes)))
    (tz : Option (Loaded (List Bytes))) :
    carrierForNumber C p n = carrierForNumber D p n ∧
    carrierSafe C p n = carrierSafe D p n ∧
    timeZonesForNumber C tz n = timeZonesForNumber D tz n :=
  ⟨h.carrierName p, h.safeName p, h.zones tz⟩

/-- Short numbers: the short-number metadata of the regions of the calling code count, and no others. -/
theorem C117_short (C D : Container) (S T : ShortMap) (n : PhoneNumber) (h : SameCountry C D n.cc)
    (hs : ∀ r ∈ C.regionsOf n.cc, shortMeta S r = shortMeta T r) (r : Str) :
    isPossibleShort C S n = isPossibleShort D T n ∧
    isPossibleShortForRegion C S n r = isPossibleShortForRegion D T n r ∧
    isValidShort C S n = isValidShort D T n ∧
    isValidShortForRegion C S n r = isValidShortForRegion D T n r ∧
    expectedCost C S n = expectedCost D T n ∧
    expectedCostForRegion C S n r = expectedCostForRegion D T n r ∧
    isCarrierSpecificForRegion C S n r = isCarrierSpecificForRegion D T n r ∧
    isSmsServiceForRegion C S n r = isSmsServiceForRegion D T n r :=
  ⟨h.possibleShort hs, h.possibleShortFor hs r, h.validShort hs, h.validShortFor hs r, h.cost hs, h.costFor hs r,
    h.carrierSpecificFor hs r, h.sms hs r⟩

/-- `IsCarrierSpecific` looks up the empty region code if no region claims the number; no table has an entry for it. -/
theorem C117_carrier_specific (C D : Container) (S T : ShortMap) (n : PhoneNumber) (h : SameCountry C D n.cc)
    (hs : ∀ r ∈ C.regionsOf n.cc, shortMeta S r = shortMeta T r) (hS : shortMeta S [] = none) (hT : shortMeta T [] = none) :
    isCarrierSpecific C S n = isCarrierSpecific D T n :=
  h.carrierSpecific hs (hS.trans hT.symm)

/-- Whatever metadata is put in place for one region, nothing changes for numbers of the calling codes of other regions. -/
theorem C117_edit (C : Container) (n : PhoneNumber) (hc : C.hasCC n.cc = true) (hk : C.regionsOf n.cc ≠ []) (r : Str)
    (hr : r ∉ C.regionsOf n.cc) (m : Metadata) (f : Fmt) :
    regionForNumber (C.withRegion r m) n = regionForNumber C n ∧
    numberType (C.withRegion r m) n = numberType C n ∧
    isValidNumber (C.withRegion r m) n = isValidNumber C n ∧
    possibleWithReason (C.withRegion r m) n = possibleWithReason C n ∧
    format (C.withRegion r m) n f = format C n f := by
  have h := SameCountry.of_withRegion hc hk hr m
  exact ⟨h.region.symm, h.type.symm, h.valid.symm, h.reason.symm, (h.form f).symm⟩

/-- Under the shipped metadata: an Italian number, and any new metadata for France. -/
example (m : Metadata) : SameCountry Data.container (Data.container.withRegion (str!"FR") m) 39 :=
  SameCountry.of_withRegion (by decide +kernel) (by decide +kernel) (by decide +kernel) m

/-- Short-number tables that differ in another region. -/
example (S : ShortMap) (m : Metadata) :
    ∀ r ∈ Data.container.regionsOf 39, shortMeta S r = shortMeta (mapSet S (str!"FR") m) r := by
  intro r hr
  have hne : ¬ (str!"FR") = r := fun e => absurd (e ▸ hr) (by decide +kernel)
  unfold shortMeta mapSet
  rw [mapGet, if_neg hne]

/-- The shipped short-number table has no entry for the empty region code. -/
example : shortMeta Data.shortMap [] = none := by kernel_rfl

/-- The new metadata is in force: the container is another one. -/
example (m : Metadata) : (Data.container.withRegion (str!"FR") m).metaForRegion (str!"FR") = some m := rfl

/-- Metadata without the regions of the own calling code do not meet the hypothesis. -/
example : ¬ SameCountry Data.container { Data.container with supportedRegions := [] } 39 := by
  intro h
  have hm := h.regions (str!"IT") (by decide +kernel)
  have hs : (Data.container.metaForRegion (str!"IT")).isSome = true := by decide +kernel
  rw [hm] at hs
  exact absurd hs (by decide +kernel)

end Verif.Props
