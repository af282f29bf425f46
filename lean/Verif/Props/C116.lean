import Verif.Lemmas.ReadsVerify
/-!
# C116: two messages that read alike are treated alike

A number message built by hand, one read from the wire and one returned by `Parse` may differ in which optional fields are
set, although their getters answer the same.  No function of the library tells them apart.  Beyond that, the classifying
functions look at the calling code and the digits only: the extension, the raw input, the source of the calling code and
the carrier code of a message never change what they answer.
-/
namespace Verif.Props

/-- What the classifying functions answer is settled by the calling code and the digits. -/
theorem C116_classify (C : Container) (a b : PhoneNumber) (h : SameNumber a b) (r : Str) (t : NumType) :
    nsnOf a = nsnOf b ∧
    regionForNumber C a = regionForNumber C b ∧
    numberType C a = numberType C b ∧
    isValidNumber C a = isValidNumber C b ∧
    isValidForRegion C a r = isValidForRegion C b r ∧
    possibleWithReason C a = possibleWithReason C b ∧
    possibleForTypeWithReason C a t = possibleForTypeWithReason C b t ∧
    isPossibleNumber C a = isPossibleNumber C b ∧
    isPossibleForType C a t = isPossibleForType C b t ∧
    canBeInternationallyDialled C a = canBeInternationallyDialled C b ∧
    isGeographical C a = isGeographical C b :=
  ⟨h.nsn, h.region C, h.type C, h.valid C, h.validFor C r, h.reason C, h.reasonFor C t, h.possible C, h.possibleFor C t,
    h.dialled C, h.geographical C⟩

/-- `TruncateTooLongNumber` gives the same answer for both and leaves the same national number in both. -/
theorem C116_truncate (C : Container) (a b : PhoneNumber) (h : SameNumber a b) :
    (truncateTooLong C a).map (fun r => (r.1, r.2.nn)) = (truncateTooLong C b).map (fun r => (r.1, r.2.nn)) :=
  h.truncate C

/-- What the short-number functions answer is settled by the calling code and the digits. -/
theorem C116_short (C : Container) (S : ShortMap) (a b : PhoneNumber) (h : SameNumber a b) (r : Str) :
    isPossibleShort C S a = isPossibleShort C S b ∧
    isPossibleShortForRegion C S a r = isPossibleShortForRegion C S b r ∧
    isValidShort C S a = isValidShort C S b ∧
    isValidShortForRegion C S a r = isValidShortForRegion C S b r ∧
    expectedCost C S a = expectedCost C S b ∧
    expectedCostForRegion C S a r = expectedCostForRegion C S b r ∧
    isCarrierSpecific C S a = isCarrierSpecific C S b ∧
    isCarrierSpecificForRegion C S a r = isCarrierSpecificForRegion C S b r ∧
    isSmsServiceForRegion C S a r = isSmsServiceForRegion C S b r :=
  ⟨h.possibleShort C S, h.possibleShortFor C S r, h.validShort C S, h.validShortFor C S r, h.cost C S, h.costFor C S r,
    h.carrierSpecific C S, h.carrierSpecificFor C S r, h.sms C S r⟩

/-- Carrier names, descriptions, time zones and area-code lengths also look at the raw input, and at nothing else. -/
theorem C116_lookup (C : Container) (a b : PhoneNumber) (h : SameNumber a b) (hr : a.raw = b.raw)
    (p : Option (List (Int × Bytes))) (tz : Option (Loaded (List Bytes))) (disp : Str → Bytes) (user : Str) :
    carrierForNumber C p a = carrierForNumber C p b ∧
    carrierForValid C p a = carrierForValid C p b ∧
    carrierSafe C p a = carrierSafe C p b ∧
    descriptionForNumber C disp p a = descriptionForNumber C disp p b ∧
    descriptionForNumberForUser C disp p a user = descriptionForNumberForUser C disp p b user ∧
    descriptionForValid C disp p a = descriptionForValid C disp p b ∧
    descriptionForValidForUser C disp p a user = descriptionForValidForUser C disp p b user ∧
    timeZonesForNumber C tz a = timeZonesForNumber C tz b ∧
    timeZonesForGeographical C tz a = timeZonesForGeographical C tz b ∧
    lengthOfNdc C a = lengthOfNdc C b ∧
    lengthOfAreaCode C a = lengthOfAreaCode C b :=
  ⟨h.carrierName hr C p, by unfold carrierForValid; rw [h.e164 hr], h.safeName hr C p,
    h.description hr C disp p, h.descriptionFor hr C disp p user, h.described hr C disp p, h.describedFor hr C disp p user,
    h.zones hr C tz, congrArg (lookupTimeZones tz) (h.e164 hr C), SameDialled.ndc h hr C, SameDialled.area h hr C⟩

/-- Comparing numbers looks at the calling code, the digits and the extension only, on either side. -/
theorem C116_match (C : Container) (a b c : PhoneNumber) (h : SameDialled a b) (s : Str) :
    numberMatch a c = numberMatch b c ∧ numberMatch c a = numberMatch c b ∧
    numberMatchOne C a s = numberMatchOne C b s :=
  ⟨h.match_ c, h.match' c, h.matchOne C s⟩

/-- Numbers that are an exact match are valid together, of one type and one region, and without raw input they have the same
written forms. -/
theorem C116_exact (C : Container) (a b : PhoneNumber) (h : numberMatch a b = .exactMatch) :
    SameDialled a b ∧
    isValidNumber C a = isValidNumber C b ∧ numberType C a = numberType C b ∧ regionForNumber C a = regionForNumber C b ∧
    (a.raw = b.raw → ∀ f, format C a f = format C b f) := by
  have hs := SameDialled.of_exact h
  exact ⟨hs, hs.valid C, hs.type C, hs.region C, fun hr f => hs.form hr C f⟩

/-- The number formatted for mobile dialling never depends on the extension nor on the source of the calling code. -/
theorem C116_mobile (C : Container) (a b : PhoneNumber) (h : SameNumber a b) (hr : a.raw = b.raw)
    (hc : a.carrier = b.carrier) (from_ : Str) (w : Bool) : formatForMobile C a from_ w = formatForMobile C b from_ w :=
  SameDialled.mobile h hr hc C from_ w

/-- Messages that read alike are formatted alike by every formatting function. -/
theorem C116_format (C : Container) (a b : PhoneNumber) (h : ReadsAlike a b) (f : Fmt) (user : List NumberFormat)
    (carrier from_ : Str) :
    format C a f = format C b f ∧
    formatCore C a f = formatCore C b f ∧
    formatByPattern C a f user = formatByPattern C b f user ∧
    formatWithCarrier C a carrier = formatWithCarrier C b carrier ∧
    formatWithPreferredCarrier C a carrier = formatWithPreferredCarrier C b carrier ∧
    formatOutOfCountry C a from_ = formatOutOfCountry C b from_ ∧
    formatKeepingAlpha C a from_ = formatKeepingAlpha C b from_ ∧
    formatInOriginal C a from_ = formatInOriginal C b from_ :=
  ⟨h.form h.raw C f, h.core_ C f, h.byPattern C f user, h.withCarrier C carrier, h.preferred C carrier, h.abroad h.raw C from_,
    h.alpha h.raw C from_, h.original C from_⟩

/-- The check made at each leniency level of a search accepts both messages or neither. -/
theorem C116_verify (l : Leniency) (C : Container) (alt : List Metadata) (a b : PhoneNumber) (h : ReadsAlike a b)
    (candidate : Str) : l.verify C alt a candidate = l.verify C alt b candidate :=
  h.verify l C alt candidate

/-- An Italian number with its one leading zero counted explicitly, and with an empty extension and raw input set. -/
example :
    let a : PhoneNumber := { countryCode := some 39, nationalNumber := some 236618300, italianLeadingZero := some true }
    let b : PhoneNumber := { a with numberOfLeadingZeros := some 1, extension := some [], rawInput := some [] }
    a ≠ b ∧ ReadsAlike a b :=
  ⟨by decide, ⟨⟨⟨rfl, rfl, rfl, fun _ => rfl⟩, rfl⟩, rfl, rfl, rfl⟩⟩

/-- Two messages with different raw input and differently set fields that are an exact match. -/
example :
    let a : PhoneNumber := { countryCode := some 39, nationalNumber := some 236618300, italianLeadingZero := some true }
    numberMatch { a with rawInput := some (str!"02 3661 8300") }
      { a with numberOfLeadingZeros := some 1, extension := some [] } = .exactMatch := by decide

/-- A count of zeros without the flag means nothing. -/
example :
    let a : PhoneNumber := { countryCode := some 1, nationalNumber := some 6502530000 }
    let b : PhoneNumber := { a with numberOfLeadingZeros := some 4, italianLeadingZero := some false }
    a.nlz ≠ b.nlz ∧ ReadsAlike a b :=
  ⟨by decide, ⟨⟨⟨rfl, rfl, rfl, fun h => absurd h (by decide)⟩, rfl⟩, rfl, rfl, rfl⟩⟩

/-- Two different extensions: the same number, not dialled alike. -/
example :
    let a : PhoneNumber := { countryCode := some 1, nationalNumber := some 6502530000, extension := some (str!"12") }
    let b : PhoneNumber := { a with extension := some (str!"34") }
    SameNumber a b ∧ ¬ SameDialled a b :=
  ⟨⟨rfl, rfl, rfl, fun _ => rfl⟩, fun h => absurd h.ext (by decide)⟩

/-- With the flag set the count of zeros does matter: the digits differ. -/
example :
    let a : PhoneNumber := { countryCode := some 39, nationalNumber := some 5, italianLeadingZero := some true }
    nsnOf a ≠ nsnOf { a with numberOfLeadingZeros := some 2 } := by decide

end Verif.Props
