import Verif.Spec.Reads
import Verif.Model.Parse
import Verif.Model.ShortNumber
import Verif.Model.Mapper
/-!
# Functions of a number read it through its getters
-/
namespace Verif
namespace SameNumber
variable {a b : PhoneNumber}

theorem symm (h : SameNumber a b) : SameNumber b a :=
  ⟨h.cc.symm, h.nn.symm, h.ilz.symm, fun z => (h.zeros (h.ilz.trans z)).symm⟩

theorem nsn (h : SameNumber a b) : nsnOf a = nsnOf b := by
  unfold nsnOf
  rw [h.nn]
  cases hz : a.ilz with
  | false => rw [← h.ilz, hz]; rfl
  | true => rw [← h.ilz, hz, h.zeros hz]

theorem withNational (h : SameNumber a b) (k : Nat) :
    SameNumber { a with nationalNumber := some k } { b with nationalNumber := some k } :=
  ⟨h.cc, rfl, h.ilz, h.zeros⟩

theorem region (h : SameNumber a b) (C : Container) : regionForNumber C a = regionForNumber C b := by
  unfold regionForNumber; rw [h.cc, h.nsn]

theorem type (h : SameNumber a b) (C : Container) : numberType C a = numberType C b := by
  unfold numberType; rw [h.cc, h.nsn, h.region]

theorem validFor (h : SameNumber a b) (C : Container) (r : Str) : isValidForRegion C a r = isValidForRegion C b r := by
  unfold isValidForRegion; rw [h.cc, h.nsn]

theorem valid (h : SameNumber a b) (C : Container) : isValidNumber C a = isValidNumber C b := by
  unfold isValidNumber; rw [h.region]; simp only [h.validFor]

theorem reason (h : SameNumber a b) (C : Container) : possibleWithReason C a = possibleWithReason C b := by
  unfold possibleWithReason; rw [h.cc, h.nsn]

theorem reasonFor (h : SameNumber a b) (C : Container) (t : NumType) :
    possibleForTypeWithReason C a t = possibleForTypeWithReason C b t := by
  unfold possibleForTypeWithReason; rw [h.cc, h.nsn]

theorem possible (h : SameNumber a b) (C : Container) : isPossibleNumber C a = isPossibleNumber C b := by
  unfold isPossibleNumber; rw [h.reason]

theorem possibleFor (h : SameNumber a b) (C : Container) (t : NumType) :
    isPossibleForType C a t = isPossibleForType C b t := by
  unfold isPossibleForType; rw [h.reasonFor]

theorem dialled (h : SameNumber a b) (C : Container) :
    canBeInternationallyDialled C a = canBeInternationallyDialled C b := by
  unfold canBeInternationallyDialled; rw [h.region, h.nsn]

theorem geographical (h : SameNumber a b) (C : Container) : isGeographical C a = isGeographical C b := by
  unfold isGeographical; rw [h.type, h.cc]

theorem truncating (h : SameNumber a b) (C : Container) : ∀ f k, truncateLoop C a f k = truncateLoop C b f k
  | 0, _ => rfl
  | f + 1, k => by
    unfold truncateLoop
    simp only [(h.withNational k).valid, (h.withNational (k / 10)).reason, h.truncating C f]

theorem truncate (h : SameNumber a b) (C : Container) :
    (truncateTooLong C a).map (fun r => (r.1, r.2.nn)) = (truncateTooLong C b).map (fun r => (r.1, r.2.nn)) := by
  unfold truncateTooLong
  simp only [h.valid, h.nn, (h.withNational (b.nn / 10)).reason, h.truncating C]
  cases isValidNumber C b with
  | error e => rfl
  | ok v =>
    cases v with
    | true => simp [bind, Except.bind, Except.map, pure, Except.pure, h.nn]
    | false =>
      simp only [bind, Except.bind, Bool.false_eq_true, if_false]
      cases possibleWithReason C { b with nationalNumber := some (b.nn / 10) } with
      | error e => rfl
      | ok r =>
        simp only []
        split
        · simp [Except.map, pure, Except.pure, h.nn]
        · cases truncateLoop C b (b.nn / 10 + 1) (b.nn / 10) with
          | error e => rfl
          | ok w =>
            cases w with
            | none => simp [Except.map, pure, Except.pure, h.nn]
            | some v => simp [Except.map, pure, Except.pure, PhoneNumber.nn]

theorem pattern (h : SameNumber a b) (C : Container) : hasFormattingPattern C a = hasFormattingPattern C b := by
  unfold hasFormattingPattern; rw [h.cc, h.nsn]

theorem dialing (h : SameNumber a b) (C : Container) (r : Str) : dialingFromMatches C a r = dialingFromMatches C b r := by
  unfold dialingFromMatches; rw [h.cc]

theorem possibleShort (h : SameNumber a b) (C : Container) (S : ShortMap) :
    isPossibleShort C S a = isPossibleShort C S b := by
  unfold isPossibleShort; rw [h.cc, h.nsn]

theorem possibleShortFor (h : SameNumber a b) (C : Container) (S : ShortMap) (r : Str) :
    isPossibleShortForRegion C S a r = isPossibleShortForRegion C S b r := by
  unfold isPossibleShortForRegion; rw [h.dialing, h.nsn]

theorem validShortFor (h : SameNumber a b) (C : Container) (S : ShortMap) (r : Str) :
    isValidShortForRegion C S a r = isValidShortForRegion C S b r := by
  unfold isValidShortForRegion; rw [h.dialing, h.nsn]

theorem shortRegion (h : SameNumber a b) (S : ShortMap) (rs : List Str) :
    shortRegionFromList S a rs = shortRegionFromList S b rs := by
  unfold shortRegionFromList; rw [h.nsn]

theorem validShort (h : SameNumber a b) (C : Container) (S : ShortMap) : isValidShort C S a = isValidShort C S b := by
  unfold isValidShort; simp only [h.cc, h.shortRegion, h.validShortFor]

theorem costFor (h : SameNumber a b) (C : Container) (S : ShortMap) (r : Str) :
    expectedCostForRegion C S a r = expectedCostForRegion C S b r := by
  unfold expectedCostForRegion; rw [h.dialing, h.nsn]

theorem costs (h : SameNumber a b) (C : Container) (S : ShortMap) : ∀ rs c, costLoop C S a rs c = costLoop C S b rs c
  | [], _ => rfl
  | r :: rs, c => by unfold costLoop; simp only [h.costFor, h.costs C S rs]

theorem cost (h : SameNumber a b) (C : Container) (S : ShortMap) : expectedCost C S a = expectedCost C S b := by
  unfold expectedCost; simp only [h.cc, h.costFor, h.costs]

theorem carrierSpecific (h : SameNumber a b) (C : Container) (S : ShortMap) :
    isCarrierSpecific C S a = isCarrierSpecific C S b := by
  unfold isCarrierSpecific; rw [h.cc, h.shortRegion, h.nsn]

theorem carrierSpecificFor (h : SameNumber a b) (C : Container) (S : ShortMap) (r : Str) :
    isCarrierSpecificForRegion C S a r = isCarrierSpecificForRegion C S b r := by
  unfold isCarrierSpecificForRegion; rw [h.dialing, h.nsn]

theorem sms (h : SameNumber a b) (C : Container) (S : ShortMap) (r : Str) :
    isSmsServiceForRegion C S a r = isSmsServiceForRegion C S b r := by
  unfold isSmsServiceForRegion; rw [h.dialing, h.nsn]

theorem where_ (h : SameNumber a b) (C : Container) : ∀ rs acc, regionWhereValid C a rs acc = regionWhereValid C b rs acc
  | [], _ => rfl
  | r :: rs, acc => by unfold regionWhereValid; simp only [h.validFor, h.where_ C rs]

theorem country (h : SameNumber a b) (C : Container) (disp : Str → Bytes) : countryName C disp a = countryName C disp b := by
  unfold countryName; simp only [h.cc, h.where_]

/-- `Format` with E164 when the raw input is also the same. -/
theorem e164 (h : SameNumber a b) (hr : a.raw = b.raw) (C : Container) : format C a .e164 = format C b .e164 := by
  unfold format formatCore; simp only [h.nn, hr, h.cc, h.nsn, if_true]

theorem carrierName (h : SameNumber a b) (hr : a.raw = b.raw) (C : Container) (p : Option (List (Int × Bytes))) :
    carrierForNumber C p a = carrierForNumber C p b := by
  unfold carrierForNumber carrierForValid; rw [h.type, h.e164 hr]

theorem safeName (h : SameNumber a b) (hr : a.raw = b.raw) (C : Container) (p : Option (List (Int × Bytes))) :
    carrierSafe C p a = carrierSafe C p b := by
  unfold carrierSafe; rw [h.region, h.carrierName hr]

theorem described (h : SameNumber a b) (hr : a.raw = b.raw) (C : Container) (disp : Str → Bytes)
    (p : Option (List (Int × Bytes))) : descriptionForValid C disp p a = descriptionForValid C disp p b := by
  unfold descriptionForValid geoLookupNumber
  simp only [h.cc, h.nsn, h.country]
  split
  · cases hp : parse C ((nsnOf b).drop (countryMobileToken b.cc).length) (C.mainRegion b.cc) with
    | error e => rfl
    | ok q =>
      obtain ⟨e, c⟩ := q
      cases e with
      | none => rfl
      | some e => simp only [bind, Except.bind, pure, Except.pure, h.e164 hr]
  · simp only [bind, Except.bind, h.e164 hr]

theorem describedFor (h : SameNumber a b) (hr : a.raw = b.raw) (C : Container) (disp : Str → Bytes)
    (p : Option (List (Int × Bytes))) (u : Str) :
    descriptionForValidForUser C disp p a u = descriptionForValidForUser C disp p b u := by
  unfold descriptionForValidForUser; simp only [h.region, h.described hr]

theorem description (h : SameNumber a b) (hr : a.raw = b.raw) (C : Container) (disp : Str → Bytes)
    (p : Option (List (Int × Bytes))) : descriptionForNumber C disp p a = descriptionForNumber C disp p b := by
  unfold descriptionForNumber; simp only [h.type, h.cc, h.country, h.described hr]

theorem descriptionFor (h : SameNumber a b) (hr : a.raw = b.raw) (C : Container) (disp : Str → Bytes)
    (p : Option (List (Int × Bytes))) (u : Str) :
    descriptionForNumberForUser C disp p a u = descriptionForNumberForUser C disp p b u := by
  unfold descriptionForNumberForUser; simp only [h.type, h.cc, h.country, h.describedFor hr]

theorem zones (h : SameNumber a b) (hr : a.raw = b.raw) (C : Container) (tz : Option (Loaded (List Bytes))) :
    timeZonesForNumber C tz a = timeZonesForNumber C tz b := by
  unfold timeZonesForNumber timeZonesForGeographical; simp only [h.type, h.cc, h.e164 hr]

end SameNumber

namespace SameDialled
variable {a b : PhoneNumber}

theorem extension (h : SameDialled a b) (m : Option Metadata) (f : Fmt) (s : Str) :
    appendExtension a m f s = appendExtension b m f s := by
  unfold appendExtension; rw [h.ext]

theorem form (h : SameDialled a b) (hr : a.raw = b.raw) (C : Container) (f : Fmt) : format C a f = format C b f := by
  unfold format formatCore; simp only [h.nn, hr, h.cc, h.nsn, h.extension]

theorem core_ (h : SameDialled a b) (C : Container) (f : Fmt) : formatCore C a f = formatCore C b f := by
  unfold formatCore; simp only [h.cc, h.nsn, h.extension]

theorem byPattern (h : SameDialled a b) (C : Container) (f : Fmt) (u : List NumberFormat) :
    formatByPattern C a f u = formatByPattern C b f u := by
  unfold formatByPattern; simp only [h.cc, h.nsn, h.extension]

theorem withCarrier (h : SameDialled a b) (C : Container) (c : Str) :
    formatWithCarrier C a c = formatWithCarrier C b c := by
  unfold formatWithCarrier; simp only [h.cc, h.nsn, h.extension]

theorem abroad (h : SameDialled a b) (hr : a.raw = b.raw) (C : Container) (r : Str) :
    formatOutOfCountry C a r = formatOutOfCountry C b r := by
  unfold formatOutOfCountry; simp only [h.cc, h.nsn, h.extension, h.form hr]

theorem alpha (h : SameDialled a b) (hr : a.raw = b.raw) (C : Container) (r : Str) :
    formatKeepingAlpha C a r = formatKeepingAlpha C b r := by
  unfold formatKeepingAlpha; simp only [h.cc, h.nsn, h.extension, h.abroad hr, hr]

theorem core (h : SameDialled a b) : coreFields a = coreFields b := by
  unfold coreFields
  rw [h.cc, h.nn, h.ext, ← h.ilz]
  cases hz : a.ilz with
  | false => rfl
  | true => rw [h.zeros hz]

theorem of_core (h : coreFields a = coreFields b) : SameDialled a b := by
  unfold coreFields at h
  simp only [PhoneNumber.mk.injEq, Option.some.injEq, and_true] at h
  obtain ⟨hc, hn, he, hz, hl⟩ := h
  have hi : a.ilz = b.ilz := by cases ha : a.ilz <;> cases hb : b.ilz <;> simp [ha, hb] at hz ⊢
  refine ⟨⟨hc, hn, hi, fun z => ?_⟩, ?_⟩
  · rw [if_pos z, if_pos (hi ▸ z)] at hl
    exact Option.some.inj hl
  · by_cases ha : a.ext = [] <;> by_cases hb : b.ext = []
    · rw [ha, hb]
    · simp [ha, hb] at he
    · simp [ha, hb] at he
    · simpa [ha, hb] using he

theorem of_exact (h : numberMatch a b = .exactMatch) : SameDialled a b := by
  unfold numberMatch at h
  simp only [] at h
  split at h
  · cases h
  · split at h
    · split at h
      · exact of_core ‹_›
      · split at h <;> cases h
    · split at h
      · cases h
      · split at h <;> cases h

theorem match_ (h : SameDialled a b) (c : PhoneNumber) : numberMatch a c = numberMatch b c := by
  unfold numberMatch; rw [h.core]

theorem match' (h : SameDialled a b) (c : PhoneNumber) : numberMatch c a = numberMatch c b := by
  unfold numberMatch; rw [h.core]

theorem matchOne (h : SameDialled a b) (C : Container) (s : Str) : numberMatchOne C a s = numberMatchOne C b s := by
  unfold numberMatchOne; simp only [h.cc, h.match_]

theorem withoutExtension (h : SameNumber a b) :
    SameDialled { a with extension := none } { b with extension := none } :=
  ⟨⟨h.cc, h.nn, h.ilz, h.zeros⟩, rfl⟩

theorem ndc (h : SameNumber a b) (hr : a.raw = b.raw) (C : Container) : lengthOfNdc C a = lengthOfNdc C b := by
  have hf : ∀ n : PhoneNumber, format C (if n.ext ≠ [] then { n with extension := none } else n) .international
      = format C { n with extension := none } .international := by
    intro n
    by_cases he : n.ext = []
    · rw [if_neg (by simp [he])]
      exact form (a := n) (b := { n with extension := none }) ⟨⟨rfl, rfl, rfl, fun _ => rfl⟩, he⟩ rfl C _
    · rw [if_pos he]
  unfold lengthOfNdc
  simp only [hf, h.type, h.cc, (withoutExtension h).form (C := C) hr]

theorem area (h : SameNumber a b) (hr : a.raw = b.raw) (C : Container) : lengthOfAreaCode C a = lengthOfAreaCode C b := by
  unfold lengthOfAreaCode; simp only [h.region, h.type, h.ilz, h.cc, h.geographical, ndc h hr]

theorem mobile (h : SameNumber a b) (hr : a.raw = b.raw) (hc : a.carrier = b.carrier) (C : Container) (r : Str) (w : Bool) :
    formatForMobile C a r w = formatForMobile C b r w := by
  have h' := withoutExtension h
  have hr' : ({ a with extension := none } : PhoneNumber).raw = ({ b with extension := none } : PhoneNumber).raw := hr
  have hc' : ({ a with extension := none } : PhoneNumber).carrier = ({ b with extension := none } : PhoneNumber).carrier := hc
  unfold formatForMobile formatWithPreferredCarrier
  simp only [h.cc, hr, hc', h'.type, h'.dialled, h'.nsn, h'.form hr', h'.withCarrier]

end SameDialled

namespace ReadsAlike
variable {a b : PhoneNumber}

theorem preferred (h : ReadsAlike a b) (C : Container) (c : Str) :
    formatWithPreferredCarrier C a c = formatWithPreferredCarrier C b c := by
  unfold formatWithPreferredCarrier; rw [h.carrier, h.withCarrier]

theorem original (h : ReadsAlike a b) (C : Container) (r : Str) : formatInOriginal C a r = formatInOriginal C b r := by
  unfold formatInOriginal originalBody originalNational
  simp only [h.raw, h.src, h.pattern, h.cc, h.nsn, h.form h.raw, h.abroad h.raw, h.byPattern]

end ReadsAlike
end Verif
