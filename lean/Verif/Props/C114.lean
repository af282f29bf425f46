import Verif.Lemmas.Unsupported
import Verif.Props.C94
import Verif.Model.ShortNumber
import Verif.Data.ShippedShort
import Verif.Data.Wf
/-!
# C114: region codes the library does not support are all treated alike

"Supported" is membership in what `GetSupportedRegions` gives.  A code in lower case, the empty string, "ZZ" and any other string are
unsupported.
-/
namespace Verif

theorem validRegion_of_unsupported {C : Container} {r : Str} (h : r ∉ C.supportedRegions) : C.validRegion r = false := by
  simp [Container.validRegion, h]

theorem metaForRegion_of_unsupported {C : Container} {r : Str} (h : r ∉ C.supportedRegions) : C.metaForRegion r = none := by
  simp [Container.metaForRegion, validRegion_of_unsupported h]

namespace Props
open Spec

/-- Parsing gives the same number or the same error under any two unsupported region codes. -/
theorem C114_parse (C : Container) (hN : nonGeoOk C = true) (hG : C.allMeta.all hasGeneralLengths = true) (s r r' : Str)
    (hr : r ∉ C.supportedRegions) (hr' : r' ∉ C.supportedRegions) :
    SameOutcome (parse C s r) (parse C s r') ∧ SameOutcome (parseKeepRaw C s r) (parseKeepRaw C s r') := by
  have h := (parseCore_unsupported hN hG s (validRegion_of_unsupported hr)).trans
    (parseCore_unsupported hN hG s (validRegion_of_unsupported hr')).symm
  exact ⟨sameOutcome_of_core false {} h, sameOutcome_of_core true {} h⟩

theorem C114_parse_shipped (s r r' : Str) (hr : r ∉ Data.container.supportedRegions) (hr' : r' ∉ Data.container.supportedRegions) :
    SameOutcome (parse Data.container s r) (parse Data.container s r') ∧
      SameOutcome (parseKeepRaw Data.container s r) (parseKeepRaw Data.container s r') :=
  C114_parse _ Data.wf_nonGeo Data.wf_generalLengths s r r' hr hr'

/-- `IsPossibleNumberFromRegion` gives the same answer. -/
theorem C114_possible (C : Container) (hN : nonGeoOk C = true) (hG : C.allMeta.all hasGeneralLengths = true) (s r r' : Str)
    (hr : r ∉ C.supportedRegions) (hr' : r' ∉ C.supportedRegions) : isPossibleFromRegion C s r = isPossibleFromRegion C s r' := by
  unfold isPossibleFromRegion
  exact sameOutcome_bind (C114_parse C hN hG s r r' hr hr').1 _ fun e n n' => rfl

/-- A search of a text finds the same numbers at the same places, at every level and limit. -/
theorem C114_find (C : Container) (hN : nonGeoOk C = true) (hG : C.allMeta.all hasGeneralLengths = true) (alt : List Metadata)
    (text r r' : Str) (l : Leniency) (k : Int) (hr : r ∉ C.supportedRegions) (hr' : r' ∉ C.supportedRegions) :
    Finder.findNumbers ⟨C, alt, text, r, l⟩ k = Finder.findNumbers ⟨C, alt, text, r', l⟩ k := by
  refine Finder.Alike.findNumbers (F := ⟨C, alt, text, r, l⟩) (G := ⟨C, alt, text, r', l⟩) ⟨rfl, ?_⟩ k
  funext candidate offset
  unfold Finder.parseAndVerify
  have h := sameOutcome_bind (C114_parse C hN hG candidate r r' hr hr').2
    (fun x => match x with
      | (some _, _) => (return none : Go (Option FoundNumber))
      | (none, n) => do
        if ← l.verify C alt n candidate then
          return some ⟨offset, candidate, { n with countryCodeSource := none, rawInput := none, preferredCarrier := none }⟩
        return none) fun e n n' => rfl
  have hn : Finder.neighboursOk ⟨C, alt, text, r, l⟩ candidate offset = Finder.neighboursOk ⟨C, alt, text, r', l⟩ candidate offset := rfl
  rw [hn]
  simp only
  split
  · rfl
  · split
    · rfl
    · exact h

theorem C114_find_shipped (alt : List Metadata) (text r r' : Str) (l : Leniency) (k : Int)
    (hr : r ∉ Data.container.supportedRegions) (hr' : r' ∉ Data.container.supportedRegions) :
    Finder.findNumbers ⟨Data.container, alt, text, r, l⟩ k = Finder.findNumbers ⟨Data.container, alt, text, r', l⟩ k :=
  C114_find _ Data.wf_nonGeo Data.wf_generalLengths alt text r r' l k hr hr'

/-- What the functions that ask about a region answer. -/
theorem C114_facts (C : Container) (r : Str) (hr : r ∉ C.supportedRegions) :
    C.ccForRegion r = 0 ∧ (∀ strip, C.nddPrefix r strip = []) ∧ C.isMobilePortable r = false ∧ supportedTypesForRegion C r = [] ∧
      exampleNumber C r = .ok none ∧ (∀ t, exampleForTypeInRegion C r t = .ok none) ∧ invalidExample C r = .ok none ∧
      (r ≠ str!"001" → ∀ n, isValidForRegion C n r = .ok false) := by
  have hv := validRegion_of_unsupported hr
  have hm := metaForRegion_of_unsupported hr
  refine ⟨by simp [Container.ccForRegion, hv], fun strip => by simp [Container.nddPrefix, hm], by simp [Container.isMobilePortable, hm],
    by simp [supportedTypesForRegion, hv], by simp [exampleNumber, exampleForTypeInRegion, hv],
    fun t => by simp [exampleForTypeInRegion, hv], by simp [invalidExample, hv], fun h1 n => ?_⟩
  have h1 : r ≠ nonGeoRegion := h1
  simp [isValidForRegion, Container.metaFor, h1, hm]

/-- Writing a number for a caller in an unsupported region: the international form, and the same text whatever the code. -/
theorem C114_format (C : Container) (hA : ∀ r ∈ C.nanpaRegions, r ∈ C.supportedRegions) (n : PhoneNumber) (r r' : Str)
    (hr : r ∉ C.supportedRegions) (hr' : r' ∉ C.supportedRegions) :
    formatOutOfCountry C n r = format C n .international ∧ formatKeepingAlpha C n r = formatKeepingAlpha C n r' ∧
      formatInOriginal C n r = formatInOriginal C n r' := by
  have hv := validRegion_of_unsupported hr
  have hv' := validRegion_of_unsupported hr'
  have hm := metaForRegion_of_unsupported hr
  have hm' := metaForRegion_of_unsupported hr'
  have ha : C.isNanpa r = false := by
    simp only [Container.isNanpa, decide_eq_false_iff_not]; exact fun h => hr (hA r h)
  have ha' : C.isNanpa r' = false := by
    simp only [Container.isNanpa, decide_eq_false_iff_not]; exact fun h => hr' (hA r' h)
  have e : formatOutOfCountry C n r = format C n .international := by simp [formatOutOfCountry, hv]
  have e' : formatOutOfCountry C n r' = format C n .international := by simp [formatOutOfCountry, hv']
  refine ⟨e, ?_, ?_⟩
  · unfold formatKeepingAlpha
    simp only [e, e', hm, hm', ha, ha']
    simp
  · have hb : originalBody C n r = originalBody C n r' := by
      unfold originalBody
      rw [e, e']
    unfold formatInOriginal
    rw [hb]

theorem C114_format_shipped (n : PhoneNumber) (r r' : Str) (hr : r ∉ Data.container.supportedRegions)
    (hr' : r' ∉ Data.container.supportedRegions) :
    formatOutOfCountry Data.container n r = format Data.container n .international ∧
      formatKeepingAlpha Data.container n r = formatKeepingAlpha Data.container n r' ∧
      formatInOriginal Data.container n r = formatInOriginal Data.container n r' :=
  C114_format _ (by
    have h : (Data.container.nanpaRegions.all fun r => decide (r ∈ Data.container.supportedRegions)) = true := by kernel_rfl
    intro r hr
    exact of_decide_eq_true (List.all_eq_true.1 h r hr)) n r r' hr hr'

/-- Dialling from a mobile phone: the same for all unsupported codes other than "001". -/
theorem C114_mobile (C : Container)
    (hA : ∀ cc, C.hasCC cc = true → C.mainRegion cc ∈ C.supportedRegions ∨ C.mainRegion cc = str!"001")
    (n : PhoneNumber) (r r' : Str) (w : Bool) (hr : r ∉ C.supportedRegions) (hr' : r' ∉ C.supportedRegions)
    (h1 : r ≠ str!"001") (h1' : r' ≠ str!"001") : formatForMobile C n r w = formatForMobile C n r' w := by
  unfold formatForMobile
  by_cases hc : C.hasCC n.cc = true
  · have e : r ≠ C.mainRegion n.cc := by
      intro h; rcases hA _ hc with h2 | h2
      · exact hr (h ▸ h2)
      · exact h1 (h.trans h2)
    have e' : r' ≠ C.mainRegion n.cc := by
      intro h; rcases hA _ hc with h2 | h2
      · exact hr' (h ▸ h2)
      · exact h1' (h.trans h2)
    simp only [hc, Bool.not_true, Bool.false_eq_true, if_false, e, e']
  · simp only [hc, Bool.not_false, if_true]

/-- The main regions of the shipped calling codes are supported, or "001". -/
theorem mainRegions_shipped (cc : Int) (h : Data.container.hasCC cc = true) :
    Data.container.mainRegion cc ∈ Data.container.supportedRegions ∨ Data.container.mainRegion cc = str!"001" := by
  have hall : (Data.container.ccToRegion.all fun p => decide (p.2.head?.getD unknownRegion ∈ Data.container.supportedRegions) ||
    decide (p.2.head?.getD unknownRegion = str!"001")) = true := by kernel_rfl
  simp only [Container.hasCC, Option.isSome_iff_exists] at h
  obtain ⟨l, h⟩ := h
  have h2 := List.all_eq_true.1 hall _ (mapGet_mem h)
  have h3 : Data.container.mainRegion cc = l.head?.getD unknownRegion := by
    unfold Container.mainRegion Container.regionsOf
    rw [h]
    cases l <;> rfl
  rw [h3]
  simpa using h2

theorem C114_mobile_shipped (n : PhoneNumber) (r r' : Str) (w : Bool) (hr : r ∉ Data.container.supportedRegions)
    (hr' : r' ∉ Data.container.supportedRegions) (h1 : r ≠ str!"001") (h1' : r' ≠ str!"001") :
    formatForMobile Data.container n r w = formatForMobile Data.container n r' w :=
  C114_mobile _ mainRegions_shipped n r r' w hr hr' h1 h1'

/-- As-you-type formatters for unsupported regions show the same, and remember the same position, after the same characters. -/
theorem C114_typing (C : Container)
    (hA : ∀ cc, C.hasCC cc = true → C.mainRegion cc ∈ C.supportedRegions ∨ C.mainRegion cc = str!"001")
    (r r' : Str) (hr : r ∉ C.supportedRegions) (hr' : r' ∉ C.supportedRegions) (h1 h2 : List Call) (h : typed h1 = typed h2)
    (a b : Aytf) (ha : calls C (Aytf.new C r) h1 = .ok a) (hb : calls C (Aytf.new C r') h2 = .ok b) :
    a.currentOutput = b.currentOutput ∧ (mark h1 = mark h2 → a.position = b.position) := by
  have hm : Aytf.metaFor C r = Aytf.metaFor C r' := by
    unfold Aytf.metaFor
    rw [(C114_facts C r hr).1, (C114_facts C r' hr').1]
  have hf : Aytf.Fits C r r' := by
    intro s h0 hg
    have h2 := (hA _ (extractCC_spec C s h0).1).resolve_right hg
    exact ⟨fun _ h3 => hr' (h3 ▸ h2), fun _ h3 => hr (h3 ▸ h2)⟩
  exact ⟨Aytf.output_alike hf hm ha hb h, fun hk => Aytf.position_alike hf hm ha hb h hk⟩

theorem C114_typing_shipped (r r' : Str) (hr : r ∉ Data.container.supportedRegions) (hr' : r' ∉ Data.container.supportedRegions)
    (h1 h2 : List Call) (h : typed h1 = typed h2) : outputOf Data.container r h1 = outputOf Data.container r' h2 := by
  obtain ⟨a, ha⟩ := C38_no_panic r h1
  obtain ⟨b, hb⟩ := C38_no_panic r' h2
  unfold outputOf
  rw [ha, hb]
  exact congrArg some (C114_typing _ mainRegions_shipped r r' hr hr' h1 h2 h a b ha hb).1

example : outputOf Data.container (str!"us") (typeAll (str!"6502530000")) = some (str!"6502530000") := by kernel_rfl
/-- What the short-number functions answer for an unsupported region. -/
theorem C114_short (C : Container) (S : ShortMap) (hS : ∀ p ∈ S, p.1 ∈ C.supportedRegions) (r : Str) (hr : r ∉ C.supportedRegions) :
    (∀ n, isPossibleShortForRegion C S n r = .ok false ∧ isValidShortForRegion C S n r = false ∧
      expectedCostForRegion C S n r = .ok .unknown ∧ isCarrierSpecificForRegion C S n r = false ∧
      isSmsServiceForRegion C S n r = false) ∧
    (∀ s, isEmergency S s r = false ∧ connectsToEmergency S s r = false) ∧
    exampleShort S r = [] ∧ ∀ c, exampleShortForCost S r c = [] := by
  have hm : shortMeta S r = none := by
    unfold shortMeta
    cases h : mapGet S r with
    | none => rfl
    | some m => exact absurd (hS _ (mapGet_mem h)) hr
  refine ⟨fun n => ⟨?_, ?_, ?_, ?_, ?_⟩, fun s => ⟨?_, ?_⟩, ?_, fun c => ?_⟩
  · simp [isPossibleShortForRegion, hm]
  · simp [isValidShortForRegion, hm]
  · simp [expectedCostForRegion, hm]
  · simp [isCarrierSpecificForRegion, hm]
  · simp [isSmsServiceForRegion, hm]
  · simp [isEmergency, matchesEmergency, hm]
  · simp [connectsToEmergency, matchesEmergency, hm]
  · simp [exampleShort, hm]
  · simp [exampleShortForCost, hm]

/-- The shipped metadata: every region with short numbers is supported. -/
theorem C114_short_shipped (r : Str) (hr : r ∉ Data.container.supportedRegions) :
    (∀ n, isPossibleShortForRegion Data.container Data.shortMap n r = .ok false ∧
      isValidShortForRegion Data.container Data.shortMap n r = false ∧
      expectedCostForRegion Data.container Data.shortMap n r = .ok .unknown ∧
      isCarrierSpecificForRegion Data.container Data.shortMap n r = false ∧
      isSmsServiceForRegion Data.container Data.shortMap n r = false) ∧
    (∀ s, isEmergency Data.shortMap s r = false ∧ connectsToEmergency Data.shortMap s r = false) ∧
    exampleShort Data.shortMap r = [] ∧ ∀ c, exampleShortForCost Data.shortMap r c = [] :=
  C114_short _ _ (by
    have h : (Data.shortMap.all fun p => decide (p.1 ∈ Data.container.supportedRegions)) = true := by kernel_rfl
    intro p hp
    exact of_decide_eq_true (List.all_eq_true.1 h p hp)) r hr

/-- Emergency calls: "112" connects from Germany, under its code in capitals only. -/
example : connectsToEmergency Data.shortMap (str!"112") (str!"DE") = true ∧
    connectsToEmergency Data.shortMap (str!"112") (str!"de") = false := by
  constructor <;> kernel_rfl

example : decide ((str!"us") ∈ Data.container.supportedRegions) = false := by kernel_rfl
example : decide ((str!"ZZ") ∈ Data.container.supportedRegions) = false := by kernel_rfl
example : decide ((str!"US") ∈ Data.container.supportedRegions) = true := by kernel_rfl
/-- A number in the international form parses under a code in lower case. -/
example : parse Data.container (str!"+1 650 253 0000") (str!"us") =
    .ok (none, { countryCode := some 1, nationalNumber := some 6502530000 }) := by kernel_rfl
/-- A number in the national form does not. -/
example : (match parse Data.container (str!"650 253 0000") (str!"us") with
    | .ok (some .invalidCountryCode, _) => true | _ => false) = true := by kernel_rfl
/-- "001" is the one unsupported code for which a number can be valid. -/
example : isValidForRegion Data.container { countryCode := some 800, nationalNumber := some 12345678 } (str!"001") = .ok true := by
  kernel_rfl

end Props
end Verif
