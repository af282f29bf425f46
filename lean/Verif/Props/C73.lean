import Verif.Props.C35
import Verif.Props.C36
import Verif.Lemmas.Services
import Verif.Lemmas.Context
/-!
# C73: short-number services: carrier-specific, SMS, emergency, and what they cost
-/
namespace Verif.Props
open Spec

/-- `IsCarrierSpecificForRegion`: the region has the number's country code, and the number is described by the carrier-specific
description of the region's short-number metadata. -/
theorem C73_carrier_region_iff (C : Container) (S : ShortMap) (n : PhoneNumber) (r : Str) :
    isCarrierSpecificForRegion C S n r = true ↔
      r ∈ C.regionCodes n.cc ∧ ∃ m, mapGet S r = some m ∧ ShortMatches (nsnOf n) m.carrierSpecific := by
  have hn : ∀ u ∈ nsnOf n, isDig u = true := fun u hu => nsnOf_isDig n u hu
  unfold isCarrierSpecificForRegion
  by_cases hr : r ∈ C.regionCodes n.cc
  · simp only [dialingFromMatches, hr, decide_true, Bool.not_true, Bool.false_eq_true, if_false, true_and, shortMeta]
    cases hm : mapGet S r with
    | none => simp
    | some m => simp [matchesPossible_iff _ hn]
  · simp [dialingFromMatches, hr]

/-- `IsSmsServiceForRegion`: likewise with the description of SMS services. -/
theorem C73_sms_region_iff (C : Container) (S : ShortMap) (n : PhoneNumber) (r : Str) :
    isSmsServiceForRegion C S n r = true ↔
      r ∈ C.regionCodes n.cc ∧ ∃ m, mapGet S r = some m ∧ ShortMatches (nsnOf n) m.smsServices := by
  have hn : ∀ u ∈ nsnOf n, isDig u = true := fun u hu => nsnOf_isDig n u hu
  unfold isSmsServiceForRegion
  by_cases hr : r ∈ C.regionCodes n.cc
  · simp only [dialingFromMatches, hr, decide_true, Bool.not_true, Bool.false_eq_true, if_false, true_and, shortMeta]
    cases hm : mapGet S r with
    | none => simp
    | some m => simp [matchesPossible_iff _ hn]
  · simp [dialingFromMatches, hr]

/-- `IsCarrierSpecific`: the answer for the home region of the number. -/
theorem C73_carrier_iff (C : Container) (S : ShortMap) (hS : mapGet S [] = none) (n : PhoneNumber) (h0 : [] ∉ C.regionCodes n.cc) :
    isCarrierSpecific C S n = true ↔ ∃ r, HomeOf S (nsnOf n) (C.regionCodes n.cc) r ∧ isCarrierSpecificForRegion C S n r = true := by
  have hn : ∀ u ∈ nsnOf n, isDig u = true := fun u hu => nsnOf_isDig n u hu
  have hmem : ∀ {rs r}, HomeOf S (nsnOf n) rs r → r ∈ rs := by intro rs r h; cases h <;> simp
  simp only [C73_carrier_region_iff]
  unfold isCarrierSpecific
  constructor
  · intro h
    refine ⟨shortRegionFromList S n (C.regionCodes n.cc), ?_⟩
    cases hm : mapGet S (shortRegionFromList S n (C.regionCodes n.cc)) with
    | none => simp [shortMeta, hm] at h
    | some m =>
      simp only [shortMeta, hm] at h
      have hh : HomeOf S (nsnOf n) (C.regionCodes n.cc) (shortRegionFromList S n (C.regionCodes n.cc)) :=
        (shortRegion_home S n hn _ h0 _).2 ⟨rfl, fun h => by rw [h, hS] at hm; cases hm⟩
      exact ⟨hh, hmem hh, m, rfl, (matchesPossible_iff _ hn _).1 h⟩
  · rintro ⟨r, hh, _, m, hm, hs⟩
    rw [((shortRegion_home S n hn _ h0 _).1 hh).1]
    simp only [shortMeta, hm]
    exact (matchesPossible_iff _ hn _).2 hs

theorem all_entry {S : ShortMap} {f : Metadata → Bool} (h : S.all (fun e => f e.2) = true) {r : Str} {m : Metadata}
    (hm : mapGet S r = some m) : f m = true := List.all_eq_true.1 h (r, m) (mapGet_mem hm)

theorem shipped_services {r : Str} {m : Metadata} (h : mapGet Data.shortMap r = some m) :
    servicesOk m = true ∧ shortGeneralOk m = true ∧ ∃ g, m.general = some g := by
  refine ⟨all_entry Data.wf_services h, all_entry Data.wf_shortGeneral h, ?_⟩
  have := all_entry Data.wf_shortGeneral h
  cases hg : m.general with
  | none => simp [shortGeneralOk, hg] at this
  | some g => exact ⟨g, rfl⟩

/-- A carrier-specific number and an SMS service of a region are possible short numbers there. -/
theorem C73_possible (n : PhoneNumber) (r : Str)
    (h : isCarrierSpecificForRegion Data.container Data.shortMap n r = true ∨ isSmsServiceForRegion Data.container Data.shortMap n r = true) :
    isPossibleShortForRegion Data.container Data.shortMap n r = .ok true := by
  obtain ⟨b, hb, hb2⟩ := C36_possible_region_iff Data.container Data.shortMap Data.wf_shortGeneral n r
  rw [hb, hb2.2 ?_]
  rw [C73_carrier_region_iff, C73_sms_region_iff] at h
  rcases h with ⟨hr, m, hm, h⟩ | ⟨hr, m, hm, h⟩
  all_goals
    obtain ⟨hs, -, hg⟩ := shipped_services hm
    simp only [servicesOk, Bool.and_eq_true] at hs
    obtain ⟨⟨⟨⟨⟨⟨⟨⟨⟨⟨⟨k1, k2⟩, -⟩, -⟩, -⟩, -⟩, -⟩, -⟩, -⟩, -⟩, -⟩, -⟩ := hs
  · obtain ⟨g, hg, hl⟩ := matches_length k1 hg h
    exact ⟨hr, m, g, hm, hg, hl⟩
  · obtain ⟨g, hg, hl⟩ := matches_length k2 hg h
    exact ⟨hr, m, g, hm, hg, hl⟩

/-- But they need not be valid short numbers: 40400 in Afghanistan, the example of both descriptions, is not a short code there. -/
theorem C73_not_valid :
    isCarrierSpecificForRegion Data.container Data.shortMap { countryCode := some 93, nationalNumber := some 40400 } (str!"AF") = true ∧
    isSmsServiceForRegion Data.container Data.shortMap { countryCode := some 93, nationalNumber := some 40400 } (str!"AF") = true ∧
    isValidShortForRegion Data.container Data.shortMap { countryCode := some 93, nationalNumber := some 40400 } (str!"AF") = false := by
  refine ⟨?_, ?_, ?_⟩ <;> kernel_rfl

/-- And a number that is carrier-specific in a region of a shared country code need not be carrier-specific when no region is
given: 1251 in Great Britain. -/
theorem C73_home_differs :
    isCarrierSpecificForRegion Data.container Data.shortMap { countryCode := some 44, nationalNumber := some 1251 } (str!"GB") = true ∧
    isCarrierSpecific Data.container Data.shortMap { countryCode := some 44, nationalNumber := some 1251 } = false := by
  refine ⟨?_, ?_⟩ <;> kernel_rfl

theorem transcript_digits {t : Str} (h : ∀ u ∈ t, isDig u = true) : DigitTranscript (candidate t) t := by
  rw [candidate_digits h]
  have := C01_transcript t
  rwa [normalizeDigitsOnly_of_digits h] at this

theorem emergency_nsn (S : ShortMap) (t r : Str) (h : ∀ u ∈ t, isDig u = true) :
    isEmergency S t r = true ↔ ∃ m d, mapGet S r = some m ∧ m.emergency = some d ∧ ShortWhole t d := by
  rw [C34_is_iff]
  constructor
  · rintro ⟨t', d, ⟨_, h2, m, h3, h4⟩, h5⟩
    cases C01_unique _ _ h2
    have := C01_unique _ _ (transcript_digits h)
    rw [← this] at h5
    exact ⟨m, d, h3, h4, h5⟩
  · rintro ⟨m, d, h3, h4, h5⟩
    refine ⟨t, d, ⟨?_, transcript_digits h, m, h3, h4⟩, h5⟩
    intro u hu
    rw [candidate_digits h] at hu
    have := h u hu
    simp only [isDig, Bool.and_eq_true, decide_eq_true_eq] at this
    simp only [isPlus, Verif.rune_of_lt (show u < 128 by omega)]
    grind

/-- What one dials as an emergency number is a valid short number of the region, and free of charge. -/
theorem C73_emergency (s r : Str) (h : isEmergency Data.shortMap s r = true) (n : PhoneNumber) (hn : DigitTranscript (candidate s) (nsnOf n))
    (hr : r ∈ Data.container.regionCodes n.cc) :
    isValidShortForRegion Data.container Data.shortMap n r = true ∧
    expectedCostForRegion Data.container Data.shortMap n r = .ok .tollFree := by
  obtain ⟨t, d, ⟨_, h2, m, hm, hd⟩, hw⟩ := (C34_is_iff _ _ _).1 h
  have e : t = nsnOf n := by rw [C01_unique _ _ h2, C01_unique _ _ hn]
  subst e
  have hdig : ∀ u ∈ nsnOf n, isDig u = true := fun u hu => nsnOf_isDig n u hu
  obtain ⟨hs, hg, g, hgen⟩ := shipped_services hm
  simp only [servicesOk, Bool.and_eq_true] at hs
  obtain ⟨⟨⟨⟨⟨⟨⟨-, k6⟩, k7⟩, -⟩, -⟩, -⟩, k11⟩, k12⟩ := hs
  rw [hd] at k6 k7
  have w1 := descWithin_sound k6 hdig hw
  have hv : isValidShortForRegion Data.container Data.shortMap n r = true :=
    (C36_valid_region_iff _ _ _ _).2 ⟨hr, m, hm, w1, descWithin_sound k7 hdig hw⟩
  refine ⟨hv, (C35_region _ _ n r m hr hm hg _).2 (.toll hgen ?_ ?_ ?_ (.inr ((emergency_nsn _ _ _ hdig).2 ⟨m, d, hm, hd, hw⟩)))⟩
  · obtain ⟨g', p, hg', hl, -⟩ := w1
    rw [hgen] at hg'; cases hg'
    rcases hl with hl | hl
    · simp [shortGeneralOk, hgen, hl] at hg
    · exact hl
  · intro hx
    obtain ⟨y, hy, hx⟩ := shortMatches_whole hx
    exact descApart_sound k11 hdig hd hy hw hx
  · intro hx
    obtain ⟨y, hy, hx⟩ := shortMatches_whole hx
    exact descApart_sound k12 hdig hd hy hw hx

/-- The cost categories of a region exclude each other, so the cost is the one category that describes the number, whatever the
order in which they are tried. -/
theorem C73_cost (n : PhoneNumber) (r : Str) (m : Metadata) (hr : r ∈ Data.container.regionCodes n.cc)
    (hm : mapGet Data.shortMap r = some m) :
    (expectedCostForRegion Data.container Data.shortMap n r = .ok .premiumRate ↔ ShortMatches (nsnOf n) m.premium) ∧
    (expectedCostForRegion Data.container Data.shortMap n r = .ok .standardRate ↔ ShortMatches (nsnOf n) m.standardRate) ∧
    (expectedCostForRegion Data.container Data.shortMap n r = .ok .tollFree ↔
      (ShortMatches (nsnOf n) m.tollFree ∨ isEmergency Data.shortMap (nsnOf n) r = true)) := by
  have hdig : ∀ u ∈ nsnOf n, isDig u = true := fun u hu => nsnOf_isDig n u hu
  obtain ⟨hs, hg, hgen⟩ := shipped_services hm
  simp only [C35_region _ _ n r m hr hm hg]
  simp only [servicesOk, Bool.and_eq_true] at hs
  obtain ⟨⟨⟨⟨⟨⟨⟨⟨⟨⟨⟨-, -⟩, k3⟩, k4⟩, k5⟩, k6⟩, -⟩, k8⟩, k9⟩, k10⟩, k11⟩, k12⟩ := hs
  refine ⟨⟨fun h => ?_, fun h => ?_⟩, ⟨fun h => ?_, fun h => ?_⟩, ⟨fun h => ?_, fun h => ?_⟩⟩
  · cases h; assumption
  · obtain ⟨g, h1, h2⟩ := matches_length k3 hgen h
    exact .premium h1 h2 h
  · cases h; assumption
  · obtain ⟨g, h1, h2⟩ := matches_length k4 hgen h
    exact .standard h1 h2 (fun h' => descApart_matches k8 hdig h' h) h
  · cases h; assumption
  · rcases h with h | h
    · obtain ⟨g, h1, h2⟩ := matches_length k5 hgen h
      exact .toll h1 h2 (fun h' => descApart_matches k9 hdig h' h) (fun h' => descApart_matches k10 hdig h' h) (.inl h)
    · have := (C73_emergency (nsnOf n) r h n (transcript_digits hdig) hr).2
      exact (C35_region _ _ n r m hr hm hg _).1 this

/-- Without metadata of the empty region (the shipped one has none), and with the regions of the shipped tables, `IsCarrierSpecific`
is as specified. -/
theorem C73_carrier_shipped (n : PhoneNumber) :
    isCarrierSpecific Data.container Data.shortMap n = true ↔
      ∃ r, HomeOf Data.shortMap (nsnOf n) (Data.container.regionCodes n.cc) r ∧
        isCarrierSpecificForRegion Data.container Data.shortMap n r = true :=
  C73_carrier_iff _ _ (by kernel_rfl) n (C36_no_empty_region _)

/-- 112 in Germany, written with spaces. -/
example : isEmergency Data.shortMap (str!"1 1 2") (str!"DE") = true ∧ nsnOf { countryCode := some 49, nationalNumber := some 112 } = str!"112" ∧
    (str!"DE") ∈ Data.container.regionCodes 49 := ⟨by kernel_rfl, by decide, by
      rw [show Data.container.regionCodes 49 = [str!"DE"] by kernel_rfl]; decide⟩
/-- Carrier-specific without a region: one region (Brazil), several regions (411 in the United States). -/
example : isCarrierSpecific Data.container Data.shortMap { countryCode := some 55, nationalNumber := some 151 } = true := by kernel_rfl
example : isCarrierSpecific Data.container Data.shortMap { countryCode := some 1, nationalNumber := some 33669 } = true := by kernel_rfl
example : expectedCostForRegion Data.container Data.shortMap { countryCode := some 33, nationalNumber := some 611 } (str!"FR") = .ok .standardRate := by
  kernel_rfl

end Verif.Props
