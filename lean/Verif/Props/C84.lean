import Verif.Props.C57
import Verif.Props.C74
/-!
# C84: descriptions of numbers for users of a region
-/
namespace Verif.Props
open Verif Spec

theorem valid_regionOf (n : PhoneNumber) (t : NumType) (ht : numberType Data.container n = .ok t) (hu : t ≠ .unknown) :
    ∃ r, regionForNumber Data.container n = .ok r ∧ r ∈ Data.container.regionsOf n.cc ∧ isValidForRegion Data.container n r = .ok true := by
  rcases regionForNumber_cases built_shipped Data.wf_tables Data.wf_allDescs n with hr | ⟨r, m, hr, hmem, hm, hcc, hv⟩
  · have := (C30_number _ n [] hr Data.wf_allDescs t).1 ht
    rw [metaFor_nil] at this
    exact absurd this hu
  · refine ⟨r, hr, hmem, ?_⟩
    obtain ⟨v, t', h1, h2, h3⟩ := C26_valid_iff_type Data.container built_shipped Data.wf_tables Data.wf_allDescs n
    rw [ht] at h2; cases h2
    have hv1 : isValidNumber Data.container n = .ok true := by rw [h1, h3.2 hu]
    unfold isValidNumber at hv1
    simpa [hr, bind, Except.bind] using hv1

/-- `GetDescriptionForNumberForUserRegion` for every message, every user region, every description map and every naming of regions.
A number of unknown type has no description.  A number that is not geographical is described by the name of its country, whoever the
user is.  A geographical number is described for users of its own region as `GetDescriptionForNumber` does, and for all others by the
name of its region, which is a region of its country code where it is valid. -/
theorem C84_user (disp : Str → Bytes) (m : List (Int × Bytes)) (hk : (m.map (·.1)).Nodup) (n : PhoneNumber) (user : Str) :
    ∃ t d, numberType Data.container n = .ok t ∧ descriptionForNumberForUser Data.container disp (some m) n user = .ok (some d) ∧
      (t = .unknown → d = []) ∧
      (t ≠ .unknown → ¬ Geographical t n.cc → CountryName Data.container disp n d) ∧
      (t ≠ .unknown → Geographical t n.cc → ∃ r, regionForNumber Data.container n = .ok r ∧ r ∈ Data.container.regionsOf n.cc ∧
        isValidForRegion Data.container n r = .ok true ∧
        (user = r → descriptionForNumber Data.container disp (some m) n = .ok (some d)) ∧
        (user ≠ r → NameOfRegion disp r d)) := by
  obtain ⟨t, d, ht, hd, h1, h2, h3⟩ := C57_shipped disp m hk n
  by_cases hu : t = .unknown
  · refine ⟨t, [], ht, ?_, fun _ => rfl, fun h => absurd hu h, fun h => absurd hu h⟩
    simp [descriptionForNumberForUser, ht, hu, bind, Except.bind, pure, Except.pure]
  · by_cases hg : Geographical t n.cc
    · obtain ⟨r, hr, hmem, hval⟩ := valid_regionOf n t ht hu
      by_cases hur : user = r
      · refine ⟨t, d, ht, ?_, fun h => absurd h hu, fun _ h => absurd hg h, fun _ _ => ⟨r, hr, hmem, hval, fun _ => hd, fun h => absurd hur h⟩⟩
        rw [← hd]
        simp [descriptionForNumberForUser, descriptionForNumber, descriptionForValidForUser, ht, hu, (geographical_iff t n.cc).2 hg, hr, hur,
          bind, Except.bind]
      · refine ⟨t, regionDisplayName disp r, ht, ?_, fun h => absurd h hu, fun _ h => absurd hg h,
          fun _ _ => ⟨r, hr, hmem, hval, fun h => absurd h hur, fun _ => nameOfRegion disp r⟩⟩
        simp [descriptionForNumberForUser, descriptionForValidForUser, ht, hu, (geographical_iff t n.cc).2 hg, hr, hur,
          bind, Except.bind, pure, Except.pure]
    · refine ⟨t, d, ht, ?_, fun h => absurd h hu, h2, fun _ h => absurd h hg⟩
      have hgf : isGeographicalForType t n.cc = false := by
        rw [Bool.eq_false_iff]; exact fun h => hg ((geographical_iff t n.cc).1 h)
      rw [← hd]
      simp [descriptionForNumberForUser, descriptionForNumber, ht, hu, hgf, bind, Except.bind]

/-- For users of other regions a geographical number that is valid in one region only is described by the name of that region. -/
theorem C84_only (disp : Str → Bytes) (m : List (Int × Bytes)) (hk : (m.map (·.1)).Nodup) (n : PhoneNumber) (user r : Str) (t : NumType)
    (ht : numberType Data.container n = .ok t) (hu : t ≠ .unknown) (hg : Geographical t n.cc)
    (hr : (Data.container.regionsOf n.cc).filter (validIn Data.container n) = [r]) (hur : user ≠ r) :
    ∃ d, descriptionForNumberForUser Data.container disp (some m) n user = .ok (some d) ∧ NameOfRegion disp r d := by
  obtain ⟨t', d, ht', hd, -, -, h3⟩ := C84_user disp m hk n user
  rw [ht] at ht'; cases ht'
  obtain ⟨r', -, hmem, hv, -, h⟩ := h3 hu hg
  have : r' ∈ (Data.container.regionsOf n.cc).filter (validIn Data.container n) :=
    List.mem_filter.2 ⟨hmem, by simp [validIn, hv]⟩
  rw [hr] at this
  obtain rfl := List.mem_singleton.1 this
  exact ⟨d, hd, h hur⟩

/-- A number of Mountain View, for users in the United States and in Great Britain. -/
def mountainView : PhoneNumber := { countryCode := some 1, nationalNumber := some 6502530000 }

def mountainNames : List (Int × Bytes) := [(1650253, str!"Mountain View, CA")]

example (disp : Str → Bytes) :
    descriptionForNumberForUser Data.container disp (some mountainNames) mountainView (str!"US") = .ok (some (str!"Mountain View, CA")) ∧
    descriptionForNumberForUser Data.container disp (some mountainNames) mountainView (str!"GB") = .ok (some (disp (str!"US"))) := by
  refine ⟨?_, ?_⟩ <;> kernel_rfl

example : numberType Data.container mountainView = .ok .fixedLineOrMobile ∧ Geographical .fixedLineOrMobile mountainView.cc ∧
    (mountainNames.map (·.1)).Nodup ∧ (Data.container.regionsOf mountainView.cc).filter (validIn Data.container mountainView) = [str!"US"] := by
  refine ⟨by kernel_rfl, .inr (.inl rfl), by decide, by kernel_rfl⟩

end Verif.Props
