import Verif.Data.Examples
/-!
# C31: example numbers are valid and of the requested type
-/
namespace Verif
open Spec

theorem exTypes_all {t : NumType} (h : t ≠ .fixedLineOrMobile) : t ∈ exTypes := by
  cases t <;> first | exact absurd rfl h | decide

theorem examplesOk_spec {C : Container} (hb : Built C) (ht : tablesOk C = true) (he : examplesOk C = true) {r : Str} {m : Metadata}
    (hr : C.validRegion r = true) (hm : C.metaForRegion r = some m) :
    r ≠ nonGeoRegion ∧ r ∈ C.regionsOf m.countryCode ∧ m ∈ metasOf C (C.regionsOf m.countryCode) ∧
    ∀ t, t ≠ .fixedLineOrMobile → exOk (metasOf C (C.regionsOf m.countryCode)) m t = true := by
  obtain ⟨h1, m', h2, h3, h4⟩ := validRegion_meta hb ht hr
  obtain rfl : m = m' := by rw [hm] at h2; exact Option.some.inj h2
  have hmem : m ∈ metasOf C (C.regionsOf m.countryCode) := List.mem_filterMap.2 ⟨r, h4, h3⟩
  refine ⟨h1, h4, hmem, fun t htt => ?_⟩
  have := List.all_eq_true.1 he _ (regionsOf_entry h4)
  have := List.all_eq_true.1 this m hmem
  exact List.all_eq_true.1 this t (exTypes_all htt)

/-- Parsing plain digits in a region, and the type of the result. -/
theorem parse_plain {C : Container} (hb : Built C) (ht : tablesOk C = true) (hd : C.allMeta.all hasAllDescs = true)
    (hC : regionsOk C = true) (hT : C.allMeta.all transformOk = true) {r : Str} {m : Metadata}
    (hr : C.validRegion r = true) (hm : C.metaForRegion r = some m) (hg : r ≠ nonGeoRegion) (hrm : r ∈ C.regionsOf m.countryCode)
    {d nsn : Str} (h : plainNsn m d = some nsn) :
    ∃ n, parse C d r = .ok (none, n) ∧ ∃ t, numberType C n = .ok t ∧ typeAmong nsn (metasOf C (C.regionsOf m.countryCode)) = some t := by
  obtain ⟨-, c, h1⟩ := parseCore_plain hr hm h
  obtain ⟨-, hdig, h2, h17⟩ := parseCore_spec hC hT h1
  have h3 := parseHelper_core C d r false true {}
  rw [h1] at h3
  refine ⟨_, h3, ?_⟩
  have hn := nsnOf_apply ⟨m.countryCode, [], nsn, some .defaultCountry, c⟩ d false {} hdig h2 h17 rfl
  have hcc : PhoneNumber.cc (ParseOut.apply ⟨m.countryCode, [], nsn, some .defaultCountry, c⟩ d false {}) = m.countryCode := rfl
  have h4 := numberType_among hb ht hd (ParseOut.apply ⟨m.countryCode, [], nsn, some .defaultCountry, c⟩ d false {})
    (r := r) (by rw [hcc]; exact hrm) hg
  rw [hn, hcc] at h4
  exact h4

namespace Props

/-- In every supported region, for every type other than FIXED_LINE_OR_MOBILE for which the metadata has an example,
`GetExampleNumberForType` returns a number; it is valid and its type is the requested one or FIXED_LINE_OR_MOBILE. -/
theorem C31_example_partial (C : Container) (hb : Built C) (ht : tablesOk C = true) (hd : C.allMeta.all hasAllDescs = true)
    (hC : regionsOk C = true) (hT : C.allMeta.all transformOk = true) (he : examplesOk C = true)
    (r : Str) (m : Metadata) (hr : C.validRegion r = true) (hm : C.metaForRegion r = some m)
    (t : NumType) (htt : t ≠ .fixedLineOrMobile) (hex : descEx (descByType (some m) t) ≠ []) :
    ∃ n t', exampleForTypeInRegion C r t = .ok (some n) ∧ isValidNumber C n = .ok true ∧ numberType C n = .ok t' ∧
      (t' = t ∨ t' = .fixedLineOrMobile) := by
  obtain ⟨hg, hrm, -, h1⟩ := examplesOk_spec hb ht he hr hm
  have h2 := h1 t htt
  unfold exOk at h2
  cases hx : descEx (descByType (some m) t) with
  | nil => exact absurd hx hex
  | cons a b =>
    simp only [hx] at h2
    cases hp : plainNsn m (a :: b) with
    | none => simp [hp] at h2
    | some nsn =>
      obtain ⟨n, h3, t', h4, h5⟩ := parse_plain hb ht hd hC hT hr hm hg hrm hp
      simp only [hp, h5] at h2
      obtain ⟨v, t'', h6, h7, h8⟩ := C26_valid_iff_type C hb ht hd n
      obtain rfl : t' = t'' := by rw [h4] at h7; exact Except.ok.inj h7
      have hne : t' ≠ .unknown := by rintro rfl; cases h2
      refine ⟨n, t', ?_, ?_, h4, ?_⟩
      · unfold exampleForTypeInRegion
        rw [hr, hm]
        simp [hx, h3, bind, Except.bind, pure, Except.pure]
      · rw [h6]; exact congrArg _ (h8.2 hne)
      · cases t' <;> simp_all [typeEq_iff]

/-- C31 for the shipped metadata, except for requests for FIXED_LINE_OR_MOBILE (see `C31_fixedLineOrMobile`): whatever
`GetExampleNumberForType` returns is valid and has the requested type, or FIXED_LINE_OR_MOBILE. -/
theorem C31_shipped_partial (r : Str) (t : NumType) (htt : t ≠ .fixedLineOrMobile) (n : PhoneNumber)
    (h : exampleForTypeInRegion Data.container r t = .ok (some n)) :
    isValidNumber Data.container n = .ok true ∧
      ∃ t', numberType Data.container n = .ok t' ∧ (t' = t ∨ t' = .fixedLineOrMobile) := by
  by_cases hr : Data.container.validRegion r = true
  · obtain ⟨-, m, hm, -⟩ := validRegion_meta built_shipped Data.wf_tables hr
    by_cases hex : descEx (descByType (some m) t) = []
    · unfold exampleForTypeInRegion at h
      rw [hr, hm] at h
      simp [hex] at h
    · obtain ⟨n', t', h1, h2, h3, h4⟩ := C31_example_partial Data.container built_shipped Data.wf_tables Data.wf_allDescs
        Data.wf_regions Data.wf_transform Data.wf_examples r m hr hm t htt hex
      rw [h] at h1
      obtain rfl := Option.some.inj (Except.ok.inj h1)
      exact ⟨h2, t', h3, h4⟩
  · unfold exampleForTypeInRegion at h
    simp [hr] at h

/-- In every supported region, and for every type with an example in the metadata, a number is returned (it is never nil because
the example could not be parsed). -/
theorem C31_exists (r : Str) (m : Metadata) (hr : Data.container.validRegion r = true)
    (hm : Data.container.metaForRegion r = some m) (t : NumType) (hex : descEx (descByType (some m) t) ≠ []) :
    ∃ n, exampleForTypeInRegion Data.container r t = .ok (some n) := by
  by_cases htt : t = .fixedLineOrMobile
  · subst htt
    obtain ⟨n, t', h1, -⟩ := C31_example_partial Data.container built_shipped Data.wf_tables Data.wf_allDescs
      Data.wf_regions Data.wf_transform Data.wf_examples r m hr hm .fixedLine (by decide) hex
    exact ⟨n, h1⟩
  · obtain ⟨n, t', h1, -⟩ := C31_example_partial Data.container built_shipped Data.wf_tables Data.wf_allDescs
      Data.wf_regions Data.wf_transform Data.wf_examples r m hr hm t htt hex
    exact ⟨n, h1⟩

/-- A request for FIXED_LINE_OR_MOBILE gets the fixed-line example: valid, but of type FIXED_LINE or FIXED_LINE_OR_MOBILE. -/
theorem C31_fixedLineOrMobile (r : Str) (n : PhoneNumber)
    (h : exampleForTypeInRegion Data.container r .fixedLineOrMobile = .ok (some n)) :
    isValidNumber Data.container n = .ok true ∧
      ∃ t', numberType Data.container n = .ok t' ∧ (t' = .fixedLine ∨ t' = .fixedLineOrMobile) :=
  C31_shipped_partial r .fixedLine (by decide) n h

/-- C31 as stated is false for FIXED_LINE_OR_MOBILE: in Switzerland the answer is a FIXED_LINE number. -/
theorem C31_false : ∃ n, exampleForTypeInRegion Data.container (str!"CH") .fixedLineOrMobile = .ok (some n) ∧
    numberType Data.container n = .ok .fixedLine :=
  ⟨{ countryCode := some 41, nationalNumber := some 212345678 }, by kernel_rfl, by kernel_rfl⟩

example : exampleForTypeInRegion Data.container (str!"CH") .mobile =
    .ok (some { countryCode := some 41, nationalNumber := some 781234567 }) := by kernel_rfl
example : exampleForTypeInRegion Data.container (str!"US") .mobile =
    .ok (some { countryCode := some 1, nationalNumber := some 2015550123 }) ∧
    numberType Data.container { countryCode := some 1, nationalNumber := some 2015550123 } = .ok .fixedLineOrMobile :=
  ⟨by kernel_rfl, by kernel_rfl⟩

end Props
end Verif
