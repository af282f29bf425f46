import Verif.Props.C10
import Verif.Props.C31
import Verif.Props.C55
/-!
# C67: the supported types of a region are the types of its numbers
-/
namespace Verif
open Spec

/-- A type other than FIXED_LINE_OR_MOBILE and UNKNOWN whose description has data, has an example; if fixed line and mobile have the
same pattern and one has data, both have. -/
def supportedOk (m : Metadata) : Bool :=
  (exTypes.all fun t => typeEq t .unknown || !descHasData (descByType (some m) t) || !(descEx (descByType (some m) t)).isEmpty) &&
    (!m.sameMobileFixed || !descHasData m.fixedLine || descHasData m.mobile)

theorem Data.wf_supported : Data.container.allMeta.all supportedOk = true := by kernel_rfl

/-- In a non-geographical entry the example of a type has this type, or FIXED_LINE_OR_MOBILE. -/
def nonGeoTypesOk (m : Metadata) : Bool :=
  exTypes.all fun t => typeEq t .unknown || match descEx (descByType (some m) t) with
    | [] => true
    | ex => ex.all isDig && Nat.ble 2 ex.length && Nat.ble ex.length 17 && match numberTypeHelper ex (some m) with
      | .ok t' => typeEq t' t || typeEq t' .fixedLineOrMobile
      | .error _ => false

theorem Data.wf_nonGeoTypes : Data.container.nonGeoMeta.all (fun e => nonGeoTypesOk e.2) = true := by kernel_rfl

/-- A description that a non-empty number matches has data. -/
theorem descHasData_of_matches {nsn : Str} {d : Option Desc} (h : Matches nsn d) (hne : nsn ≠ []) : descHasData d = true := by
  obtain ⟨x, rfl, -, hx⟩ := h
  cases hp : x.pattern with
  | none => rw [hp] at hx; exact absurd hx hne
  | some p => simp [descHasData, hp]

/-- The type of a number has data in the metadata. -/
theorem hasType_data {m : Metadata} (hs : supportedOk m = true) {nsn : Str} (hne : nsn ≠ []) {t : NumType} (h : HasType nsn m t) (ht : t ≠ .unknown) :
    if t = .fixedLineOrMobile then descHasData m.fixedLine = true ∧ descHasData m.mobile = true else descHasData (descByType (some m) t) = true := by
  cases h with
  | notGeneral => exact absurd rfl ht
  | neither => exact absurd rfl ht
  | both _ _ hf hm =>
    rw [if_pos rfl]
    refine ⟨descHasData_of_matches hf hne, ?_⟩
    rcases hm with hm | hm
    · simp only [supportedOk, hm, Bool.and_eq_true] at hs
      simpa [descHasData_of_matches hf hne] using hs.2
    · exact descHasData_of_matches hm hne
  | fixed _ _ hf => rw [if_neg (by decide)]; exact descHasData_of_matches hf hne
  | mobile _ _ _ _ hm => rw [if_neg (by decide)]; exact descHasData_of_matches hm hne
  | @special pre post d _ _ hs' hd _ =>
    have hmem : (d, t) ∈ specialKinds m := by rw [hs']; simp
    have hd' := descHasData_of_matches hd hne
    simp only [specialKinds, List.mem_cons, Prod.mk.injEq, List.not_mem_nil, or_false] at hmem
    rcases hmem with ⟨rfl, rfl⟩ | ⟨rfl, rfl⟩ | ⟨rfl, rfl⟩ | ⟨rfl, rfl⟩ | ⟨rfl, rfl⟩ | ⟨rfl, rfl⟩ | ⟨rfl, rfl⟩ | ⟨rfl, rfl⟩ <;>
      (rw [if_neg (by decide)]; exact hd')

theorem mem_supportedTypes {m : Option Metadata} {t : NumType} :
    t ∈ supportedTypes m ↔ t ≠ .fixedLineOrMobile ∧ t ≠ .unknown ∧ descHasData (descByType m t) = true := by
  simp only [supportedTypes, List.mem_filter, Bool.and_eq_true, decide_eq_true_eq, and_assoc]
  exact ⟨fun h => h.2, fun h => ⟨by cases t <;> decide, h⟩⟩

namespace Props

/-- The types that a number of type `t` shows its region to have: FIXED_LINE_OR_MOBILE stands for both. -/
def Shows (t s : NumType) : Prop := (t = s ∧ t ≠ .fixedLineOrMobile) ∨ (t = .fixedLineOrMobile ∧ (s = .fixedLine ∨ s = .mobile))

/-- The types `GetSupportedTypesForRegion`, or `GetSupportedTypesForNonGeoEntity` for the region "001", returns. -/
noncomputable def supportedOf (cc : Int) (r : Str) : List NumType :=
  if r = str!"001" then supportedTypesForNonGeo Data.container cc else supportedTypesForRegion Data.container r

/-- The type of every valid number is among the supported types of the number's region. -/
theorem C67_listed (n : PhoneNumber) (r : Str) (t : NumType) (hr : regionForNumber Data.container n = .ok r)
    (ht : numberType Data.container n = .ok t) (hk : t ≠ .unknown) (s : NumType) (hs : Shows t s) : s ∈ supportedOf n.cc r := by
  obtain ⟨v, t', hv, ht', hiff⟩ := C26_valid_iff_type Data.container built_shipped Data.wf_tables Data.wf_allDescs n
  obtain rfl : t = t' := by rw [ht] at ht'; exact Except.ok.inj ht'
  rcases regionForNumber_cases built_shipped Data.wf_tables Data.wf_allDescs n with h0 | ⟨r', m, h1, h2, h3, -, -⟩
  · rw [hr] at h0
    obtain rfl := Except.ok.inj h0
    simp only [numberType, hr, bind, Except.bind, metaFor_nil, pure, Except.pure] at ht
    exact absurd (Except.ok.inj ht).symm hk
  · obtain rfl : r = r' := by rw [hr] at h1; exact Except.ok.inj h1
    have hmem := Container.metaFor_mem h3
    have hdm := List.all_eq_true.1 Data.wf_allDescs m hmem
    have hsup := List.all_eq_true.1 Data.wf_supported m hmem
    have hty : numberTypeHelper (nsnOf n) (some m) = .ok t := by
      simpa only [numberType, hr, bind, Except.bind, h3] using ht
    have hT := (C30_type m hdm (nsnOf n) (C04_digits n) t).1 hty
    have hne : nsnOf n ≠ [] := by
      obtain ⟨⟨g, hg, hl, -⟩, -⟩ := ofKind_of_type hT hk
      have hrange := List.all_eq_true.1 lengthsInRange_shipped m hmem
      simp only [lengthsInRange, hg, Bool.and_eq_true, List.all_eq_true, Nat.ble_eq] at hrange
      have := hrange.2 _ (hl.resolve_left (by intro h0; simp [h0] at hrange))
      intro h0
      rw [h0] at this
      simp at this
    have hd := hasType_data hsup hne hT hk
    have key : s ∈ supportedTypes (some m) := by
      rw [mem_supportedTypes]
      rcases hs with ⟨rfl, h⟩ | ⟨rfl, rfl | rfl⟩
      · rw [if_neg h] at hd; exact ⟨h, hk, hd⟩
      · rw [if_pos rfl] at hd; exact ⟨by decide, by decide, hd.1⟩
      · rw [if_pos rfl] at hd; exact ⟨by decide, by decide, hd.2⟩
    unfold supportedOf
    rcases regionsOf_meta built_shipped Data.wf_tables h2 with ⟨h4, -⟩ | ⟨h4, h5, m', h6, -⟩
    · have h4' : r = str!"001" := h4
      rw [if_pos h4']
      simp only [Container.metaFor, h4, if_true] at h3
      simpa only [supportedTypesForNonGeo, h3] using key
    · have h4' : r ≠ str!"001" := h4
      rw [if_neg h4']
      simp only [Container.metaFor, h4, if_false] at h3
      simpa only [supportedTypesForRegion, h5, if_true, h3] using key

/-- Conversely, for every type listed for a region `GetExampleNumberForTypeInRegion` returns a number, which is valid and shows the type. -/
theorem C67_inhabited (r : Str) (t : NumType) (h : t ∈ supportedTypesForRegion Data.container r) :
    ∃ n t', exampleForTypeInRegion Data.container r t = .ok (some n) ∧ isValidNumber Data.container n = .ok true ∧
      numberType Data.container n = .ok t' ∧ (t' = t ∨ t' = .fixedLineOrMobile) := by
  unfold supportedTypesForRegion at h
  split at h
  · rename_i hr
    obtain ⟨-, m, hm, -⟩ := validRegion_meta built_shipped Data.wf_tables hr
    rw [hm, mem_supportedTypes] at h
    refine C31_example_partial Data.container built_shipped Data.wf_tables Data.wf_allDescs Data.wf_regions Data.wf_transform
      Data.wf_examples r m hr hm t h.1 ?_
    have hsup := List.all_eq_true.1 Data.wf_supported m (Container.metaForRegion_mem hm)
    simp only [supportedOk, Bool.and_eq_true, List.all_eq_true, Bool.or_eq_true, Bool.not_eq_true'] at hsup
    rcases hsup.1 t (exTypes_all h.1) with (h1 | h1) | h1
    · exact absurd ((typeEq_iff _ _).1 h1) h.2.1
    · rw [h.2.2] at h1; cases h1
    · intro h0; rw [h0] at h1; cases h1
  · cases h

/-- For every type listed for a non-geographical entity there is a valid number of the entity with this type (or FIXED_LINE_OR_MOBILE). -/
theorem C67_inhabited_nonGeo (cc : Int) (t : NumType) (h : t ∈ supportedTypesForNonGeo Data.container cc) :
    ∃ n t', n.cc = cc ∧ isValidNumber Data.container n = .ok true ∧ numberType Data.container n = .ok t' ∧
      (t' = t ∨ t' = .fixedLineOrMobile) := by
  unfold supportedTypesForNonGeo at h
  cases hm : Data.container.metaForNonGeo cc with
  | none => rw [hm] at h; cases h
  | some m =>
    rw [hm] at h
    simp only [mem_supportedTypes] at h
    have hmem := metaForNonGeo_mem hm
    have hsup := List.all_eq_true.1 Data.wf_supported m (Container.metaForNonGeo_mem hm)
    have hty := List.all_eq_true.1 (List.all_eq_true.1 Data.wf_nonGeoTypes _ hmem) t (exTypes_all h.1)
    have hreg : Data.container.regionsOf cc = [nonGeoRegion] := by
      simpa using List.all_eq_true.1 Data.wf_nonGeoRegions _ hmem
    simp only [supportedOk, Bool.and_eq_true, List.all_eq_true, Bool.or_eq_true, Bool.not_eq_true'] at hsup
    have hex : descEx (descByType (some m) t) ≠ [] := by
      rcases hsup.1 t (exTypes_all h.1) with (h1 | h1) | h1
      · exact absurd ((typeEq_iff _ _).1 h1) h.2.1
      · rw [h.2.2] at h1; cases h1
      · intro h0; rw [h0] at h1; cases h1
    rw [Bool.or_eq_true] at hty
    replace hty := hty.resolve_left (fun h1 => h.2.1 ((typeEq_iff _ _).1 h1))
    generalize descEx (descByType (some m) t) = ex at *
    cases ex with
    | nil => exact absurd rfl hex
    | cons a b =>
      simp only [Bool.and_eq_true, List.all_eq_true, Nat.ble_eq] at hty
      obtain ⟨⟨⟨k1, k2⟩, k3⟩, k4⟩ := hty
      have hst := C05_store (a :: b) {} (fun u hu => (isDig_iff u).1 (k1 u hu)) k2 k3 rfl
      let n : PhoneNumber := { store (a :: b) {} with countryCode := some cc }
      have hnn : nsnOf n = a :: b := hst
      have hcc : n.cc = cc := rfl
      have hty : numberType Data.container n = numberTypeHelper (a :: b) (some m) := by
        simp only [numberType, regionForNumber, hcc, hreg, bind, Except.bind, Container.metaFor, if_true, hm, hnn]
      cases hh : numberTypeHelper (a :: b) (some m) with
      | error e => rw [hh] at k4; cases k4
      | ok t' =>
        rw [hh] at k4 hty
        simp only [Bool.or_eq_true, typeEq_iff] at k4
        obtain ⟨v, t'', h6, h7, h8⟩ := C26_valid_iff_type Data.container built_shipped Data.wf_tables Data.wf_allDescs n
        obtain rfl : t' = t'' := by rw [hty] at h7; exact Except.ok.inj h7
        refine ⟨n, t', hcc, ?_, hty, k4⟩
        rw [h6]
        refine congrArg _ (h8.2 ?_)
        rcases k4 with rfl | rfl
        · exact h.2.1
        · decide

/-- UNKNOWN and FIXED_LINE_OR_MOBILE are never listed, and an unknown region has no types. -/
theorem C67_never (C : Container) (r : Str) (t : NumType) (h : t ∈ supportedTypesForRegion C r) :
    t ≠ .unknown ∧ t ≠ .fixedLineOrMobile ∧ C.validRegion r = true := by
  unfold supportedTypesForRegion at h
  split at h
  · rename_i hr; exact ⟨(mem_supportedTypes.1 h).2.1, (mem_supportedTypes.1 h).1, hr⟩
  · cases h

example : regionForNumber Data.container { countryCode := some 1, nationalNumber := some 2015550123 } = .ok (str!"US") ∧
    numberType Data.container { countryCode := some 1, nationalNumber := some 2015550123 } = .ok .fixedLineOrMobile := by
  refine ⟨?_, ?_⟩ <;> kernel_rfl
example : NumType.mobile ∈ supportedTypesForRegion Data.container (str!"CH") ∧
    NumType.pager ∉ supportedTypesForRegion Data.container (str!"US") := by decide +kernel
example : supportedTypesForNonGeo Data.container 979 = [.premiumRate] := by kernel_rfl

end Props
end Verif
