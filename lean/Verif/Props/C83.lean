import Verif.Model.Example
import Verif.Props.C31
import Verif.Props.C76
/-!
# C83: an example of every type, from any country
-/
namespace Verif
open Spec

/-- The messages of the examples of a type, over all supported regions. -/
def ExampleOf (t : NumType) (n : PhoneNumber) : Prop :=
  ∃ r, r ∈ Data.container.supportedRegions ∧ exampleForTypeInRegion Data.container r t = .ok (some n)

theorem exampleRegion_total (r : Str) (t : NumType) : ∃ o, exampleForTypeInRegion Data.container r t = .ok o := by
  unfold exampleForTypeInRegion
  split
  · exact ⟨_, rfl⟩
  · dsimp only
    split
    · obtain ⟨e, l, he⟩ := (Props.C06_shipped (descEx (descByType (Data.container.metaForRegion r) t)) r).1
      simp only [he, bind, Except.bind, pure, Except.pure]
      cases e <;> exact ⟨_, rfl⟩
    · exact ⟨_, rfl⟩

theorem exampleAmongRegions_spec (t : NumType) (rs : List Str) :
    (∃ r n, r ∈ rs ∧ exampleForTypeInRegion Data.container r t = .ok (some n) ∧ exampleAmongRegions Data.container t rs = .ok (some n)) ∨
      ((∀ r ∈ rs, exampleForTypeInRegion Data.container r t = .ok none) ∧ exampleAmongRegions Data.container t rs = .ok none) := by
  induction rs with
  | nil => exact .inr ⟨by simp, rfl⟩
  | cons r rs ih =>
    obtain ⟨o, ho⟩ := exampleRegion_total r t
    cases o with
    | some n =>
      refine .inl ⟨r, n, by simp, ho, ?_⟩
      simp [exampleAmongRegions, ho, bind, Except.bind, pure, Except.pure]
    | none =>
      have hrec : exampleAmongRegions Data.container t (r :: rs) = exampleAmongRegions Data.container t rs := by
        simp [exampleAmongRegions, ho, bind, Except.bind]
      rw [hrec]
      rcases ih with ⟨r', n, h1, h2, h3⟩ | ⟨h1, h2⟩
      · exact .inl ⟨r', n, by simp [h1], h2, h3⟩
      · refine .inr ⟨?_, h2⟩
        intro r' hr'
        rcases List.mem_cons.1 hr' with rfl | h
        · exact ho
        · exact h1 r' h

/-- For every type but UNKNOWN some region has an example: Great Britain has one of each type but FIXED_LINE_OR_MOBILE, for which the
fixed-line example is taken, and VOICEMAIL, for which Germany has one. -/
theorem examples_exist : (exTypes.all fun t => decide (t = .unknown) || [str!"GB", str!"DE"].any fun r =>
    match mapGet Data.container.regionMeta r with | none => false | some m => decide (descEx (descByType (some m) t) ≠ [])) = true := by
  decide +kernel

theorem fixedLineExamples : (Data.container.regionMeta.all fun e => !(descEx (descByType (some e.2) .fixedLine)).isEmpty) = true := by kernel_rfl

theorem noGeneralExample : (Data.container.allMeta.all fun m => (descEx (descByType (some m) .unknown)).isEmpty) = true := by kernel_rfl

namespace Props

/-- In whatever order the regions and the global calling codes are gone through, `GetExampleNumberForType` gives, for every type but
UNKNOWN, one of the examples of the regions for the type: a valid number of the type or, as a number of several regions or for a
FIXED_LINE_OR_MOBILE request, of a type FIXED_LINE or FIXED_LINE_OR_MOBILE. -/
theorem C83_example (regions : List Str) (codes : List Int) (hr : ∀ r, r ∈ regions ↔ r ∈ Data.container.supportedRegions)
    (t : NumType) (ht : t ≠ .unknown) :
    ∃ n t', exampleForType Data.container regions codes t = .ok (some n) ∧ ExampleOf t n ∧ isValidNumber Data.container n = .ok true ∧
      numberType Data.container n = .ok t' ∧ (t' = t ∨ t' = .fixedLineOrMobile ∨ (t = .fixedLineOrMobile ∧ t' = .fixedLine)) := by
  rcases exampleAmongRegions_spec t regions with ⟨r, n, h1, h2, h3⟩ | ⟨h1, h2⟩
  · have hv : isValidNumber Data.container n = .ok true ∧ ∃ t', numberType Data.container n = .ok t' ∧
        (t' = t ∨ t' = .fixedLineOrMobile ∨ (t = .fixedLineOrMobile ∧ t' = .fixedLine)) := by
      by_cases htt : t = .fixedLineOrMobile
      · subst htt
        obtain ⟨k1, t', k2, k3⟩ := C31_fixedLineOrMobile r n h2
        exact ⟨k1, t', k2, k3.elim (fun h => .inr (.inr ⟨rfl, h⟩)) (fun h => .inl h)⟩
      · obtain ⟨k1, t', k2, k3⟩ := C31_shipped_partial r t htt n h2
        exact ⟨k1, t', k2, k3.elim .inl (fun h => .inr (.inl h))⟩
    obtain ⟨k1, t', k2, k3⟩ := hv
    refine ⟨n, t', ?_, ⟨r, (hr r).1 h1, h2⟩, k1, k2, k3⟩
    simp [exampleForType, h3, bind, Except.bind, pure, Except.pure]
  · exfalso
    have key : ∀ t', t' ≠ .unknown → t' ≠ .fixedLineOrMobile → ∃ r m, Data.container.validRegion r = true ∧
        Data.container.metaForRegion r = some m ∧ descEx (descByType (some m) t') ≠ [] := by
      intro t' h3 h4
      have := List.all_eq_true.1 examples_exist t' (exTypes_all h4)
      simp only [h3, decide_false, Bool.false_or, List.any_eq_true] at this
      obtain ⟨r, hr1, hr2⟩ := this
      have hv : ∀ r ∈ [str!"GB", str!"DE"], Data.container.validRegion r = true := by decide +kernel
      cases hm : mapGet Data.container.regionMeta r with
      | none => rw [hm] at hr2; cases hr2
      | some m =>
        rw [hm] at hr2
        refine ⟨r, m, hv r hr1, ?_, by simpa using hr2⟩
        rw [Container.metaForRegion, if_pos (hv r hr1), hm]
    obtain ⟨r, m, k1, k2, k3⟩ : ∃ r m, Data.container.validRegion r = true ∧
        Data.container.metaForRegion r = some m ∧ descEx (descByType (some m) t) ≠ [] := by
      by_cases htt : t = .fixedLineOrMobile
      · subst htt; exact key .fixedLine (by decide) (by decide)
      · exact key t ht htt
    obtain ⟨n, hn⟩ := C31_exists r m k1 k2 t k3
    have hmem : r ∈ regions := by
      rw [hr]
      simp only [Container.validRegion, Bool.and_eq_true, decide_eq_true_eq] at k1
      exact k1.2
    rw [h1 r hmem] at hn
    cases hn

/-- There is no example of the type UNKNOWN. -/
theorem C83_unknown (regions : List Str) (codes : List Int) : exampleForType Data.container regions codes .unknown = .ok none := by
  have hno : ∀ m, m ∈ Data.container.allMeta → descEx (descByType (some m) .unknown) = [] := by
    intro m hm
    simpa using List.all_eq_true.1 noGeneralExample m hm
  have h1 : exampleAmongRegions Data.container .unknown regions = .ok none := by
    rcases exampleAmongRegions_spec .unknown regions with ⟨r, n, -, h, -⟩ | ⟨-, h⟩
    · exfalso
      unfold exampleForTypeInRegion at h
      split at h
      · cases h
      · cases hm : Data.container.metaForRegion r with
        | none => rw [hm] at h; simp [descByType, descEx] at h
        | some m => rw [hm, hno m (Container.metaForRegion_mem hm)] at h; simp at h
    · exact h
  have h2 : exampleAmongCodes Data.container .unknown codes = .ok none := by
    induction codes with
    | nil => rfl
    | cons cc ccs ih =>
      rw [exampleAmongCodes]
      have : descEx (descByType (Data.container.metaForNonGeo cc) .unknown) = [] := by
        cases hm : Data.container.metaForNonGeo cc with
        | none => rfl
        | some m => exact hno m (Container.metaFor_mem (r := nonGeoRegion) (cc := cc) (by rw [Container.metaFor, if_pos rfl]; exact hm))
      simp only [this, ne_eq, not_true_eq_false, if_false]
      exact ih
  simp [exampleForType, h1, h2, bind, Except.bind]

/-- `GetExampleNumber` gives, in every supported region, a valid number of the region's country code, fixed-line or perhaps mobile too. -/
theorem C83_fixedLine (r : Str) (hr : r ∈ Data.container.supportedRegions) :
    ∃ n t, exampleNumber Data.container r = .ok (some n) ∧ isValidNumber Data.container n = .ok true ∧ n.cc = Data.container.ccForRegion r ∧
      numberType Data.container n = .ok t ∧ (t = .fixedLine ∨ t = .fixedLineOrMobile) := by
  have hval := supported_valid hr
  obtain ⟨-, m, hm, hm', hmem⟩ := validRegion_meta built_shipped Data.wf_tables hval
  have hex : descEx (descByType (some m) .fixedLine) ≠ [] := by
    simpa using List.all_eq_true.1 fixedLineExamples _ (mapGet_mem hm')
  obtain ⟨n, t', h1, h2, h3, h4⟩ := C31_example_partial Data.container built_shipped Data.wf_tables Data.wf_allDescs
    Data.wf_regions Data.wf_transform Data.wf_examples r m hval hm .fixedLine (by decide) hex
  refine ⟨n, t', h1, h2, ?_, h3, h4⟩
  have hcc : Data.container.ccForRegion r = m.countryCode := by simp [Container.ccForRegion, hval, Container.ccForValidRegion, hm]
  rw [hcc]
  obtain ⟨hg, hrm, -, hok⟩ := examplesOk_spec built_shipped Data.wf_tables Data.wf_examples hval hm
  have hok := hok .fixedLine (by decide)
  unfold exOk at hok
  cases hx : descEx (descByType (some m) .fixedLine) with
  | nil => exact absurd hx hex
  | cons a b =>
    simp only [hx] at hok
    cases hp : plainNsn m (a :: b) with
    | none => simp [hp] at hok
    | some nsn =>
      obtain ⟨-, c, hc⟩ := parseCore_plain hval hm hp
      have hpar := parseHelper_core Data.container (a :: b) r false true {}
      rw [hc] at hpar
      unfold exampleForTypeInRegion at h1
      simp only [hval, hm, hx] at h1
      have hpar' : parse Data.container (a :: b) r = _ := hpar
      simp [hpar', bind, Except.bind, pure, Except.pure] at h1
      rw [← h1]; rfl

/-- If no region has an example of the type, the global calling codes are gone through: codes without an example are passed over, and the
first example that can be parsed is given. -/
theorem C83_codes (C : Container) (regions : List Str) (t : NumType) (hr : ∀ r ∈ regions, exampleForTypeInRegion C r t = .ok none)
    (before after : List Int) (cc : Int) (hb : ∀ c ∈ before, descEx (descByType (C.metaForNonGeo c) t) = [])
    (hx : descEx (descByType (C.metaForNonGeo cc) t) ≠ []) (n : PhoneNumber)
    (hp : parse C ((str!"+") ++ (decInt cc ++ descEx (descByType (C.metaForNonGeo cc) t))) (str!"ZZ") = .ok (none, n)) :
    exampleForType C regions (before ++ cc :: after) t = .ok (some n) := by
  have h1 : exampleAmongRegions C t regions = .ok none := by
    induction regions with
    | nil => rfl
    | cons r rs ih =>
      simp [exampleAmongRegions, hr r (by simp), ih fun r' h => hr r' (by simp [h]), bind, Except.bind]
  have h2 : exampleAmongCodes C t (before ++ cc :: after) = .ok (some n) := by
    induction before with
    | nil =>
      have hp' : parse C (43 :: (decInt cc ++ descEx (descByType (C.metaForNonGeo cc) t))) unknownRegion = .ok (none, n) := hp
      simp [exampleAmongCodes, hx, hp', bind, Except.bind, pure, Except.pure]
    | cons c cs ih =>
      simp [exampleAmongCodes, hb c (by simp), ih fun c' h => hb c' (by simp [h])]
  simp [exampleForType, h1, h2, bind, Except.bind]

/-- The code 883 has no toll-free example, 800 has one. -/
example : descEx (descByType (Data.container.metaForNonGeo 883) .tollFree) = [] ∧
    descEx (descByType (Data.container.metaForNonGeo 800) .tollFree) = (str!"12345678") := by decide +kernel

example : ((exampleForType Data.container [] [883, 800] .tollFree).toOption.map fun o => o.map fun n => (n.cc, nsnOf n)) =
    some (some (800, (str!"12345678"))) := by kernel_rfl

/-- The answer depends on the order of the map: the first region with an example gives it. -/
theorem C83_order (r : Str) (n : PhoneNumber) (rs : List Str) (codes : List Int) (t : NumType)
    (h : exampleForTypeInRegion Data.container r t = .ok (some n)) : exampleForType Data.container (r :: rs) codes t = .ok (some n) := by
  simp [exampleForType, exampleAmongRegions, h, bind, Except.bind, pure, Except.pure]

example : (∃ r, r ∈ Data.container.supportedRegions) ∧ exampleForType Data.container Data.container.supportedRegions Data.container.nonGeoCodes .voicemail ≠ .ok none := by
  refine ⟨⟨str!"GB", by decide +kernel⟩, ?_⟩
  intro h
  obtain ⟨n, t', h1, -⟩ := C83_example Data.container.supportedRegions Data.container.nonGeoCodes (fun _ => Iff.rfl) .voicemail (by decide)
  rw [h] at h1; cases h1

end Props
end Verif
