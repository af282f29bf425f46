import Verif.Props.C06
import Verif.Props.C08
/-!
# C09: a number that parses without a region parses the same with any region
-/
namespace Verif

theorem nonMatch_find (s : Str) (h : ∀ u ∈ s, isDig u = true) : nonMatchIdd.find s = none := by
  cases hf : nonMatchIdd.find s with
  | none => rfl
  | some x =>
    obtain ⟨a, w, e, h1, _, _, h4, _⟩ := findFrom_sound hf
    have h2 := allCls_acc (P := (·.avoids [48, 49, 50, 51, 52, 53, 54, 55, 56, 57])) (Q := fun u => rune u ∉ [48, 49, 50, 51, 52, 53, 54, 55, 56, 57])
      (fun c hc u hu => Cls.avoids_mem hc u hu) nonMatchIdd (by decide +kernel) _ _ _ h4
    have h3 := minLen_acc _ _ _ _ h4
    cases w with
    | nil => exact absurd h3 (by decide)
    | cons u w =>
      have hu := h u (by rw [h1]; simp)
      refine absurd ?_ (h2 u (by simp))
      rw [rune_of_isDig hu]
      rw [isDig_iff] at hu
      simp [Spec.IsDigit] at hu ⊢; omega

/-- Without metadata and plus sign no code is found. -/
theorem extractOnce_none_noplus (C : Container) (b : Str) (hb0 : b ≠ []) (hb : ∀ u ∈ b, rune u ∉ plusL) :
    extractOnce C b none = .ok (.ok (0, [], .defaultCountry)) := by
  have h : stripIntlPrefix b nonMatchIdd = (normalize b, .defaultCountry) := by
    unfold stripIntlPrefix
    simp [hb0, plus_find_none b hb, parsePrefixAsIdd, nonMatch_find _ (normalize_digits b)]
  unfold extractOnce
  simp [h]

/-- With plus signs in front and no metadata, only the first attempt can succeed; its result does not depend on metadata. -/
theorem extractCore_plus (C : Container) (a b : Str) (h0 : a ≠ []) (ha : ∀ u ∈ a, rune u ∈ plusL) (hb : ∀ u ∈ b, rune u ∉ plusL)
    {r : Int × Str × CCSource} (h : extractCore C (a ++ b) none = .ok (.ok r)) (m : Option Metadata) :
    extractCore C (a ++ b) m = .ok (.ok r) ∧ r.1 ≠ 0 ∧ r.2.2 = .withPlusSign := by
  unfold extractCore at h ⊢
  rw [extractOnce_plus C a b _ h0 ha hb] at h ⊢
  by_cases h1 : blen (normalize b) ≤ minLengthForNSN
  · simp only [h1, if_true, bind, Except.bind, plus_find_start a b h0 ha hb] at h
    cases h
  · by_cases h2 : (extractCC C (normalize b)).1 = 0
    · simp only [h1, h2, if_false, ne_eq, not_true_eq_false, bind, Except.bind, plus_find_start a b h0 ha hb, if_true,
        List.drop_left] at h
      by_cases hb0 : b = []
      · simp only [hb0, if_true] at h; cases h
      · simp only [hb0, if_false, extractOnce_none_noplus C b hb0 hb] at h; cases h
    · simp only [h1, h2, if_false, ne_eq, not_false_eq_true, if_true, bind, Except.bind] at h ⊢
      cases h
      exact ⟨rfl, h2, rfl⟩

/-- Metadata without national prefix for parsing behaves like no metadata when the number is finished. -/
theorem stripStage_plain {national : Str} {md : Metadata} (hp : md.npParsing.src = []) (hg : Spec.hasGeneralLengths md = true) :
    stripStage national (some md) = stripStage national none := by
  have hs : stripNationalPrefix national md = (false, national, []) := by simp [stripNationalPrefix, hp]
  obtain ⟨v, hv⟩ := testNumberLength_unknown_ok hg national
  simp only [stripStage, hs, hv, bind, Except.bind]
  split <;> rfl

/-- The number is finished as with the metadata of the main region, whatever the default region. -/
theorem finishCore_main {C : Container} (hN : Spec.nonGeoOk C = true) (hG : C.allMeta.all Spec.hasGeneralLengths = true)
    (rest : Str) (code : Int) (region : Str) :
    finishCore rest (finishMeta C code region) = finishCore rest (C.metaFor code (C.mainRegion code)) := by
  simp only [Spec.nonGeoOk, Bool.and_eq_true, Bool.not_eq_true', List.all_eq_true, decide_eq_true_eq] at hN
  obtain ⟨⟨hz, hng⟩, hnp⟩ := hN
  by_cases h : C.mainRegion code ≠ region
  · simp only [finishMeta, h, if_true, ne_eq, not_false_eq_true]
  · simp only [ne_eq, Decidable.not_not] at h
    subst h
    simp only [finishMeta, ne_eq, not_true_eq_false, if_false]
    by_cases h1 : C.mainRegion code = nonGeoRegion
    · rw [h1]
      have e1 : C.metaForRegion nonGeoRegion = none := by simp [Container.metaForRegion, hng]
      rw [e1]
      cases h2 : C.metaFor code nonGeoRegion with
      | none => rfl
      | some md =>
        have hmem := Container.metaFor_mem h2
        have h3 : md.npParsing.src = [] := by
          unfold Container.metaFor at h2
          simp only [if_true] at h2
          unfold Container.metaForNonGeo at h2
          split at h2
          · exact hnp _ (mapGet_mem h2)
          · cases h2
        unfold finishCore
        rw [stripStage_plain h3 (List.all_eq_true.1 hG md hmem)]
    · simp [Container.metaFor, h1]

theorem finishCore_region {C : Container} (hN : Spec.nonGeoOk C = true) (hG : C.allMeta.all Spec.hasGeneralLengths = true)
    (rest : Str) (code : Int) (region : Str) :
    finishCore rest (finishMeta C code region) = finishCore rest (finishMeta C code unknownRegion) := by
  rw [finishCore_main hN hG, finishCore_main hN hG]

theorem parseCore_region {C : Container} (hN : Spec.nonGeoOk C = true) (hG : C.allMeta.all Spec.hasGeneralLengths = true)
    {s : Str} {o : ParseOut} (h : parseCore C s unknownRegion true = .ok (.ok o)) (region : Str) :
    parseCore C s region true = .ok (.ok o) := by
  have hz : C.validRegion unknownRegion = false := by
    simp only [Spec.nonGeoOk, Bool.and_eq_true, Bool.not_eq_true'] at hN; exact hN.1.1
  unfold parseCore at h ⊢
  split at h
  · cases h
  · rename_i h0
    split at h
    · cases h
    · rename_i h1
      simp only [h0, h1, if_false]
      cases hb : buildNationalNumber s with
      | error p => rw [hb] at h; cases h
      | ok b =>
        rw [hb] at h
        simp only [bind, Except.bind] at h ⊢
        cases b with
        | error e => cases h
        | ok national =>
          simp only at h ⊢
          split at h
          · cases h
          · rename_i hv
            have hv : isViable national = true := by simpa using hv
            simp only [hv, Bool.not_true, Bool.false_eq_true, if_false]
            split at h
            · cases h
            · rename_i hr
              have hr : checkRegion C national unknownRegion = true := by simpa using hr
              simp only [checkRegion, hz, Bool.false_or] at hr
              have hr' : (true && !checkRegion C national region) = false := by
                simp only [checkRegion, hr, Bool.or_true, Bool.not_true, Bool.and_false]
              simp only [hr', Bool.false_eq_true, if_false]
              simp only [Bool.and_eq_true] at hr
              obtain ⟨a, b, hab, ha0, ha, hb⟩ := viable_plus_start hv hr.2
              unfold parseViable at h ⊢
              simp only [bind, Except.bind] at h ⊢
              have hmz : C.metaForRegion unknownRegion = none := by simp [Container.metaForRegion, hz]
              rw [hmz] at h
              split at h
              · cases h
              · rename_i r hx
                cases r with
                | error e => cases h
                | ok r =>
                  rw [hab] at hx
                  obtain ⟨h3, h4, h5⟩ := extractCore_plus C a b ha0 ha hb hx (C.metaForRegion region)
                  obtain ⟨code, rest, src⟩ := r
                  rw [hab, h3]
                  simp only at h h4 ⊢
                  simp only [h4, ne_eq, not_false_eq_true, if_true] at h ⊢
                  rw [finishCore_region hN hG rest code region]
                  exact h

theorem parse_of_core {C : Container} {s region : Str} {k check : Bool} (pn : PhoneNumber) {o : ParseOut}
    (h : parseCore C s region check = .ok (.ok o)) : parseHelper C s region k check pn = .ok (none, o.apply s k pn) := by
  have h1 := parseHelper_core C s region k check pn
  rw [h] at h1; exact h1

namespace Props
open Spec

/-- If `s` parses with the unknown region "ZZ" then it parses, with an equal result, with every default region (any string). -/
theorem C09_any_region (C : Container) (hN : nonGeoOk C = true) (hG : C.allMeta.all hasGeneralLengths = true) (s : Str)
    (n : PhoneNumber) (h : parse C s (str!"ZZ") = .ok (none, n)) (region : Str) : parse C s region = .ok (none, n) := by
  obtain ⟨o, h1, rfl⟩ := parse_core_of_ok h
  exact parse_of_core {} (parseCore_region hN hG h1 region)

/-- The same when the raw input is kept: the recorded source and carrier code agree too. -/
theorem C09_any_region_raw (C : Container) (hN : nonGeoOk C = true) (hG : C.allMeta.all hasGeneralLengths = true) (s : Str)
    (n : PhoneNumber) (h : parseKeepRaw C s (str!"ZZ") = .ok (none, n)) (region : Str) :
    parseKeepRaw C s region = .ok (none, n) := by
  obtain ⟨o, h1, rfl⟩ := parse_core_of_ok h
  exact parse_of_core {} (parseCore_region hN hG h1 region)

/-- The shipped metadata: unconditional. -/
theorem C09_shipped (s : Str) (n : PhoneNumber) (h : parse Data.container s (str!"ZZ") = .ok (none, n)) (region : Str) :
    parse Data.container s region = .ok (none, n) :=
  C09_any_region _ Data.wf_nonGeo Data.wf_generalLengths s n h region

example : nonGeoOk Data.container = true := Data.wf_nonGeo
example : parse Data.container (str!"+800 1234 5678") (str!"ZZ") =
    .ok (none, { countryCode := some 800, nationalNumber := some 12345678 }) := by kernel_rfl
example : parse Data.container (str!"+800 1234 5678") (str!"001") =
    .ok (none, { countryCode := some 800, nationalNumber := some 12345678 }) := by kernel_rfl

end Props
end Verif
