import Verif.Props.C08
import Verif.Props.C26
import Verif.Lemmas.Fast
import Verif.Lemmas.Plain
/-!
# Example numbers: parsing plain digits, and checks over the whole table that do not go through the container
-/
namespace Verif
open Spec

/-- The country code is taken off the front of plain digits (no plus sign, no international prefix). -/
def takesCC (md : Metadata) (d : Str) : Bool :=
  hasPrefix d (decInt md.countryCode) && match testNumberLength d (some md) .unknown with
    | .error _ => true
    | .ok .tooLong => true
    | .ok _ => !(descPat md.general).re.full.isMatch d &&
        (descPat md.general).re.full.isMatch (stripNationalPrefix (d.drop (decInt md.countryCode).length) md).2.1

/-- The national significant number of plain digits entered in the country of `m`, when neither an international prefix nor the
country code is found in front of it. -/
def plainNsn (m : Metadata) (d : Str) : Option Str :=
  match d.all isDig && Nat.ble 3 d.length && Nat.ble d.length 250 with
  | false => none
  | true => match parsePrefixAsIdd m.internationalPrefix.re d with
    | some _ => none
    | none => match takesCC m d with
      | true => none
      | false => match finishCore d (some m) with
        | .ok (.ok (nsn, _)) => some nsn
        | _ => none

theorem stripIntlPrefix_plain {d : Str} {idd : Re} (hd : ∀ u ∈ d, isDig u = true) (h : parsePrefixAsIdd idd d = none) :
    stripIntlPrefix d idd = (d, .defaultCountry) := by
  unfold stripIntlPrefix
  have hp : plusCharsPattern.find d = none := plus_find_none d (fun u hu => by
    rcases isDig_cases (hd u hu) with rfl | rfl | rfl | rfl | rfl | rfl | rfl | rfl | rfl | rfl <;> decide)
  by_cases h0 : d = []
  · simp [h0]
  · rw [if_neg h0]
    simp only [hp, normalize_dig hd, h]

theorem extractOnce_plain {C : Container} {m : Metadata} {d : Str} (hd : ∀ u ∈ d, isDig u = true)
    (h : parsePrefixAsIdd m.internationalPrefix.re d = none) (hc : takesCC m d = false) :
    extractOnce C d (some m) = .ok (.ok (0, [], .defaultCountry)) := by
  unfold extractOnce
  simp only [stripIntlPrefix_plain hd h, ne_eq, not_true_eq_false, if_false]
  unfold takesCC at hc
  by_cases hp : hasPrefix d (decInt m.countryCode) = true
  · simp only [hp, if_true, bind, Except.bind, pure, Except.pure]
    simp only [hp, Bool.true_and] at hc
    cases ht : testNumberLength d (some m) .unknown with
    | error p => simp [ht] at hc
    | ok v =>
      have hv : v ≠ .tooLong := by rintro rfl; simp [ht] at hc
      simp only [ht] at hc
      show (if _ then _ else _) = _
      rw [if_neg]
      · rintro (⟨h1, h2⟩ | h1)
        · cases v <;> simp_all
        · exact hv h1
  · rw [if_neg hp]

theorem parseCore_plain {C : Container} {r : Str} {m : Metadata} (hr : C.validRegion r = true) (hm : C.metaForRegion r = some m)
    {d nsn : Str} (h : plainNsn m d = some nsn) :
    (∀ u ∈ d, isDig u = true) ∧ ∃ c, parseCore C d r true = .ok (.ok ⟨m.countryCode, [], nsn, some .defaultCountry, c⟩) := by
  unfold plainNsn at h
  cases h1 : d.all isDig && Nat.ble 3 d.length && Nat.ble d.length 250 with
  | false => simp [h1] at h
  | true =>
    simp only [h1] at h
    simp only [Bool.and_eq_true, List.all_eq_true, Nat.ble_eq] at h1
    obtain ⟨⟨hd, h3⟩, h250⟩ := h1
    refine ⟨hd, ?_⟩
    cases h4 : parsePrefixAsIdd m.internationalPrefix.re d with
    | some _ => simp [h4] at h
    | none =>
      simp only [h4] at h
      cases h5 : takesCC m d with
      | true => simp [h5] at h
      | false =>
        simp only [h5] at h
        have hne : d ≠ [] := by rintro rfl; simp at h3
        have hpl : Plain d := Plain.digits hne hd
        have hx := extractOnce_plain (C := C) hd h4 h5
        have hr0 : r ≠ [] := by rintro rfl; simp [Container.validRegion] at hr
        cases h6 : finishCore d (some m) with
        | error p => simp [h6] at h
        | ok q =>
          cases q with
          | error e => simp [h6] at h
          | ok q =>
            obtain ⟨nsn', c⟩ := q
            simp only [h6, Option.some.injEq] at h
            subst h
            refine ⟨c, ?_⟩
            unfold parseCore
            rw [if_neg hne, if_neg (by rw [blen_digits hd]; simp only [maxInputStringLength]; omega)]
            simp only [hpl.build, bind, Except.bind, isViable_digits hd h3, checkRegion, hr, pure, Except.pure, Bool.true_or,
              Bool.not_true, Bool.and_false, Bool.false_eq_true, if_false, parseViable, hpl.stripExt, extractCore, hx, hm,
              ne_eq, not_true_eq_false, List.nil_append, normalize_dig hd, h6, hr0, not_false_eq_true, if_true]

/-- The metadata of the first region that claims the number (`regionFromList`, without the container). -/
def firstMeta (nsn : Str) : List Metadata → Option Metadata
  | [] => none
  | m :: ms =>
    match m.leadingDigits.src with
    | _ :: _ => match m.leadingDigits.re.atStart.isMatch nsn with
      | true => some m
      | false => firstMeta nsn ms
    | [] => match numberTypeHelper nsn (some m) with
      | .ok .unknown => firstMeta nsn ms
      | .ok _ => some m
      | .error _ => none

/-- The type of a number among the regions of its code. -/
def typeAmong (nsn : Str) (ms : List Metadata) : Option NumType :=
  match ms with
  | [m] => match numberTypeHelper nsn (some m) with
    | .ok t => some t
    | .error _ => none
  | ms => match firstMeta nsn ms with
    | none => some .unknown
    | some m => match numberTypeHelper nsn (some m) with
      | .ok t => some t
      | .error _ => none

/-- The metadata of some regions. -/
def metasOf (C : Container) (rs : List Str) : List Metadata := rs.filterMap fun r => mapGet C.regionMeta r

theorem metasOf_eq {C : Container} {rs : List Str} (h : ∀ r ∈ rs, ∃ m, C.metaForRegion r = some m ∧ mapGet C.regionMeta r = some m) :
    (metasOf C rs).map some = rs.map C.metaForRegion := by
  induction rs with
  | nil => rfl
  | cons r rs ih =>
    obtain ⟨m, h1, h2⟩ := h r (by simp)
    have := ih (fun r hr => h r (by simp [hr]))
    simp only [metasOf] at this ⊢
    rw [List.filterMap_cons_some h2]
    simp [h1, this]

theorem regionFromList_first {C : Container} (hd : C.allMeta.all hasAllDescs = true) {nsn : Str} (hn : ∀ u ∈ nsn, isDig u = true)
    {rs : List Str} {ms : List Metadata} (h : ms.map some = rs.map C.metaForRegion) :
    ∃ r, regionFromList C nsn rs = .ok r ∧ C.metaForRegion r = firstMeta nsn ms := by
  induction rs generalizing ms with
  | nil =>
    cases ms with
    | nil => exact ⟨[], rfl, by simp [firstMeta, Container.metaForRegion, Container.validRegion]⟩
    | cons _ _ => simp at h
  | cons r rs ih =>
    cases ms with
    | nil => simp at h
    | cons m ms =>
      simp only [List.map_cons, List.cons.injEq] at h
      obtain ⟨h1, h2⟩ := h
      obtain ⟨r', ih1, ih2⟩ := ih h2
      obtain ⟨t, hty⟩ := numberTypeHelper_ok (List.all_eq_true.1 hd m (Container.metaForRegion_mem h1.symm)) hn
      simp only [regionFromList, firstMeta, ← h1, hty, bind, Except.bind, pure, Except.pure, ih1]
      cases hl : m.leadingDigits.src with
      | nil =>
        simp only [ne_eq, not_true_eq_false, if_false]
        by_cases ht : t = .unknown
        · subst ht; simp [ih2]
        · simp only [ht, not_false_eq_true, if_true]
          refine ⟨r, rfl, ?_⟩
          cases t <;> simp_all
      | cons a b =>
        simp only [ne_eq, reduceCtorEq, not_false_eq_true, if_true]
        cases hm : m.leadingDigits.re.atStart.isMatch nsn with
        | true => exact ⟨r, by simp, by simp [← h1]⟩
        | false => exact ⟨r', by simp, by simp [ih2]⟩

/-- The type of a number of a geographical code. -/
theorem numberType_among {C : Container} (hb : Built C) (ht : tablesOk C = true) (hd : C.allMeta.all hasAllDescs = true)
    (n : PhoneNumber) {r : Str} (hr : r ∈ C.regionsOf n.cc) (hg : r ≠ nonGeoRegion) :
    ∃ t, numberType C n = .ok t ∧ typeAmong (nsnOf n) (metasOf C (C.regionsOf n.cc)) = some t := by
  have hall : ∀ r' ∈ C.regionsOf n.cc, r' ≠ nonGeoRegion ∧ ∃ m, C.metaForRegion r' = some m ∧ mapGet C.regionMeta r' = some m := by
    intro r' hr'
    rcases regionsOf_meta hb ht hr' with ⟨_, h2, _⟩ | ⟨h0, _, m, h2, h3, _⟩
    · rw [h2] at hr; simp at hr; exact absurd hr hg
    · exact ⟨h0, m, h2, h3⟩
  have heq := metasOf_eq (fun r' hr' => (hall r' hr').2)
  generalize hms : metasOf C (C.regionsOf n.cc) = ms at heq
  unfold numberType regionForNumber
  cases hrs : C.regionsOf n.cc with
  | nil => simp [hrs] at hr
  | cons a rs =>
    rw [hrs] at heq hall
    cases rs with
    | nil =>
      obtain ⟨h0, m, h1, h2⟩ := hall a (by simp)
      obtain rfl : ms = [m] := by
        cases ms with
        | nil => simp at heq
        | cons x xs => simp [h1] at heq; simp [heq]
      obtain ⟨t, hty⟩ := numberTypeHelper_ok (List.all_eq_true.1 hd m (Container.metaForRegion_mem h1)) (nsnOf_isDig n)
      exact ⟨t, by simp [bind, Except.bind, Container.metaFor, h0, h1, hty], by simp [typeAmong, hty]⟩
    | cons b rs =>
      obtain ⟨r', h1, h2⟩ := regionFromList_first hd (nsnOf_isDig n) heq
      obtain ⟨m1, m2, ms', rfl⟩ : ∃ m1 m2 ms', ms = m1 :: m2 :: ms' := by
        cases ms with
        | nil => simp at heq
        | cons m1 ms =>
          cases ms with
          | nil => simp at heq
          | cons m2 ms' => exact ⟨_, _, _, rfl⟩
      simp only [h1, bind, Except.bind, typeAmong]
      have hr' : r' ≠ nonGeoRegion := by
        obtain ⟨r'', h3, h4⟩ := regionFromList_ok hd (nsnOf_isDig n) (fun r hr => by
          obtain ⟨-, m, h5, -⟩ := hall r hr; exact ⟨m, h5⟩)
        rw [h1] at h3
        obtain rfl := Except.ok.inj h3
        rcases h4 with rfl | h4
        · decide
        · exact (hall _ h4).1
      simp only [Container.metaFor, hr', if_false, h2]
      cases hf : firstMeta (nsnOf n) (m1 :: m2 :: ms') with
      | none => exact ⟨.unknown, rfl, rfl⟩
      | some m =>
        rw [hf] at h2
        obtain ⟨t, hty⟩ := numberTypeHelper_ok (List.all_eq_true.1 hd m (Container.metaForRegion_mem h2)) (nsnOf_isDig n)
        exact ⟨t, by simp [hty], by simp [hty]⟩

end Verif
