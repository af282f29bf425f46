import Verif.Props.C20
import Verif.Props.C75
import Verif.Props.C76
/-!
# C77: a number to be dialled from a mobile phone is the number
-/
namespace Verif.Props
open Spec

/-- The number without its extension, which is not dialled. -/
def noExt (n : PhoneNumber) : PhoneNumber := { n with extension := none }

/-- The digits of a written number are what can be dialled of it. -/
theorem diallable_gaps {s : Str} (h : ∀ u ∈ s, isDig u = true ∨ u ∈ gapL) : normalizeDiallable s = s.filter isDig := by
  rw [C02_filter, diallableOf]
  refine List.filter_congr fun u hu => ?_
  rcases h u hu with h | h
  · rw [h, decide_eq_true_eq]; exact .inl ((isDig_iff u).1 h)
  · rw [gapL_dig u h]
    exact (show ∀ u ∈ gapL, decide (IsDiallable u) = false by decide) u h

/-- What can be dialled of the INTERNATIONAL form is the E164 form. -/
theorem diallable_international (n : PhoneNumber) (hcc : Data.container.hasCC n.cc = true) (h2 : 2 ≤ (nsnOf n).length)
    (hraw : ¬ (n.nn = 0 ∧ n.raw ≠ [])) :
    normalizeDiallable (format Data.container (noExt n) .international) = format Data.container (noExt n) .e164 := by
  obtain ⟨M, hM, -⟩ := main_meta built_shipped Data.wf_tables hcc
  have hMm := Container.metaFor_mem hM
  have hok := List.all_eq_true.1 Data.wf_intlFormats M hMm
  have hends := List.all_eq_true.1 wf_intlEnds M hMm
  obtain ⟨k1, -, -⟩ := formatNsn_spaced M hok (List.all_eq_true.1 Data.wf_intlLiterals M hMm) hends (nsnOf n) (nsnOf_isDig n)
    (by intro h; simp [h] at h2)
  have k4 := formatNsn_digits M hok (nsnOf n) (nsnOf_isDig n)
  have h0 : 0 ≤ n.cc := by have := (prefixFree_spec prefixFree_shipped hcc).1; omega
  have hdec : ∀ u ∈ decimal n.cc.toNat, isDig u = true := by rw [← dec_eq_decimal]; exact dec_digits _
  have hfmt : format Data.container (noExt n) .international =
      43 :: (decimal n.cc.toNat ++ 32 :: formatNsn (nsnOf n) (some M) .international []) := by
    have hcc1 : Data.container.hasCC (noExt n).cc = true := hcc
    have hM1 : Data.container.metaFor (noExt n).cc (Data.container.mainRegion (noExt n).cc) = some M := hM
    have hn1 : nsnOf (noExt n) = nsnOf n := rfl
    have he1 : (noExt n).ext = [] := rfl
    have hc1 : decInt (noExt n).cc = decimal n.cc.toNat := decInt_nonneg (c := n.cc) h0
    have hr1 : ¬ ((noExt n).nn = 0 ∧ (noExt n).raw ≠ []) := hraw
    simp only [format, if_neg hr1, formatCore, reduceCtorEq, if_false, hcc1, Bool.not_true, Bool.false_eq_true, hM1, prefixWithCC,
      appendExtension, hn1, he1, hc1, if_true]
  rw [hfmt, C15_shape Data.container (noExt n) h0 hraw]
  have h43 : ∀ s, normalizeDiallable (43 :: s) = 43 :: normalizeDiallable s := by
    intro s
    rw [C02_filter, C02_filter, diallableOf, List.filter_cons_of_pos (by decide)]; rfl
  rw [h43, diallable_gaps, List.filter_append, List.filter_cons_of_neg (by decide), k4, List.filter_eq_self.2 hdec]
  · rfl
  · intro u hu
    rcases List.mem_append.1 hu with hu | hu
    · exact .inl (hdec u hu)
    · rcases List.mem_cons.1 hu with rfl | hu
      · exact .inr (by decide)
      · exact k1 u hu

/-- The INTERNATIONAL form, or what can be dialled of it, is read back. -/
theorem intl_readBack (n : PhoneNumber) (hv : isValidNumber Data.container n = .ok true) (hraw : ¬ (n.nn = 0 ∧ n.raw ≠ []))
    (hex : ¬ Ambiguous n) (b : Bool) (region : Str) :
    ∃ pn, parse Data.container (if b then format Data.container (noExt n) .international else
      normalizeDiallable (format Data.container (noExt n) .international)) region = .ok (none, pn) ∧ ReadsAs pn (noExt n) := by
  obtain ⟨hcc, h2, -, -⟩ := valid_leftAlone n hv hex
  have hv' : isValidNumber Data.container (noExt n) = .ok true := hv
  cases b with
  | true => exact C65_international_valid (noExt n) hv' hraw hex ⟨by simp [noExt], by simp [noExt]⟩ region
  | false =>
    simp only [Bool.false_eq_true, if_false]
    rw [diallable_international n hcc h2 hraw]
    obtain ⟨pn, k1, k2, k3, k4⟩ := C10_valid (noExt n) hv' hraw hex region
    exact ⟨pn, k1, k2, k3, by rw [k4]; rfl⟩

/-- The NATIONAL form, or what can be dialled of it, is read back in a region the number is valid for. -/
theorem national_readBack (n : PhoneNumber) (r : Str) (hv : isValidForRegion Data.container n r = .ok true) (hr : r ≠ str!"001")
    (hu : r ∉ natUnsettled) (hna : ¬ NatAmbiguous n) (hraw : ¬ (n.nn = 0 ∧ n.raw ≠ [])) (b : Bool) :
    ∃ pn, parse Data.container (if b then format Data.container (noExt n) .national else
      normalizeDiallable (format Data.container (noExt n) .national)) r = .ok (none, pn) ∧ ReadsAs pn (noExt n) := by
  have hv' : isValidForRegion Data.container (noExt n) r = .ok true := hv
  have hext : ShortExt (noExt n) 9 := ⟨by simp [noExt], by simp [noExt]⟩
  cases b with
  | true => exact C66_national_valid (noExt n) r hv' hr hu hna hraw hext
  | false =>
    simp only [Bool.false_eq_true, if_false]
    obtain ⟨junk, t, y, c, k1, k2, k3, k4, -, -, h2, h17, -, hcore⟩ := national_core (noExt n) r hv' hr hu hna hraw hext
    have hy : y = [] := by
      have he : (noExt n).ext = [] := rfl
      rw [he] at k4
      generalize hd : ([] : Str) = d at k4
      cases k4 with
      | none => rfl
      | some x d hx hd' h1 h2 => subst hd; simp at h1
    subst hy
    rw [k1, List.append_nil, diallable_gaps, List.filter_append]
    · have : junk.filter isDig = [] := by
        rw [List.filter_eq_nil_iff]
        intro u hu
        rw [gapL_dig u (k2 u hu)]; simp
      rw [this, List.nil_append]
      exact parse_of_core (n := noExt n) hcore h2 h17
    · intro u hu
      rcases List.mem_append.1 hu with hu | hu
      · exact .inr (k2 u hu)
      · exact k3.all u hu

/-- The pieces of the computation. -/
theorem mobile_parts (n : PhoneNumber) : ∃ t d, numberType Data.container n = .ok t ∧ canBeInternationallyDialled Data.container n = .ok d ∧
    (isValidNumber Data.container n = .ok (decide (t ≠ .unknown))) := by
  obtain ⟨v, t, h1, h2, h3⟩ := C26_valid_iff_type _ built_shipped Data.wf_tables Data.wf_allDescs n
  obtain ⟨d, hd⟩ := canBeInternationallyDialled_ok built_shipped Data.wf_tables Data.wf_allDescs n
  refine ⟨t, d, h2, hd, ?_⟩
  rw [h1]
  congr 1
  rw [Bool.eq_iff_iff, decide_eq_true_eq]
  exact h3

/-- From another region than the main region of its country code, a valid number is dialled with its country code if it can be dialled
from abroad: what is returned is read, with any default region, as the number without its extension. -/
theorem C77_abroad (n : PhoneNumber) (r : Str) (b : Bool) (hr : Data.container.mainRegion n.cc ≠ r)
    (hv : isValidNumber Data.container n = .ok true) (hd : canBeInternationallyDialled Data.container n = .ok true)
    (hraw : ¬ (n.nn = 0 ∧ n.raw ≠ [])) (hex : ¬ Ambiguous n) (region : Str) :
    ∃ out pn, formatForMobile Data.container n r b = .ok out ∧ parse Data.container out region = .ok (none, pn) ∧ ReadsAs pn (noExt n) := by
  obtain ⟨t, d, ht, hd', hvt⟩ := mobile_parts n
  rw [hd] at hd'
  obtain rfl := Except.ok.inj hd'
  rw [hv] at hvt
  have htu : t ≠ .unknown := by simpa using Except.ok.inj hvt
  obtain ⟨hcc, h2, -, -⟩ := valid_leftAlone n hv hex
  obtain ⟨pn, k1, k2⟩ := intl_readBack n hv hraw hex b region
  rw [diallable_international n hcc h2 hraw] at k1
  refine ⟨_, pn, ?_, k1, k2⟩
  have ht' : numberType Data.container { n with extension := none } = .ok t := ht
  have hd' : canBeInternationallyDialled Data.container { n with extension := none } = .ok true := hd
  unfold formatForMobile
  rw [if_neg (by simp [hcc])]
  simp only [ht', bind, Except.bind, pure, Except.pure]
  rw [if_neg (fun h => hr h.symm)]
  simp only [htu, not_false_eq_true, if_true, ne_eq, hd']
  rfl

/-- Nothing is returned for a number that is not valid, or cannot be dialled from abroad. -/
theorem C77_abroad_nothing (n : PhoneNumber) (r : Str) (b : Bool) (hcc : Data.container.hasCC n.cc = true)
    (hr : Data.container.mainRegion n.cc ≠ r)
    (h : isValidNumber Data.container n = .ok false ∨ canBeInternationallyDialled Data.container n = .ok false) :
    formatForMobile Data.container n r b = .ok [] := by
  obtain ⟨t, d, ht, hd, hvt⟩ := mobile_parts n
  have ht' : numberType Data.container { n with extension := none } = .ok t := ht
  have hd' : canBeInternationallyDialled Data.container { n with extension := none } = .ok d := hd
  have h : t = .unknown ∨ d = false := by
    rcases h with h | h
    · rw [h] at hvt
      exact .inl (by simpa using Except.ok.inj hvt)
    · rw [h] at hd
      exact .inr (Except.ok.inj hd).symm
  have hn : normalizeDiallable [] = [] := by rw [C02_filter]; rfl
  unfold formatForMobile
  rw [if_neg (by simp [hcc])]
  simp only [ht', bind, Except.bind, pure, Except.pure]
  rw [if_neg (fun h => hr h.symm)]
  simp only [hn, ite_self]
  by_cases htu : t = .unknown
  · simp [htu]
  · rw [h.resolve_left htu] at hd'
    simp [htu, hd']

/-- The number is a fixed-line or mobile number (or it cannot be told which). -/
def FixedOrMobile (t : NumType) : Prop := t = .fixedLine ∨ t = .mobile ∨ t = .fixedLineOrMobile

/-- From the main region of the code, unless it is Brazil: the INTERNATIONAL or the NATIONAL form. -/
theorem home_form (n : PhoneNumber) (r : Str) (b : Bool) (hcc : Data.container.hasCC n.cc = true) (hm : Data.container.mainRegion n.cc = r)
    (hbr : r = str!"BR" → ∀ t, FixedOrMobile t → numberType Data.container n ≠ .ok t) :
    ∃ f, (f = .international ∨ f = .national) ∧ formatForMobile Data.container n r b = .ok (if b then format Data.container (noExt n) f else
      normalizeDiallable (format Data.container (noExt n) f)) ∧
      (r = str!"001" → canBeInternationallyDialled Data.container n = .ok true → f = .international) := by
  obtain ⟨t, d, ht, hd, -⟩ := mobile_parts n
  have ht' : numberType Data.container { n with extension := none } = .ok t := ht
  have hd' : canBeInternationallyDialled Data.container { n with extension := none } = .ok d := hd
  have hb' : ¬ (r = str!"BR" ∧ (t = .fixedLine ∨ t = .mobile ∨ t = .fixedLineOrMobile)) := fun ⟨h1, h2⟩ => hbr h1 t h2 ht
  have key : ∀ (P : Prop) [Decidable P], (if P then .ok d else .ok false : Go Bool) = .ok (if P then d else false) := by
    intro P _; split <;> rfl
  unfold formatForMobile
  rw [if_neg (by simp [hcc])]
  simp only [ht', hm, bind, Except.bind, pure, Except.pure, if_true, hb', if_false, hd']
  by_cases h1 : n.cc = nanpaCountryCode
  · have hl : ∃ v, testNumberLength (nsnOf { n with extension := none }) (Data.container.metaForRegion r) .unknown = .ok v := by
      have hv : (Data.container.metaForRegion (Data.container.mainRegion nanpaCountryCode)).isSome = true := by kernel_rfl
      rw [← hm, h1]
      obtain ⟨m, hm⟩ := Option.isSome_iff_exists.1 hv
      rw [hm]
      exact testNumberLength_unknown_ok (List.all_eq_true.1 Data.wf_generalLengths m (Container.metaForRegion_mem hm)) _
    obtain ⟨v, hl⟩ := hl
    have h001 : r ≠ str!"001" := by
      rw [← hm, h1]
      have : Data.container.mainRegion nanpaCountryCode = str!"US" := by kernel_rfl
      rw [this]; decide
    rw [if_pos h1]
    cases d <;> simp only [hl, Bool.false_eq_true, if_true, if_false]
    · exact ⟨.national, .inr rfl, rfl, fun h => absurd h h001⟩
    · exact ⟨_, by split; exact .inl rfl; exact .inr rfl, rfl, fun h => absurd h h001⟩
  · rw [if_neg h1]
    simp only [key]
    refine ⟨_, by (repeat' split) <;> simp, rfl, fun h hd1 => ?_⟩
    rw [hd] at hd1
    obtain rfl := Except.ok.inj hd1
    have : r = nonGeoRegion := h
    simp [this]

/-- From its own region (the main region of the country code) what is returned for a number valid there is read there as the number without
its extension, unless it is a fixed-line or mobile number of Brazil. -/
theorem C77_home (n : PhoneNumber) (r : Str) (b : Bool) (hm : Data.container.mainRegion n.cc = r) (hr : r ≠ str!"001")
    (hv : isValidForRegion Data.container n r = .ok true) (hu : r ∉ natUnsettled) (hna : ¬ NatAmbiguous n) (hex : ¬ Ambiguous n)
    (hraw : ¬ (n.nn = 0 ∧ n.raw ≠ [])) (hbr : r = str!"BR" → ∀ t, FixedOrMobile t → numberType Data.container n ≠ .ok t) :
    ∃ out pn, formatForMobile Data.container n r b = .ok out ∧ parse Data.container out r = .ok (none, pn) ∧ ReadsAs pn (noExt n) := by
  obtain ⟨-, m, M, rs, -, -, -, -, hmem, -⟩ := validFor_parts n r hv hr
  have hvn : isValidNumber Data.container n = .ok true := (C74_shipped n).2.2 ⟨r, hv⟩
  obtain ⟨f, hf, hout, -⟩ := home_form n r b (regionsOf_hasCC hmem) hm hbr
  rcases hf with rfl | rfl
  · obtain ⟨pn, k1, k2⟩ := intl_readBack n hvn hraw hex b r
    exact ⟨_, pn, hout, k1, k2⟩
  · obtain ⟨pn, k1, k2⟩ := national_readBack n r hv hr hu hna hraw b
    exact ⟨_, pn, hout, k1, k2⟩

/-- The exception: within Brazil such a number needs a carrier code, and nothing is returned without one. -/
theorem C77_brazil (n : PhoneNumber) (b : Bool) (hcc : n.cc = 55) (t : NumType) (ht : numberType Data.container n = .ok t)
    (hf : FixedOrMobile t) (hc : n.preferredCarrier.getD [] = []) : formatForMobile Data.container n (str!"BR") b = .ok [] := by
  have hmain : Data.container.mainRegion n.cc = str!"BR" := by
    rw [hcc]; kernel_rfl
  have hh : Data.container.hasCC n.cc = true := by
    rw [hcc]; kernel_rfl
  have ht' : numberType Data.container { n with extension := none } = .ok t := ht
  have hc' : ({ n with extension := none } : PhoneNumber).carrier = [] := hc
  have hn : normalizeDiallable [] = [] := by rw [C02_filter]; rfl
  unfold formatForMobile
  rw [if_neg (by simp [hh])]
  simp only [ht', hmain, bind, Except.bind, pure, Except.pure, if_true]
  rw [if_pos ⟨trivial, hf⟩]
  simp [hc', hn]

/-- Numbers of non-geographical codes are dialled with their code. -/
theorem C77_nonGeo (n : PhoneNumber) (b : Bool) (hm : Data.container.mainRegion n.cc = str!"001")
    (hv : isValidNumber Data.container n = .ok true) (hraw : ¬ (n.nn = 0 ∧ n.raw ≠ [])) (hex : ¬ Ambiguous n) (region : Str) :
    ∃ out pn, formatForMobile Data.container n (str!"001") b = .ok out ∧ parse Data.container out region = .ok (none, pn) ∧
      ReadsAs pn (noExt n) := by
  obtain ⟨hcc, -⟩ := valid_leftAlone n hv hex
  obtain ⟨f, hf, hout, hi⟩ := home_form n (str!"001") b hcc hm (by intro h; exact absurd h (by decide))
  have hd : canBeInternationallyDialled Data.container n = .ok true := by
    have hreg : regionForNumber Data.container n = .ok (str!"001") := by
      rcases regionsOf_meta built_shipped Data.wf_tables (mainRegion_mem Data.wf_tables hcc) with ⟨h1, h2, -⟩ | ⟨h1, -⟩
      · simp only [regionForNumber, h2]; rfl
      · exact absurd hm h1
    have hnone : Data.container.metaForRegion (str!"001") = none := by kernel_rfl
    simp only [canBeInternationallyDialled, hreg, bind, Except.bind, hnone]; rfl
  obtain rfl := hi rfl hd
  obtain ⟨pn, k1, k2⟩ := intl_readBack n hv hraw hex b region
  exact ⟨_, pn, hout, k1, k2⟩

-- a Swiss number called from Germany and from Switzerland
example : isValidNumber Data.container { countryCode := some 41, nationalNumber := some 446681800, extension := some (str!"7") } = .ok true ∧
    canBeInternationallyDialled Data.container { countryCode := some 41, nationalNumber := some 446681800, extension := some (str!"7") } = .ok true ∧
    isValidForRegion Data.container { countryCode := some 41, nationalNumber := some 446681800, extension := some (str!"7") } (str!"CH") = .ok true ∧
    Data.container.mainRegion 41 = str!"CH" := by
  refine ⟨?_, ?_, ?_, ?_⟩ <;> kernel_rfl
example : formatForMobile Data.container { countryCode := some 41, nationalNumber := some 446681800, extension := some (str!"7") } (str!"DE") false =
    .ok (str!"+41446681800") := by kernel_rfl
example : formatForMobile Data.container { countryCode := some 41, nationalNumber := some 446681800, extension := some (str!"7") } (str!"CH") false =
    .ok (str!"0446681800") := by kernel_rfl
-- a Brazilian mobile number within Brazil
example : numberType Data.container { countryCode := some 55, nationalNumber := some 11961234567 } = .ok .mobile := by kernel_rfl
-- an international freephone number
example : Data.container.mainRegion 800 = str!"001" ∧
    isValidNumber Data.container { countryCode := some 800, nationalNumber := some 12345678 } = .ok true := by
  refine ⟨?_, ?_⟩ <;> kernel_rfl
-- a Swiss number that cannot be called from abroad would be answered with nothing; a number of seven digits is not valid
example : isValidNumber Data.container { countryCode := some 41, nationalNumber := some 4466818 } = .ok false := by kernel_rfl

end Verif.Props
