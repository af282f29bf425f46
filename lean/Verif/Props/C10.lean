import Verif.Lemmas.NationalPrefix
import Verif.Props.C05
import Verif.Props.C15
import Verif.Props.C24
import Verif.Props.C25
/-!
# C10: E164 output is parsed back to the same number
-/
namespace Verif.Props
open Spec

/-- The last steps of parsing a number that is left alone: the country code is split off and nothing else is. -/
theorem roundtrip_finish (C : Container) (hC : prefixFree C = true) (h00 : C.hasCC 0 = false) (hN : nonGeoOk C = true)
    (hG : C.allMeta.all lengthTablesOk = true) (n : PhoneNumber) (hcc : C.hasCC n.cc = true)
    (h2 : 2 ≤ (nsnOf n).length) (h17 : (nsnOf n).length ≤ 17)
    (ha : ∀ m, C.metaFor n.cc (C.mainRegion n.cc) = some m → LeftAlone m (nsnOf n)) (region : Str) :
    extractCC C (decimal n.cc.toNat ++ nsnOf n) = (n.cc, nsnOf n) ∧
      finishCore (nsnOf n) (finishMeta C n.cc region) = .ok (.ok (nsnOf n, [])) := by
  have hdig : ∀ u ∈ nsnOf n, isDig u = true := nsnOf_isDig n
  have hx := C13_unique C hC h00 n.cc (nsnOf n) hcc (C04_digits n)
  have hgen : C.allMeta.all hasGeneralLengths = true := by
    rw [List.all_eq_true] at hG ⊢
    intro m hm
    obtain ⟨g, hg, h3, -⟩ := lengthTablesOk_general (hG m hm)
    simp [hasGeneralLengths, hg, h3]
  have hstage : stripStage (nsnOf n) (C.metaFor n.cc (C.mainRegion n.cc)) = .ok (nsnOf n, []) := by
    cases hm : C.metaFor n.cc (C.mainRegion n.cc) with
    | none => rfl
    | some m => exact stripStage_leftAlone (List.all_eq_true.1 hG m (Container.metaFor_mem hm)) hdig (ha m hm)
  refine ⟨hx, ?_⟩
  rw [finishCore_main hN hgen]
  unfold finishCore
  simp only [hstage, bind, Except.bind, blen_digits hdig, minLengthForNSN, maxLengthForNSN]
  rw [if_neg (by omega), if_neg (by omega), if_neg (by omega)]
  rfl

/-- What parsing makes of the E164 form of a number that is left alone. -/
theorem roundtrip_core (C : Container) (hC : prefixFree C = true) (h00 : C.hasCC 0 = false) (hN : nonGeoOk C = true)
    (hG : C.allMeta.all lengthTablesOk = true) (n : PhoneNumber) (hcc : C.hasCC n.cc = true)
    (h2 : 2 ≤ (nsnOf n).length) (h17 : (nsnOf n).length ≤ 17)
    (ha : ∀ m, C.metaFor n.cc (C.mainRegion n.cc) = some m → LeftAlone m (nsnOf n)) (region : Str) :
    parseCore C (43 :: (decimal n.cc.toNat ++ nsnOf n)) region true = .ok (.ok ⟨n.cc, [], nsnOf n, some .withPlusSign, []⟩) := by
  obtain ⟨hc0, hc1000, -, -⟩ := prefixFree_spec hC hcc
  have hdig : ∀ u ∈ nsnOf n, isDig u = true := nsnOf_isDig n
  have hd : ∀ u ∈ decimal n.cc.toNat ++ nsnOf n, isDig u = true := by
    intro u hu
    rcases List.mem_append.1 hu with hu | hu
    · rw [← dec_eq_decimal] at hu; exact dec_digits _ u hu
    · exact hdig u hu
  have hlen1 : 1 ≤ (decimal n.cc.toNat).length := by
    rw [← dec_eq_decimal]; exact List.length_pos_iff.2 (dec_ne_nil _)
  have hlen3 : (decimal n.cc.toNat).length ≤ 3 := by
    rw [← dec_eq_decimal]; exact (length_dec_le (by omega)).2 (by omega)
  obtain ⟨hx, hfin⟩ := roundtrip_finish C hC h00 hN hG n hcc h2 h17 ha region
  have hcore := parseCore_plusDigits C (decimal n.cc.toNat ++ nsnOf n) region true hd (by simp; omega) (by simp; omega)
    (by rw [hx]; simp only; omega)
  rw [hx, hfin] at hcore
  simp only [bind, Except.bind, pure, Except.pure] at hcore
  exact hcore

/-- Formatting a number as E164 and parsing the result, with any default region, gives the same country code and national
significant number and no extension, provided the country code is supported, the national significant number has between 2 and 17 digits and is left
alone by national-prefix stripping in the main region of the code (and, as for C15, it is not 0 with raw input). -/
theorem C10_roundtrip (C : Container) (hC : prefixFree C = true) (h00 : C.hasCC 0 = false) (hN : nonGeoOk C = true)
    (hG : C.allMeta.all lengthTablesOk = true) (n : PhoneNumber) (hcc : C.hasCC n.cc = true) (hraw : ¬ (n.nn = 0 ∧ n.raw ≠ []))
    (h2 : 2 ≤ (nsnOf n).length) (h17 : (nsnOf n).length ≤ 17)
    (ha : ∀ m, C.metaFor n.cc (C.mainRegion n.cc) = some m → LeftAlone m (nsnOf n)) (region : Str) :
    ∃ pn, parse C (format C n .e164) region = .ok (none, pn) ∧ pn.cc = n.cc ∧ nsnOf pn = nsnOf n ∧
      pn.extension = none := by
  have hc0 := (prefixFree_spec hC hcc).1
  have hcore := roundtrip_core C hC h00 hN hG n hcc h2 h17 ha region
  have hp := parseHelper_core C (43 :: (decimal n.cc.toNat ++ nsnOf n)) region false true {}
  rw [hcore] at hp
  simp only [Refines] at hp
  rw [C15_shape C n (by omega) hraw]
  refine ⟨_, hp, rfl, ?_, rfl⟩
  have := C05_store (nsnOf n) {} (C04_digits n) h2 h17 rfl
  exact this

/-- For every valid number the national significant number is of some kind in one of the regions of its code. -/
theorem valid_ofKind {C : Container} (hb : Built C) (ht : tablesOk C = true) (hd : C.allMeta.all hasAllDescs = true) (n : PhoneNumber)
    (h : isValidNumber C n = .ok true) :
    ∃ r m, r ∈ C.regionsOf n.cc ∧ C.metaFor n.cc r = some m ∧ OfKind m (nsnOf n) := by
  rcases regionForNumber_cases hb ht hd n with h0 | ⟨r, m, h1, hr, h2, h3, h4⟩
  · simp [isValidNumber, h0, bind, Except.bind, isValidForRegion, metaFor_nil] at h
  have hdm := List.all_eq_true.1 hd m (Container.metaFor_mem h2)
  obtain ⟨t, hty⟩ := numberTypeHelper_ok hdm (nsnOf_isDig n)
  have hT := (C30_type m hdm (nsnOf n) (C04_digits n) t).1 hty
  have htk : t ≠ .unknown := by
    simp only [isValidNumber, h1, bind, Except.bind, isValidForRegion, h2] at h
    split at h
    · cases h
    · simpa [hty, pure, Except.pure] using h
  exact ⟨r, m, hr, h2, ofKind_of_type hT htk⟩

theorem valid_matches {C : Container} (hb : Built C) (ht : tablesOk C = true) (hd : C.allMeta.all hasAllDescs = true) (n : PhoneNumber)
    (h : isValidNumber C n = .ok true) :
    ∃ r m, r ∈ C.regionsOf n.cc ∧ C.metaFor n.cc r = some m ∧ Matches (nsnOf n) m.general := by
  obtain ⟨r, m, h1, h2, h3, -⟩ := valid_ofKind hb ht hd n h
  exact ⟨r, m, h1, h2, h3⟩

/-- The shipped metadata passes the static check. -/
theorem prefixesSafe_shipped : prefixesSafe Data.container = true := by
  simp only [prefixesSafe, mapGet_str, decide_str]
  kernel_rfl

theorem lengthsInRange_shipped : Data.container.allMeta.all lengthsInRange = true := by kernel_rfl

/-- A valid number without an ambiguous beginning is left alone by the national-prefix patterns. -/
theorem valid_leftAlone (n : PhoneNumber) (hv : isValidNumber Data.container n = .ok true) (hex : ¬ Ambiguous n) :
    Data.container.hasCC n.cc = true ∧ 2 ≤ (nsnOf n).length ∧ (nsnOf n).length ≤ 17 ∧
      ∀ m, Data.container.metaFor n.cc (Data.container.mainRegion n.cc) = some m → LeftAlone m (nsnOf n) := by
  obtain ⟨r, m', hr, hm', hkind⟩ := valid_ofKind built_shipped Data.wf_tables Data.wf_allDescs n hv
  have hcc := regionsOf_hasCC hr
  have hrange := List.all_eq_true.1 lengthsInRange_shipped m' (Container.metaFor_mem hm')
  have hlen : 2 ≤ (nsnOf n).length ∧ (nsnOf n).length ≤ 17 := by
    obtain ⟨⟨g, hg, hl, -⟩, -⟩ := hkind
    simp only [lengthsInRange, hg, Bool.and_eq_true, List.all_eq_true, Nat.ble_eq] at hrange
    have := hrange.2 _ (hl.resolve_left (by intro h0; simp [h0] at hrange))
    omega
  refine ⟨hcc, hlen.1, hlen.2, fun m hm => ?_⟩
  rcases regionsOf_meta built_shipped Data.wf_tables (mainRegion_mem Data.wf_tables hcc) with ⟨h1, h2, m0, h3, -⟩ | ⟨h1, -, m0, h2, h3, -⟩
  · -- a non-geographical code: no national prefix
    left
    have hn := Data.wf_nonGeo
    simp only [Spec.nonGeoOk, Bool.and_eq_true, Bool.not_eq_true', List.all_eq_true, decide_eq_true_eq] at hn
    rw [h1] at hm
    simp only [Container.metaFor, if_true, Container.metaForNonGeo, hcc] at hm
    exact hn.2 _ (mapGet_mem hm)
  · have hmm : m = m0 := by
      simp only [Container.metaFor, h1, if_false, h2, Option.some.injEq] at hm; exact hm.symm
    subst hmm
    have hsafe := List.all_eq_true.1 prefixesSafe_shipped _ (regionsOf_entry hr)
    have hmain : ∃ rs, Data.container.regionsOf n.cc = Data.container.mainRegion n.cc :: rs := by
      simp only [Container.mainRegion]
      cases hrs : Data.container.regionsOf n.cc with
      | nil => rw [hrs] at hr; cases hr
      | cons a b => exact ⟨b, rfl⟩
    obtain ⟨rs, hrs⟩ := hmain
    rw [hrs] at hsafe
    simp only [h3, List.all_eq_true] at hsafe
    have h4 := hsafe r (by rw [← hrs]; exact hr)
    rcases regionsOf_meta built_shipped Data.wf_tables hr with ⟨h5, h6, -⟩ | ⟨h5, -, m1, h6, h7, -⟩
    · rw [h6] at hrs
      exact absurd (List.cons.inj hrs).1.symm h1
    · have : m' = m1 := by
        simp only [Container.metaFor, h5, if_false, h6, Option.some.injEq] at hm'; exact hm'.symm
      subst this
      rw [h7] at h4
      refine leftAlone_of_safe ?_ h4 (nsnOf_isDig n) ?_ hkind
      · intro hr0
        have hr0 : r = Data.container.mainRegion n.cc := by simpa using hr0
        rw [hr0, h3] at h7
        exact Option.some.inj h7
      · intro G hG
        obtain ⟨b, hb, rfl⟩ := List.mem_map.1 hG
        exact ⟨notStart_noAnchor b, notStart_acc (nsnOf_isDig n) fun hp => hex ⟨b, hb, hp⟩⟩

/-- Every number that is valid under the shipped metadata and does not have one of two ambiguous beginnings survives the E164 round
trip, with every default region. -/
theorem C10_valid (n : PhoneNumber) (hv : isValidNumber Data.container n = .ok true) (hraw : ¬ (n.nn = 0 ∧ n.raw ≠ []))
    (hex : ¬ Ambiguous n) (region : Str) :
    ∃ pn, parse Data.container (format Data.container n .e164) region = .ok (none, pn) ∧ pn.cc = n.cc ∧ nsnOf pn = nsnOf n ∧
      pn.extension = none := by
  obtain ⟨hcc, h2, h17, ha⟩ := valid_leftAlone n hv hex
  exact C10_roundtrip _ prefixFree_shipped (hasCC_zero Data.wf_regions) Data.wf_nonGeo Data.wf_lengthTables n hcc hraw h2 h17 ha region

/-- A Japanese toll-free number. -/
def japanese : PhoneNumber :=
  { countryCode := some 81
    nationalNumber := some 37682345678901
    italianLeadingZero := some true
    numberOfLeadingZeros := some 2 }

/-- The condition is needed: this valid Belarusian premium-rate number loses its first digit, which is taken for a national
prefix, and this valid Japanese toll-free number its first six digits. -/
theorem C10_needed :
    (isValidNumber Data.container { countryCode := some 375, nationalNumber := some 8109339294 } = .ok true ∧
      format Data.container { countryCode := some 375, nationalNumber := some 8109339294 } .e164 = str!"+3758109339294" ∧
      parse Data.container (str!"+3758109339294") (str!"BY") =
        .ok (none, { countryCode := some 375, nationalNumber := some 109339294 })) ∧
    (isValidNumber Data.container japanese = .ok true ∧
      format Data.container japanese .e164 = str!"+810037682345678901" ∧
      parse Data.container (str!"+810037682345678901") (str!"JP") =
        .ok (none, { countryCode := some 81, nationalNumber := some 2345678901 })) := by
  refine ⟨⟨?_, ?_, ?_⟩, ?_, ?_, ?_⟩ <;> kernel_rfl

-- valid numbers outside the exceptions exist, also with leading zeros
example : isValidNumber Data.container { countryCode := some 39, nationalNumber := some 236618300, italianLeadingZero := some true } =
    .ok true ∧ ¬ Ambiguous { countryCode := some 39, nationalNumber := some 236618300, italianLeadingZero := some true } := by
  refine ⟨?_, by decide +kernel⟩; kernel_rfl
example : format Data.container { countryCode := some 39, nationalNumber := some 236618300, italianLeadingZero := some true } .e164 =
    str!"+390236618300" := by kernel_rfl
example : parse Data.container (str!"+390236618300") (str!"US") =
    .ok (none, { countryCode := some 39, nationalNumber := some 236618300, italianLeadingZero := some true }) := by kernel_rfl

end Verif.Props
