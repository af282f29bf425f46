import Verif.Lemmas.National
import Verif.Props.C27
import Verif.Props.C65
/-!
# C66: NATIONAL output is parsed back to the same number in its region
-/
namespace Verif.Props
open Spec

/-- The shipped metadata passes the static check, except for Argentina and Gabon. -/
theorem nationalsOk_shipped : nationalsOk Data.container = true := by
  simp only [nationalsOk, mapGet_str, decide_strs]
  kernel_rfl

/-- What a number valid for a geographical region `r` is: of a kind of the metadata of `r`, one of the regions of its code; the
main region of the code is geographical too. -/
theorem validFor_parts (n : PhoneNumber) (r : Str) (hv : isValidForRegion Data.container n r = .ok true) (hr : r ≠ str!"001") :
    Data.container.validRegion r = true ∧ ∃ m M rs, Data.container.metaForRegion r = some m ∧ mapGet Data.container.regionMeta r = some m ∧
      m.countryCode = n.cc ∧ OfKind m (nsnOf n) ∧ r ∈ Data.container.regionsOf n.cc ∧
      Data.container.regionsOf n.cc = Data.container.mainRegion n.cc :: rs ∧
      Data.container.metaFor n.cc (Data.container.mainRegion n.cc) = some M ∧
      mapGet Data.container.regionMeta (Data.container.mainRegion n.cc) = some M := by
  obtain ⟨hc, -⟩ := C27_shipped n r hv
  rcases hc with ⟨h, -⟩ | ⟨hval, hc⟩
  · exact absurd h hr
  obtain ⟨-, m, hm, hm', hmem⟩ := validRegion_meta built_shipped Data.wf_tables hval
  have hmc : m.countryCode = n.cc := by simpa [Container.ccForRegion, hval, Container.ccForValidRegion, hm] using hc
  rw [hmc] at hmem
  have hcc := regionsOf_hasCC hmem
  have hdm := List.all_eq_true.1 Data.wf_allDescs m (Container.metaForRegion_mem hm)
  obtain ⟨t, hty⟩ := numberTypeHelper_ok hdm (nsnOf_isDig n)
  have hT := (C30_type m hdm (nsnOf n) (C04_digits n) t).1 hty
  have hr' : r ≠ nonGeoRegion := hr
  have htk : t ≠ .unknown := by
    have hmf : Data.container.metaFor n.cc r = some m := by simp only [Container.metaFor, hr', if_false, hm]
    simp only [isValidForRegion, hmf] at hv
    split at hv
    · cases hv
    · simpa [hty, bind, Except.bind, pure, Except.pure] using hv
  have hmain : ∃ rs, Data.container.regionsOf n.cc = Data.container.mainRegion n.cc :: rs := by
    simp only [Container.mainRegion]
    cases hrs : Data.container.regionsOf n.cc with
    | nil => rw [hrs] at hmem; cases hmem
    | cons a b => exact ⟨b, rfl⟩
  obtain ⟨rs, hrs⟩ := hmain
  rcases regionsOf_meta built_shipped Data.wf_tables (mainRegion_mem Data.wf_tables hcc) with ⟨h1, h2, -⟩ | ⟨h1, -, M, h2, h3, -⟩
  · rw [h2] at hmem
    exact absurd (List.mem_singleton.1 hmem) hr'
  · exact ⟨hval, m, M, rs, hm, hm', hmc, ofKind_of_type hT htk, hmem, hrs, by simp only [Container.metaFor, h1, if_false, h2], h3⟩

/-- The NATIONAL form of a number: how it is written, and what parsing makes of it in the region. -/
theorem national_core (n : PhoneNumber) (r : Str) (hv : isValidForRegion Data.container n r = .ok true) (hr : r ≠ str!"001")
    (hu : r ∉ natUnsettled) (hex : ¬ NatAmbiguous n) (hraw : ¬ (n.nn = 0 ∧ n.raw ≠ [])) (hext : ShortExt n 9) :
    ∃ junk t y c, format Data.container n .national = junk ++ (t ++ y) ∧ (∀ u ∈ junk, u ∈ gapL) ∧ Spaced t ∧ ExtPart y n.ext ∧
      3 ≤ (t.filter isDig).length ∧ blen (junk ++ (t ++ y)) ≤ 250 ∧ 2 ≤ (nsnOf n).length ∧ (nsnOf n).length ≤ 17 ∧
      parseCore Data.container (format Data.container n .national) r true = .ok (.ok ⟨n.cc, n.ext, nsnOf n, some .defaultCountry, c⟩) ∧
      parseCore Data.container (t.filter isDig) r true = .ok (.ok ⟨n.cc, [], nsnOf n, some .defaultCountry, c⟩) := by
  obtain ⟨hval, m, M, rs, hm, hm', hmc, hk, hmem, hrs, hM, hM'⟩ := validFor_parts n r hv hr
  have hcc := regionsOf_hasCC hmem
  have hok : nationalOk M m = true := by
    have h := List.all_eq_true.1 nationalsOk_shipped _ (regionsOf_entry hmem)
    rw [hrs] at h
    simp only [hM', List.all_eq_true] at h
    have h := h r (by rw [← hrs]; exact hmem)
    simpa [hm', hu] using h
  have hall := List.all_eq_true.1 Data.wf_lengthTables m (Container.metaForRegion_mem hm)
  obtain ⟨g, hg, hlen⟩ : ∃ g, m.general = some g ∧ ((nsnOf n).length : Int) ∈ g.lengths ∧ ((nsnOf n).length : Int) ∉ g.localLengths ∧
      3 ≤ (nsnOf n).length ∧ (nsnOf n).length ≤ 17 := by
    obtain ⟨⟨g, hg, hl, -⟩, -⟩ := hk
    have h := hok
    simp only [nationalOk, hg, Bool.and_eq_true, List.all_eq_true, Nat.ble_eq] at h
    obtain ⟨⟨⟨h0, h1⟩, -⟩, -⟩ := h
    have hl := hl.resolve_left (by intro h; simp [h] at h0)
    obtain ⟨⟨h2, h3⟩, h4⟩ := h1 _ hl
    refine ⟨g, hg, hl, fun h5 => ?_, by omega, by omega⟩
    simp only [Bool.not_eq_true', List.any_eq_false] at h4
    exact h4 _ h5 (by simp)
  obtain ⟨hl1, hl2, h3, h17⟩ := hlen
  have hdig := nsnOf_isDig n
  obtain ⟨k1, k2, k3, b, Xs, k4, k5, k6, k7⟩ := national_text hok hdig (by intro h; simp [h] at h3) (by omega) hk
    (by rw [hmc]; exact fun b hb hp => hex ⟨b, hb, hp⟩)
  have h0 : 0 ≤ n.cc := by have := (prefixFree_spec prefixFree_shipped hcc).1; omega
  obtain ⟨i1, i2, c, i3⟩ := readsBack_parts k6 k5 hdig k7 hk hg (by rw [hmc, decInt_nonneg h0, ← dec_eq_decimal]; exact dec_digits _) hall ⟨hl1, hl2⟩
  obtain ⟨junk, t, hs, hj, ht, htf⟩ := spaced_split k1 k2
  have hends := List.all_eq_true.1 wf_intlEnds M (Container.metaFor_mem hM)
  obtain ⟨x, hx, hx9, hxe⟩ : ∃ x ∈ extLabels, 9 ≤ x.2 ∧
      (if M.preferredExtnPrefix ≠ [] then M.preferredExtnPrefix else str!" ext. ") = x.1 := by
    simp only [intlEndsOk, Bool.and_eq_true, decide_eq_true_eq] at hends
    have key : ∀ p ∈ [[], (str!" x"), (str!" Anexo "), (str!" int "), (str!"#"), (str!" int. ")],
      ∃ x ∈ extLabels, 9 ≤ x.2 ∧ (if p ≠ [] then p else str!" ext. ") = x.1 := by decide
    exact key _ hends.2
  have hy := extPart_of hext hx hx9
  have hfmt : format Data.container n .national = junk ++ (t ++ (if n.ext = [] then [] else x.1 ++ n.ext)) := by
    simp only [format, if_neg hraw, formatCore, reduceCtorEq, if_false, hcc, Bool.not_true, Bool.false_eq_true, hM, prefixWithCC,
      appendExtension, hxe, hs]
    split <;> simp
  have hylen : (if n.ext = [] then [] else x.1 ++ n.ext).length ≤ 40 ∧ ∀ u ∈ (if n.ext = [] then [] else x.1 ++ n.ext), u < 128 := by
    have hd128 : ∀ u, isDig u = true → u < 128 := by intro u hu; simp [isDig] at hu; omega
    generalize (if n.ext = [] then [] else x.1 ++ n.ext) = y at hy
    generalize n.ext = d at hy
    cases hy with
    | none => simp
    | some x d hx hd h1 h2 =>
      have k1 : ∀ x ∈ extLabels, x.1.length + x.2 ≤ 40 ∧ ∀ u ∈ x.1, u < 128 := by decide
      obtain ⟨k2, k3⟩ := k1 x hx
      refine ⟨by simp; omega, fun u hu => ?_⟩
      rcases List.mem_append.1 hu with hu | hu
      · exact k3 u hu
      · exact hd128 u (hd u hu)
  have h250 : blen (junk ++ (t ++ (if n.ext = [] then [] else x.1 ++ n.ext))) ≤ 250 := by
    have hd128 : ∀ u, isDig u = true → u < 128 := by intro u hu; simp [isDig] at hu; omega
    have hg128 : ∀ u ∈ gapL, u < 128 := by decide
    rw [← List.append_assoc, ← hs, blen_ascii]
    · rw [List.length_append]; omega
    · intro u hu
      rcases List.mem_append.1 hu with hu | hu
      · rcases k1 u hu with h | h
        · exact hd128 u h
        · exact hg128 u h
      · exact hylen.2 u hu
  have htd : t.filter isDig = b ++ nsnOf n := by rw [htf, k4]
  have hbd : ∀ u ∈ b ++ nsnOf n, isDig u = true := by
    intro u hu
    rcases List.mem_append.1 hu with hu | hu
    · exact k5 u hu
    · exact hdig u hu
  have hfin : finishCore (t.filter isDig) (some m) = .ok (.ok (nsnOf n, c)) := by
    unfold finishCore
    simp only [htd, i3, bind, Except.bind, blen_digits hdig, blen_digits hbd, minLengthForNSN, maxLengthForNSN, List.length_append]
    rw [if_neg (by omega), if_neg (by omega), if_neg (by omega)]
    rfl
  have hcore := parseCore_national hval hm hj ht hy (by rw [htd]; simp; omega) h250 (by rw [htd]; exact i1) (by rw [htd]; exact i2) hfin
  rw [hmc] at hcore
  have hdd : (t.filter isDig).filter isDig = t.filter isDig := List.filter_eq_self.2 fun u hu => (List.mem_filter.1 hu).2
  have hall' : ∀ u ∈ t.filter isDig, isDig u = true := fun u hu => (List.mem_filter.1 hu).2
  have htd' : Spaced (t.filter isDig) := by
    have hne : t.filter isDig ≠ [] := by rw [htd]; intro h; simp at h; simp [h.2] at h3
    refine ⟨fun u hu => .inl (hall' u hu), ?_, ⟨_, _, (List.dropLast_concat_getLast hne).symm, hall' _ (List.getLast_mem hne)⟩⟩
    cases h : t.filter isDig with
    | nil => exact absurd h hne
    | cons v b => exact ⟨v, b, rfl, hall' v (by rw [h]; simp)⟩
  have hcore2 := parseCore_national (junk := []) (y := []) hval hm (by simp) htd' .none (by rw [hdd, htd]; simp; omega)
    (by
      rw [List.nil_append, List.append_nil, blen_digits hall']
      have := congrArg List.length hs
      have := List.length_filter_le isDig t
      simp only [List.length_append] at *
      omega) (by rw [hdd, htd]; exact i1) (by rw [hdd, htd]; exact i2) (by rw [hdd]; exact hfin)
  rw [hmc, List.nil_append, List.append_nil] at hcore2
  exact ⟨junk, t, _, c, hfmt, hj, ht, hy, by rw [htd]; simp; omega, h250, by omega, h17, hfmt ▸ hcore, hcore2⟩

/-- Under the shipped metadata: the NATIONAL form of a number that is valid for a region is parsed, with this region as default, as
the same number, with its extension of up to 9 digits. Not covered are two regions (Argentina, Gabon) and the beginnings
of `natAmbiguous`; see `C66_needed`. -/
theorem C66_national_valid (n : PhoneNumber) (r : Str) (hv : isValidForRegion Data.container n r = .ok true) (hr : r ≠ str!"001")
    (hu : r ∉ natUnsettled) (hex : ¬ NatAmbiguous n) (hraw : ¬ (n.nn = 0 ∧ n.raw ≠ [])) (hext : ShortExt n 9) :
    ∃ pn, parse Data.container (format Data.container n .national) r = .ok (none, pn) ∧ pn.cc = n.cc ∧ nsnOf pn = nsnOf n ∧
      pn.extension.getD [] = n.extension.getD [] := by
  obtain ⟨-, -, -, c, -, -, -, -, -, -, h2, h17, hcore, -⟩ := national_core n r hv hr hu hex hraw hext
  have hp := parseHelper_core Data.container (format Data.container n .national) r false true {}
  rw [hcore] at hp
  simp only [Refines] at hp
  refine ⟨_, hp, rfl, C05_store (nsnOf n) {} (C04_digits n) h2 h17 rfl, ?_⟩
  show (if n.ext ≠ [] then some n.ext else none).getD [] = n.ext
  by_cases h : n.ext = []
  · rw [if_neg (by simp [h]), h]; rfl
  · rw [if_pos h]; rfl

/-- The same for a valid number and the region `GetRegionCodeForNumber` gives. -/
theorem C66_own_region (n : PhoneNumber) (r : Str) (hv : isValidNumber Data.container n = .ok true)
    (hreg : regionForNumber Data.container n = .ok r) (hr : r ≠ str!"001") (hu : r ∉ natUnsettled) (hex : ¬ NatAmbiguous n)
    (hraw : ¬ (n.nn = 0 ∧ n.raw ≠ [])) (hext : ShortExt n 9) :
    ∃ pn, parse Data.container (format Data.container n .national) r = .ok (none, pn) ∧ pn.cc = n.cc ∧ nsnOf pn = nsnOf n ∧
      pn.extension.getD [] = n.extension.getD [] := by
  simp only [isValidNumber, hreg, bind, Except.bind] at hv
  exact C66_national_valid n r hv hr hu hex hraw hext

/-- A number with two leading zeros. -/
def leading00 (cc : Int) (nn : Nat) : PhoneNumber :=
  { countryCode := some cc
    nationalNumber := some nn
    italianLeadingZero := some true
    numberOfLeadingZeros := some 2 }

/-- `n` is valid for `r`, its NATIONAL form is `s`, and `s` is parsed with default region `r` as the number `cc`, `nsn`. -/
def ReadAs (n : PhoneNumber) (r s : Str) (cc : Int) (nsn : Str) : Prop :=
  isValidForRegion Data.container n r = .ok true ∧ format Data.container n .national = s ∧
    (parse Data.container s r).map (fun x => (x.1, x.2.cc, nsnOf x.2)) = .ok (none, cc, nsn)

/-- The exceptions are needed: valid numbers of these regions are read back as other numbers. -/
theorem C66_needed :
    ReadAs { countryCode := some 54, nationalNumber := some 1115468954 } (str!"AR") (str!"011 1546-8954") 54 (str!"01115468954") ∧
    ReadAs { countryCode := some 241, nationalNumber := some 2080995 } (str!"GA") (str!"02 08 09 95") 241 (str!"02080995") ∧
    ReadAs (leading00 359 8008380723) (str!"BG") (str!"008008380723") 800 (str!"8380723") ∧
    ReadAs (leading00 507 800838072) (str!"PA") (str!"00800838072") 800 (str!"838072") ∧
    ReadAs (leading00 974 800891807) (str!"QA") (str!"00800891807") 800 (str!"891807") ∧
    ReadAs (leading00 66 18008380723) (str!"TH") (str!"0018008380723") 800 (str!"8380723") ∧
    ReadAs (leading00 81 37686607093471) (str!"JP") (str!"0037-686607-093471") 81 (str!"6607093471") := by
  refine ⟨⟨?_, ?_, ?_⟩, ⟨?_, ?_, ?_⟩, ⟨?_, ?_, ?_⟩, ⟨?_, ?_, ?_⟩, ⟨?_, ?_, ?_⟩, ⟨?_, ?_, ?_⟩, ?_, ?_, ?_⟩ <;> kernel_rfl

-- a valid number with a national prefix and an extension
example : isValidForRegion Data.container { countryCode := some 44, nationalNumber := some 2070313000, extension := some (str!"456") } (str!"GB") =
    .ok true ∧ ¬ NatAmbiguous { countryCode := some 44, nationalNumber := some 2070313000, extension := some (str!"456") } ∧
    ShortExt { countryCode := some 44, nationalNumber := some 2070313000, extension := some (str!"456") } 9 ∧
    (str!"GB") ∉ natUnsettled := by
  refine ⟨?_, by decide +kernel, by unfold ShortExt; decide, by decide⟩; kernel_rfl
example : format Data.container { countryCode := some 44, nationalNumber := some 2070313000, extension := some (str!"456") } .national =
    str!"020 7031 3000 x456" := by kernel_rfl
example : parse Data.container (str!"020 7031 3000 x456") (str!"GB") =
    .ok (none, { countryCode := some 44, nationalNumber := some 2070313000, extension := some (str!"456") }) := by kernel_rfl
-- the region need not be the main region of its code
example : isValidForRegion Data.container { countryCode := some 7, nationalNumber := some 7710009998 } (str!"KZ") = .ok true ∧
    format Data.container { countryCode := some 7, nationalNumber := some 7710009998 } .national = str!"8 (771) 000 9998" := by
  refine ⟨?_, ?_⟩ <;> kernel_rfl

end Verif.Props
