import Verif.Lemmas.LocalShape
import Verif.Props.C66
import Verif.Props.C74
import Verif.Props.C85
import Verif.Props.C25
/-!
# C103: a number written the way of its own country is found in a text
-/
namespace Verif.Props
open Verif.Spec

/-- The shipped metadata passes the static check. -/
theorem localsOk_shipped : localsOk Data.container = true := by
  simp only [localsOk, mapGet_str, decide_strs]
  kernel_rfl

/-- Let a text consist of a number written within a country, as blocks of up to twenty digits with gaps of one to four spaces, hyphens,
dots or parentheses, perhaps after an opening parenthesis, with text before it that has no digit, opening bracket or plus sign and
text after it that has no digit.  If parsing accepts the number and the leniency level accepts the result, the search finds that
number, at its place, and nothing else.  At level VALID and above the characters next to the number must not be Latin letters,
currency signs or percent signs (the one before it may, if the number starts with a parenthesis). -/
theorem C103_written (F : Finder) (lead : Bool) (a s b : Str) (n : PhoneNumber) (ht : F.text = a ++ (s ++ b)) (ha : NoStart a)
    (hs : WrittenLocally lead s) (hb : NoDigit b)
    (hafter : F.leniency ≠ .possible → ∀ u, b.head? = some u → ¬ Sticky u)
    (hbefore : F.leniency ≠ .possible → lead = false → ∀ u, a.getLast? = some u → ¬ Sticky u)
    (hp : parseKeepRaw F.C s F.region = .ok (none, n)) (hv : F.leniency.verify F.C F.alt n s = .ok true) (maxTries : Int)
    (hk : 0 < maxTries) :
    ∃ m c, F.findNumbers maxTries = .ok ([m], c) ∧ m.start F.text = blen a ∧ m.raw = s ∧ m.number = Spec.Plain n := by
  obtain ⟨c, h⟩ := Finder.findNumbers_local ht ha hs hb (fun h => ⟨hafter h, hbefore h⟩) hp hv maxTries hk
  refine ⟨_, c, h, ?_, rfl, rfl⟩
  simp only [FoundNumber.start, ht, List.take_left]

/-- The NATIONAL form of a number without extension: how it is written, and that the national prefix asked for is there. -/
theorem national_local (n : PhoneNumber) (r : Str) (hv : isValidForRegion Data.container n r = .ok true) (hr : r ≠ str!"001")
    (hu : r ∉ natUnsettled) (hex : ¬ NatAmbiguous n) (hraw : ¬ (n.nn = 0 ∧ n.raw ≠ [])) (hext : n.ext = []) :
    (∃ lead, WrittenLocally lead (format Data.container n .national)) ∧
    ∀ m, Data.container.metaForRegion (Data.container.mainRegion n.cc) = some m → ∀ p, chooseFormat m.formats (nsnOf n) = some p →
      asksPrefix p = true → (stripNationalPrefix ((format Data.container n .national).filter isDig) m).1 = true := by
  obtain ⟨hval, m, M, rs, hm, hm', hmc, hk, hmem, hrs, hM, hM'⟩ := validFor_parts n r hv hr
  have hcc := regionsOf_hasCC hmem
  have hentry := regionsOf_entry hmem
  have hok : nationalOk M m = true := by
    have h := List.all_eq_true.1 nationalsOk_shipped _ hentry
    rw [hrs] at h
    simp only [hM', List.all_eq_true] at h
    have h := h r (by rw [← hrs]; exact hmem)
    simpa [hm', hu] using h
  have hloc := List.all_eq_true.1 localsOk_shipped _ hentry
  rw [hrs] at hloc
  simp only [hM', Bool.and_eq_true, List.all_eq_true] at hloc
  obtain ⟨hloc1, hloc2⟩ := hloc
  have hall := List.all_eq_true.1 Data.wf_lengthTables m (Container.metaForRegion_mem hm)
  obtain ⟨g, hg, hl1, hl2, h3, h17⟩ : ∃ g, m.general = some g ∧ ((nsnOf n).length : Int) ∈ g.lengths ∧ ((nsnOf n).length : Int) ∉ g.localLengths ∧
      3 ≤ (nsnOf n).length ∧ (nsnOf n).length ≤ 17 := by
    obtain ⟨⟨g, hg, hl, -⟩, -⟩ := hk
    have h := hok
    simp only [nationalOk, hg, Bool.and_eq_true, List.all_eq_true, Nat.ble_eq] at h
    obtain ⟨⟨⟨h0, h1⟩, -⟩, -⟩ := h
    have hl := hl.resolve_left (by intro h; simp [h] at h0)
    obtain ⟨⟨h2, h3⟩, h4⟩ := h1 _ hl
    refine ⟨g, hg, hl, fun h5 => ?_, by omega, by omega⟩
    simp only [Bool.not_eq_true', List.any_eq_false] at h4
    exact h4 _ h5 (by simp)
  have hdig := nsnOf_isDig n
  have hfmt : format Data.container n .national = formatNsn (nsnOf n) (some M) .national [] := by
    simp only [format, if_neg hraw, formatCore, reduceCtorEq, if_false, hcc, Bool.not_true, Bool.false_eq_true, hM, prefixWithCC,
      appendExtension, hext]
    simp
  have hlay := List.all_eq_true.1 wf_layout M (Container.metaFor_mem hM)
  simp only [layoutOk, Bool.and_eq_true, List.all_eq_true] at hlay
  have hch := chooseFormat_chosen (s := nsnOf n) hlay.1 hdig
  have hMr : ∀ m', Data.container.metaForRegion (Data.container.mainRegion n.cc) = some m' → m' = M := by
    intro m' h
    simp only [Container.metaForRegion] at h
    rw [hM'] at h
    split at h
    · exact (Option.some.inj h).symm
    · cases h
  rw [hfmt]
  unfold formatNsn
  simp only [or_true, if_true]
  cases hc : chooseFormat M.formats (nsnOf n) with
  | none =>
    refine ⟨⟨false, nsnOf n, [], by simp, ⟨by omega, by omega, hdig⟩, by simp, by simp, .inl ⟨fun h => ?_, fun h => ?_⟩⟩, ?_⟩
    · cases hdig _ h
    · cases hdig _ h
    · intro m' h p hp
      rw [hMr m' h, hc] at hp
      cases hp
  | some p =>
    rw [hc] at hch
    obtain ⟨h4, h5⟩ := chooseFormat_acc _ _ _ hc
    have hap : Applies p (nsnOf n) := by
      cases hch with
      | some k1 k2 k3 => exact k2
    have h := hok
    simp only [nationalOk, Bool.and_eq_true, List.all_eq_true] at h
    obtain ⟨h6, h7⟩ := h.2 p h4
    obtain ⟨-, -, -, k4⟩ := natRule_text h6 hdig h5
    refine ⟨localRule_text (hloc1 p h4) (hlay.1 p h4) h6 hdig h17 hap h5, ?_⟩
    intro m' h' q hq hask
    cases hMr m' h'
    rw [hc] at hq
    cases hq
    dsimp only
    rw [k4]
    have hbd : ∀ u ∈ natDigits p, isDig u = true := fun u hu => (List.mem_filter.1 hu).2
    by_cases hmain : r = Data.container.mainRegion n.cc
    · have hmM : m = M := by
        rw [← hmain, hm'] at hM'
        exact Option.some.inj hM'
      subst hmM
      have hb : natDigits p ≠ [] := by
        have := hloc1 p h4
        unfold localRuleOk at this
        split at this
        · cases this
        · rw [Bool.and_eq_true] at this
          simpa [hask] using this.2
      have h0 : 0 ≤ n.cc := by have := (prefixFree_spec prefixFree_shipped hcc).1; omega
      have hX : ∀ G ∈ (natAmbiguousFor m.countryCode.toNat).map notStart ++ ruleLang p, AccAny G (nsnOf n) := by
        intro G hG
        rcases List.mem_append.1 hG with hG | hG
        · obtain ⟨b, hb, rfl⟩ := List.mem_map.1 hG
          exact notStart_acc hdig (fun hp => hex ⟨b, by rw [hmc] at hb; exact hb, hp⟩)
        · exact chooseFormat_lang hc G hG
      obtain ⟨-, -, c, i3⟩ := readsBack_parts h7 hbd hdig hX hk hg
        (by rw [hmc, decInt_nonneg h0, ← dec_eq_decimal]; exact dec_digits _) hall ⟨hl1, hl2⟩
      exact taken_of_stage hb i3
    · have hrr : r ∈ rs := by
        rw [hrs] at hmem
        exact (List.mem_cons.1 hmem).resolve_left hmain
      have := hloc2 r hrr
      simp only [hm', List.all_eq_true] at this
      have := this p h4
      simp only [hask, Bool.not_true, Bool.false_or] at this
      exact takenOff_sound this hbd (by intro h; simp [h] at h3) hdig hk

/-- How the NATIONAL form of a number is written, parsed and checked. -/
theorem national_mention (n : PhoneNumber) (r : Str) (hv : isValidForRegion Data.container n r = .ok true) (hr : r ≠ str!"001")
    (hu : r ∉ natUnsettled) (hex : ¬ NatAmbiguous n) (h0 : n.nn ≠ 0) (hext : n.ext = []) (alt : List Metadata) (l : Leniency)
    (hl : l = .possible ∨ l = .valid) :
    ∃ lead pn, WrittenLocally lead (format Data.container n .national) ∧
      parseKeepRaw Data.container (format Data.container n .national) r = .ok (none, pn) ∧
      l.verify Data.container alt pn (format Data.container n .national) = .ok true ∧ pn.cc = n.cc ∧ nsnOf pn = nsnOf n ∧ pn.ext = [] := by
  have hraw : ¬ (n.nn = 0 ∧ n.raw ≠ []) := fun h => h0 h.1
  obtain ⟨junk, t, y, c, hfmt, hj, hsp, hy, -, -, h2, h17, hcore, -⟩ := national_core n r hv hr hu hex hraw (by
      have : n.extension.getD [] = [] := hext
      exact ⟨by rw [this]; decide, by rw [this]; simp⟩)
  obtain ⟨⟨lead, hw⟩, hpre⟩ := national_local n r hv hr hu hex hraw hext
  have hp := parseHelper_core Data.container (format Data.container n .national) r true true {}
  rw [hcore] at hp
  simp only [Refines] at hp
  have hnsn : nsnOf (ParseOut.apply ⟨n.cc, n.ext, nsnOf n, some .defaultCountry, c⟩ (format Data.container n .national) true {}) = nsnOf n :=
    C05_store (nsnOf n) {} (C04_digits n) h2 h17 rfl
  generalize hpn : ParseOut.apply ⟨n.cc, n.ext, nsnOf n, some .defaultCountry, c⟩ (format Data.container n .national) true {} = pn at hp hnsn
  have e1 : pn.cc = n.cc := by rw [← hpn]; rfl
  have e2 : pn.src = .defaultCountry := by rw [← hpn]; rfl
  have e3 : pn.raw = format Data.container n .national := by rw [← hpn]; rfl
  have hval : isValidNumber Data.container pn = .ok true := by
    have : isValidForRegion Data.container pn r = isValidForRegion Data.container n r := by
      unfold isValidForRegion
      rw [e1, hnsn]
    exact (C74_shipped pn).2.2 ⟨r, by rw [this]; exact hv⟩
  have hmem := local_mem hw
  have hver : l.verify Data.container alt pn (format Data.container n .national) = .ok true := by
    rcases hl with rfl | rfl
    · exact C25_shipped pn hval
    · have hX : onlyValidX Data.container pn (format Data.container n .national) = .ok true := by
        refine onlyValidX_digits fun u hu => ?_
        have := local_small (hmem u hu)
        simp [isX]; omega
      have hP : nationalPrefixPresent Data.container pn = true := by
        unfold nationalPrefixPresent
        rw [if_neg (fun h => h e2), e1, hnsn, e3]
        split
        · rfl
        · rename_i m hm
          split
          · rfl
          · rename_i p hc
            split
            · rename_i q1
              split
              · rfl
              · rename_i q2
                split
                · rfl
                · rename_i q3
                  rw [normalizeDigitsOnly_tone _ (fun u hu => (hmem u hu).imp id fun h => by
                    have : ∀ u ∈ (str!" -.()"), u ∈ 126 :: gapL := by decide
                    exact this u h)]
                  refine hpre m hm p hc ?_
                  simp only [asksPrefix, Bool.and_eq_true, Bool.not_eq_true', List.isEmpty_eq_false_iff]
                  exact ⟨⟨q1, by simpa using q2⟩, by simpa using q3⟩
            · rfl
      unfold Leniency.verify
      simp only [hval, hX, hP, bind, Except.bind, pure, Except.pure]
      rfl
  have e4 : pn.ext = [] := by
    rw [← hpn]
    show (if n.ext ≠ [] then some n.ext else none).getD [] = []
    rw [hext]; rfl
  exact ⟨lead, pn, hw, hp, hver, e1, hnsn, e4⟩

/-- Under the shipped metadata: the NATIONAL form of a number that is valid for a region, and has no extension, is found in every text as
above by a search for this region at levels POSSIBLE and VALID, and the number found has the same country code and national
significant number. -/
theorem C103_national (n : PhoneNumber) (r : Str) (hv : isValidForRegion Data.container n r = .ok true) (hr : r ≠ str!"001")
    (hu : r ∉ natUnsettled) (hex : ¬ NatAmbiguous n) (h0 : n.nn ≠ 0) (hext : n.ext = [])
    (alt : List Metadata) (a b : Str) (ha : NoStart a) (hb : NoDigit b) (hafter : ∀ u, b.head? = some u → ¬ Sticky u)
    (hbefore : ∀ u, a.getLast? = some u → ¬ Sticky u) (l : Leniency) (hl : l = .possible ∨ l = .valid) (maxTries : Int) (hk : 0 < maxTries) :
    ∃ m c, Finder.findNumbers ⟨Data.container, alt, a ++ (format Data.container n .national ++ b), r, l⟩ maxTries = .ok ([m], c) ∧
      m.start (a ++ (format Data.container n .national ++ b)) = blen a ∧ m.raw = format Data.container n .national ∧ m.number.cc = n.cc ∧
      nsnOf m.number = nsnOf n := by
  obtain ⟨lead, pn, hw, hp, hver, e1, hnsn, -⟩ := national_mention n r hv hr hu hex h0 hext alt l hl
  obtain ⟨m, c, hc, hst, hr, hn⟩ := C103_written ⟨Data.container, alt, a ++ (format Data.container n .national ++ b), r, l⟩ lead a
    (format Data.container n .national) b pn rfl ha hw hb (fun _ => hafter) (fun _ _ => hbefore) hp hver maxTries hk
  exact ⟨m, c, hc, hst, hr, by rw [hn]; exact e1, by rw [hn]; exact hnsn⟩

/-- The forms with and without parentheses. -/
example : WrittenLocally true (str!"(650) 253-0000") ∧ WrittenLocally false (str!"8 (495) 123-45-67") ∧ WrittenLocally false (str!"020 7031 3000") := by
  refine ⟨⟨(str!"650"), [((str!") "), (str!"253")), ((str!"-"), (str!"0000"))], by decide, by unfold Block; decide, by decide, by unfold LocalGap Block; decide,
      .inr ⟨[], (str!"650"), (str!" 253-0000"), by decide⟩⟩,
    ⟨(str!"8"), [((str!" ("), (str!"495")), ((str!") "), (str!"123")), ((str!"-"), (str!"45")), ((str!"-"), (str!"67"))], by decide,
      by unfold Block; decide, by decide, by unfold LocalGap Block; decide, .inr ⟨(str!"8 "), (str!"495"), (str!" 123-45-67"), by decide⟩⟩,
    ⟨(str!"020"), [((str!" "), (str!"7031")), ((str!" "), (str!"3000"))], by decide, by unfold Block; decide, by decide,
      by unfold LocalGap Block; decide, .inl (by decide)⟩⟩

/-- A number of a region that is not the main region of its code. -/
example : isValidForRegion Data.container { countryCode := some 7, nationalNumber := some 7710009998 } (str!"KZ") = .ok true ∧
    ¬ NatAmbiguous { countryCode := some 7, nationalNumber := some 7710009998 } ∧ (str!"KZ") ∉ natUnsettled ∧ NoStart (str!"Tel. ") ∧
    NoDigit (str!" (office)") := by
  refine ⟨?_, by decide +kernel, by decide, ⟨by unfold NoDigit; decide +kernel, by decide⟩, by unfold NoDigit; decide +kernel⟩; kernel_rfl

noncomputable def C103_case : Finder := ⟨Data.container, Data.alt, (str!"Tel. 8 (771) 000 9998 (office)"), (str!"KZ"), .valid⟩

example : ((C103_case.findNumbers 1).toOption.map fun r => r.1.map fun m => (m.at_, m.raw, m.number.cc, nsnOf m.number)) =
    some [(5, (str!"8 (771) 000 9998"), 7, (str!"7710009998"))] := by kernel_rfl

end Verif.Props
