import Verif.Lemmas.MatcherPlus
import Verif.Data.Alt
/-!
# C64: a number written in a text is found
-/
namespace Verif.Props
open Verif.Spec

/-- Let a text consist of a number written as blocks of up to twenty digits with gaps of one to four spaces, hyphens or dots,
perhaps after a plus sign, with text before it that has no digit, opening bracket or plus sign and text after it that has no digit.
If parsing accepts the number and the leniency level accepts the result, the search finds that number, at its place, and nothing
else.  At level VALID and above the characters next to the number must not be Latin letters, currency signs or percent signs (the
one before it may, if the number starts with a plus sign). -/
theorem C64_written (F : Finder) (plus : Bool) (a s b : Str) (n : PhoneNumber) (ht : F.text = a ++ (s ++ b)) (ha : NoStart a)
    (hs : WrittenNumber plus s) (hb : NoDigit b)
    (hafter : F.leniency ≠ .possible → ∀ u, b.head? = some u → ¬ Sticky u)
    (hbefore : F.leniency ≠ .possible → plus = false → ∀ u, a.getLast? = some u → ¬ Sticky u)
    (hp : parseKeepRaw F.C s F.region = .ok (none, n)) (hv : F.leniency.verify F.C F.alt n s = .ok true) (maxTries : Int)
    (hk : 0 < maxTries) :
    ∃ m c, F.findNumbers maxTries = .ok ([m], c) ∧ m.start F.text = blen a ∧ m.raw = s ∧ m.number = Spec.Plain n := by
  obtain ⟨c, h⟩ := Finder.findNumbers_written ht ha hs hb (fun h => ⟨hafter h, hbefore h⟩) hp hv maxTries hk
  refine ⟨_, c, h, ?_, rfl, rfl⟩
  simp only [FoundNumber.start, ht, List.take_left]

/-- How the E164 form of a valid number is written, parsed and checked. -/
theorem e164_mention (n : PhoneNumber) (hv : isValidNumber Data.container n = .ok true) (h0 : n.nn ≠ 0) (hex : ¬ Ambiguous n)
    (alt : List Metadata) (region : Str) (l : Leniency) : ∃ pn, WrittenNumber true (format Data.container n .e164) ∧
      parseKeepRaw Data.container (format Data.container n .e164) region = .ok (none, pn) ∧
      l.verify Data.container alt pn (format Data.container n .e164) = .ok true ∧ pn.cc = n.cc ∧ nsnOf pn = nsnOf n ∧ pn.ext = [] := by
  obtain ⟨hcc, h2, h17, hla⟩ := valid_leftAlone n hv hex
  have hraw : ¬ (n.nn = 0 ∧ n.raw ≠ []) := fun h => h0 h.1
  obtain ⟨hc0, hc1000, -, -⟩ := prefixFree_spec prefixFree_shipped hcc
  have hf : format Data.container n .e164 = 43 :: (decimal n.cc.toNat ++ nsnOf n) := C15_shape _ n (by omega) hraw
  have hcore := roundtrip_core _ prefixFree_shipped (hasCC_zero Data.wf_regions) Data.wf_nonGeo Data.wf_lengthTables n hcc h2 h17 hla region
  have hp := parseHelper_core Data.container (43 :: (decimal n.cc.toNat ++ nsnOf n)) region true true {}
  rw [hcore] at hp
  simp only [Refines] at hp
  have hnsn : nsnOf (ParseOut.apply ⟨n.cc, [], nsnOf n, some .withPlusSign, []⟩ (43 :: (decimal n.cc.toNat ++ nsnOf n)) true {}) = nsnOf n :=
    C05_store (nsnOf n) {} (C04_digits n) h2 h17 rfl
  generalize hpn : ParseOut.apply ⟨n.cc, [], nsnOf n, some .withPlusSign, []⟩ (43 :: (decimal n.cc.toNat ++ nsnOf n)) true {} = pn at hp hnsn
  have e1 : pn.cc = n.cc := by rw [← hpn]; rfl
  have e2 : pn.src = .withPlusSign := by rw [← hpn]; rfl
  have e3 : pn.ext = [] := by rw [← hpn]; rfl
  have e4 : pn.nn = n.nn := by
    have h1 := congrArg digVal hnsn
    rw [nsnOf_eq, nsnOf_eq, digVal_zeros, digVal_zeros, digVal_dec, digVal_dec] at h1
    exact h1
  have hv' : isValidNumber Data.container pn = .ok true := by
    have : isValidNumber Data.container pn = isValidNumber Data.container n := by
      unfold isValidNumber isValidForRegion regionForNumber
      rw [e1, hnsn]
    rw [this]; exact hv
  have hd : ∀ u ∈ decimal n.cc.toNat ++ nsnOf n, isDig u = true := by
    intro u hu
    rcases List.mem_append.1 hu with hu | hu
    · rw [← dec_eq_decimal] at hu; exact dec_digits _ u hu
    · exact nsnOf_isDig n u hu
  have hlen3 : (decimal n.cc.toNat).length ≤ 3 := by
    rw [← dec_eq_decimal]; exact (length_dec_le (by omega)).2 (by omega)
  have hw : WrittenNumber true (43 :: (decimal n.cc.toNat ++ nsnOf n)) := by
    refine ⟨decimal n.cc.toNat ++ nsnOf n, [], by simp, ⟨?_, ?_, hd⟩, by simp, by simp⟩ <;> simp only [List.length_append] <;> omega
  have hver := verify_plus l alt pn hv' e2 e3 (fun h => h0 (by rw [← e4]; exact h.1))
  rw [e1, hnsn] at hver
  rw [hf]
  exact ⟨pn, hw, hp, hver, e1, hnsn, e3⟩

/-- The E164 form of a valid number is found, at every leniency level, for every region, in every text as above, and the number
found has the same country code and national significant number.  (Numbers with one of the two
ambiguous beginnings of C10 and numbers with national number 0 are excluded.) -/
theorem C64_e164 (n : PhoneNumber) (hv : isValidNumber Data.container n = .ok true) (h0 : n.nn ≠ 0) (hex : ¬ Ambiguous n)
    (alt : List Metadata) (a b region : Str) (ha : NoStart a) (hb : NoDigit b) (hafter : ∀ u, b.head? = some u → ¬ Sticky u)
    (l : Leniency) (maxTries : Int) (hk : 0 < maxTries) :
    ∃ m c, Finder.findNumbers ⟨Data.container, alt, a ++ (format Data.container n .e164 ++ b), region, l⟩ maxTries = .ok ([m], c) ∧
      m.start (a ++ (format Data.container n .e164 ++ b)) = blen a ∧ m.raw = format Data.container n .e164 ∧ m.number.cc = n.cc ∧
      nsnOf m.number = nsnOf n := by
  obtain ⟨pn, hw, hp, hver, e1, hnsn, -⟩ := e164_mention n hv h0 hex alt region l
  obtain ⟨m, c, hc, hst, hr, hn⟩ := C64_written ⟨Data.container, alt, a ++ (format Data.container n .e164 ++ b), region, l⟩ true a
    (format Data.container n .e164) b pn rfl ha hw hb (fun _ => hafter) (fun _ h => by cases h) hp hver maxTries hk
  exact ⟨m, c, hc, hst, hr, by rw [hn]; exact e1, by rw [hn]; exact hnsn⟩

/-- Cases of both theorems. -/
example : WrittenNumber false (str!"650 253-0000") ∧ NoStart (str!"Tel. ") ∧ NoDigit (str!" (office)") :=
  ⟨⟨(str!"650"), [((str!" "), (str!"253")), ((str!"-"), (str!"0000"))], by decide, by unfold Block; decide, by decide, by unfold Gap Block; decide⟩,
    ⟨by unfold NoDigit; decide +kernel, by decide⟩, by unfold NoDigit; decide +kernel⟩

example : ¬ Sticky 32 := fun h => absurd ((sticky_iff 32).2 h) (by decide +kernel)

example : isValidNumber Data.container { countryCode := some 39, nationalNumber := some 236618300, italianLeadingZero := some true } =
    .ok true ∧ ¬ Ambiguous { countryCode := some 39, nationalNumber := some 236618300, italianLeadingZero := some true } :=
  ⟨by kernel_rfl, by decide +kernel⟩

noncomputable def C64_case : Finder :=
  ⟨Data.container, Data.alt, (str!"Tel. +390236618300 (office)"), (str!"US"), .strictGrouping⟩

example : ((C64_case.findNumbers 1).toOption.map fun r => r.1.map fun m => (m.at_, m.raw)) = some [(5, (str!"+390236618300"))] := by
  kernel_rfl

end Verif.Props
