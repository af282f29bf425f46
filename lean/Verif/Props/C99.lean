import Verif.Lemmas.Reading
import Verif.Props.C88
/-!
# C99: where the digits of a parsed number come from
-/
namespace Verif.Props
open Verif Spec

/-- The digits of a text, with or without an extension behind them. -/
inductive SaysDigits (s : Str) (plus : Bool) (ds : Str) : Str → Prop
  | number (h : NumberText s plus ds) : SaysDigits s plus ds []
  | withExtension {d : Str} (h : NumberExtText s plus ds d) : SaysDigits s plus ds d

theorem says_read {s ds d region : Str} {plus : Bool} (hs : SaysDigits s plus ds d) {o : ParseOut}
    (h : parseCore Data.container s region true = .ok (.ok o)) :
    ∃ src nat, o.source = some src ∧ CodeFound Data.container region plus ds src o.cc nat ∧
      NationalRead Data.container region src o.cc nat o.nsn ∧ o.carrier <:+: nat := by
  cases hs with
  | number hs => exact numberText_read Data.wf_regions prefixFree_shipped Data.wf_nonGeo Data.wf_generalLengths hs h
  | withExtension hs =>
    obtain ⟨number, ext, back, he, hn, -⟩ := hs.parts
    rw [parseCore_ext Data.container hs hn] at h
    cases hc : parseCore Data.container number region true with
    | error p => rw [hc] at h; cases h
    | ok r =>
      rw [hc] at h
      cases r with
      | error e => cases h
      | ok o' =>
        have hr := numberText_read Data.wf_regions prefixFree_shipped Data.wf_nonGeo Data.wf_generalLengths hn hc
        cases h
        exact hr

theorem nsnOf_read {s region : Str} {k : Bool} {o : ParseOut} (h : parseCore Data.container s region true = .ok (.ok o)) :
    nsnOf (o.apply s k {}) = o.nsn := by
  obtain ⟨-, h2, h3, h4⟩ := parseCore_spec Data.wf_regions Data.wf_transform h
  exact nsnOf_apply o s k {} h2 h3 h4 rfl

/-- What `ParseAndKeepRawInput` records: the text, the way in which the country code was found, and a carrier code that stands in the
text; the country code and the national number come from the digits of the text in that way. -/
theorem C99_raw (s ds d region : Str) (plus : Bool) (hs : SaysDigits s plus ds d) (n : PhoneNumber)
    (h : parseKeepRaw Data.container s region = .ok (none, n)) :
    n.rawInput = some s ∧ ∃ src nat, n.countryCodeSource = some src ∧ CodeFound Data.container region plus ds src n.cc nat ∧
      NationalRead Data.container region src n.cc nat (nsnOf n) ∧ ∀ c, n.preferredCarrier = some c → c ≠ [] ∧ c <:+: nat := by
  obtain ⟨o, h1, rfl⟩ := parse_core_of_ok h
  obtain ⟨src, nat, k1, k2, k3, k4⟩ := says_read hs h1
  refine ⟨rfl, src, nat, k1, k2, by rw [nsnOf_read h1]; exact k3, ?_⟩
  intro c hc
  have hc : (if true = true ∧ o.carrier ≠ [] then some o.carrier else none) = some c := hc
  split at hc
  · rename_i hne
    cases hc
    exact ⟨hne.2, k4⟩
  · cases hc

/-- The same for `Parse`, which does not record it. -/
theorem C99_parse (s ds d region : Str) (plus : Bool) (hs : SaysDigits s plus ds d) (n : PhoneNumber)
    (h : parse Data.container s region = .ok (none, n)) :
    ∃ src nat, CodeFound Data.container region plus ds src n.cc nat ∧ NationalRead Data.container region src n.cc nat (nsnOf n) := by
  obtain ⟨o, h1, rfl⟩ := parse_core_of_ok h
  obtain ⟨src, nat, -, k2, k3, -⟩ := says_read hs h1
  exact ⟨src, nat, k2, by rw [nsnOf_read h1]; exact k3⟩

/-- After a plus sign and a supported country code the number has that code, and the source says so, whatever the region. -/
theorem C99_plus (s ds d region : Str) (hs : SaysDigits s true ds d) (n : PhoneNumber) (c : Int) (rest : Str)
    (hc : Data.container.hasCC c = true) (hds : ds = decimal c.toNat ++ rest)
    (h : parseKeepRaw Data.container s region = .ok (none, n)) :
    n.countryCodeSource = some .withPlusSign ∧ n.cc = c := by
  have hd : ∀ u ∈ ds, isDig u = true := by
    cases hs with
    | number h => exact (plainText_short h).1
    | withExtension h =>
      obtain ⟨number, ext, back, he, hn, -⟩ := h.parts
      exact (plainText_short hn).1
  have hu : ∀ c rest, Data.container.hasCC c = true → ds = decimal c.toNat ++ rest → extractCC Data.container ds = (c, rest) := by
    intro c rest hc he
    rw [he] at hd ⊢
    exact C13_unique _ prefixFree_shipped (hasCC_zero Data.wf_regions) c rest hc (fun u hu => (isDig_iff u).1 (hd u (by simp [hu])))
  obtain ⟨-, src, nat, k1, k2, -⟩ := C99_raw s ds d region true hs n h
  rw [k1]
  generalize n.cc = cc at k2 ⊢
  cases k2 with
  | sign hp hcc he =>
    refine ⟨rfl, ?_⟩
    have := hu _ _ hcc he
    rw [hu c rest hc hds] at this
    exact (Prod.mk.inj this).1.symm
  | idd hm hx h0 hcc he hp => exact absurd hds (hp rfl c rest hc)
  | bare hp => cases hp
  | default hp => cases hp

theorem ccForRegion_of_meta {C : Container} {r : Str} {m : Metadata} (hm : C.metaForRegion r = some m) : C.ccForRegion r = m.countryCode := by
  have hv : C.validRegion r = true := by
    unfold Container.metaForRegion at hm
    split at hm
    · assumption
    · cases hm
  unfold Container.ccForRegion Container.ccForValidRegion
  rw [if_pos hv, hm]

/-- Without a plus sign the source is one of the other three, and the code is that of the region unless its international prefix was
dialled. -/
theorem C99_noPlus (s ds d region : Str) (hs : SaysDigits s false ds d) (n : PhoneNumber)
    (h : parseKeepRaw Data.container s region = .ok (none, n)) :
    (n.countryCodeSource = some .withIdd ∨ n.countryCodeSource = some .withoutPlusSign ∨ n.countryCodeSource = some .defaultCountry) ∧
    (n.countryCodeSource ≠ some .withIdd → Data.container.ccForRegion region = n.cc) := by
  obtain ⟨-, src, nat, k1, k2, -⟩ := C99_raw s ds d region false hs n h
  rw [k1]
  generalize n.cc = cc at k2 ⊢
  cases k2 with
  | sign hp => cases hp
  | idd => exact ⟨.inl rfl, fun h => absurd rfl h⟩
  | bare hp hm => exact ⟨.inr (.inl rfl), fun _ => ccForRegion_of_meta hm⟩
  | default hp hm => exact ⟨.inr (.inr rfl), fun _ => ccForRegion_of_meta hm⟩

/-! ## Digits are not made up -/

/-- The regions with a rule that rewrites what is dialled: local numbers get their area code, and in Argentina, Brazil, Gabon, Japan,
Madagascar, Norfolk Island and San Marino the dialled form of some numbers is rewritten. -/
def rewriting : List Str :=
  [(str!"AG"), (str!"AI"), (str!"AR"), (str!"AS"), (str!"BB"), (str!"BM"), (str!"BR"), (str!"BS"), (str!"CC"), (str!"CX"), (str!"DM"),
   (str!"GA"), (str!"GD"), (str!"GG"), (str!"GU"), (str!"IM"), (str!"JE"), (str!"JP"), (str!"KN"), (str!"KY"), (str!"LC"), (str!"MG"),
   (str!"MP"), (str!"MS"), (str!"NF"), (str!"SM"), (str!"SX"), (str!"TC"), (str!"TT"), (str!"VC"), (str!"VG"), (str!"VI")]

theorem rewriting_checked : (Data.container.regionMeta.all fun e => match e.2.npTransform with
    | [] => true | _ :: _ => decide (e.1 ∈ rewriting)) = true := by kernel_rfl

theorem rewriting_nonGeo : (Data.container.nonGeoMeta.all fun e => match e.2.npTransform with
    | [] => true | _ :: _ => false) = true := by kernel_rfl

theorem noRule_region {C : Container} (hC : (C.regionMeta.all fun e => match e.2.npTransform with
    | [] => true | _ :: _ => decide (e.1 ∈ rewriting)) = true) {r : Str} (hr : r ∉ rewriting) {m : Metadata}
    (hm : C.metaForRegion r = some m) : m.npTransform = [] := by
  unfold Container.metaForRegion at hm
  split at hm
  · have := List.all_eq_true.1 hC _ (mapGet_mem hm)
    simp only at this
    split at this
    · assumption
    · simp [hr] at this
  · cases hm

theorem noRule_main {C : Container} (hC : (C.regionMeta.all fun e => match e.2.npTransform with
    | [] => true | _ :: _ => decide (e.1 ∈ rewriting)) = true) (hN : (C.nonGeoMeta.all fun e => match e.2.npTransform with
    | [] => true | _ :: _ => false) = true) {cc : Int} {r : Str} (hr : r ∉ rewriting) {m : Metadata}
    (hm : C.metaFor cc r = some m) : m.npTransform = [] := by
  unfold Container.metaFor at hm
  split at hm
  · unfold Container.metaForNonGeo at hm
    split at hm
    · have := List.all_eq_true.1 hN _ (mapGet_mem hm)
      simp only at this
      split at this
      · assumption
      · cases this
    · cases hm
  · exact noRule_region hC hr hm

theorem off_suffix {m : Metadata} {a b : Str} (hm : m.npTransform = []) (h : PrefixOff m a b) : b <:+ a := by
  cases h with
  | kept => exact List.suffix_refl _
  | leftOut => exact List.drop_suffix _ _
  | rewritten hx hl => exact absurd (.inl hm) hl

/-- Without a rewriting rule the national significant number is an end of the digits of the text: nothing is made up, changed or left out
but at the beginning. -/
theorem C99_suffix (s ds d region : Str) (plus : Bool) (hs : SaysDigits s plus ds d) (n : PhoneNumber)
    (h : parse Data.container s region = .ok (none, n)) (h1 : region ∉ rewriting) (h2 : Data.container.mainRegion n.cc ∉ rewriting) :
    nsnOf n <:+ ds := by
  obtain ⟨src, nat, k1, k2⟩ := C99_parse s ds d region plus hs n h
  have hnat : nat <:+ ds := by
    generalize n.cc = cc at k1
    cases k1 with
    | sign hp hcc he => rw [he]; exact List.suffix_append _ _
    | idd hm hx h0 hcc he => exact (List.suffix_append _ _).trans (he ▸ List.drop_suffix _ _)
    | bare hp hm he ho => exact (off_suffix (noRule_region rewriting_checked h1 hm) ho).trans (he ▸ List.suffix_append _ _)
    | default => exact List.suffix_refl _
  refine List.IsSuffix.trans ?_ hnat
  rcases k2 with k2 | ⟨m, hm, ho⟩
  · rw [k2]; exact List.suffix_refl _
  · refine off_suffix ?_ ho
    split at hm
    · exact noRule_region rewriting_checked h1 hm
    · exact noRule_main rewriting_checked rewriting_nonGeo h2 hm

/-! ## Examples -/

-- a Swiss number typed in the United States after their international prefix 011
example : SaysDigits (str!"011 41 44 668 1800") false (str!"01141446681800") [] ∧
    parseKeepRaw Data.container (str!"011 41 44 668 1800") (str!"US") = .ok (none,
      { countryCode := some 41, nationalNumber := some 446681800, rawInput := some (str!"011 41 44 668 1800"), countryCodeSource := some .withIdd }) :=
  ⟨.number ⟨⟨[], [], (str!"011 41 44 668 1800"), [], rfl, by simp, by simp, by simp, by decide +kernel, fun _ => ⟨_, _, rfl, by decide +kernel⟩,
      ⟨(str!"011 41 44 668 180"), 48, rfl, by decide +kernel⟩, C01_transcript _, by simp⟩, by decide, by decide⟩, by kernel_rfl⟩
-- the same with a plus sign in front, behind which no country code begins with 0
example : parseKeepRaw Data.container (str!"+01141446681800") (str!"US") = .ok (none,
      { countryCode := some 41, nationalNumber := some 446681800, rawInput := some (str!"+01141446681800"), countryCodeSource := some .withIdd }) ∧ SaysDigits (str!"+01141446681800") true (str!"01141446681800") [] :=
  ⟨by kernel_rfl, .number (plainText_says true (ds := str!"01141446681800") (by decide) (by decide) (by decide))⟩
-- the code of the region without a plus sign
example : parseKeepRaw Data.container (str!"41446681800") (str!"CH") = .ok (none,
      { countryCode := some 41, nationalNumber := some 446681800, rawInput := some (str!"41446681800"), countryCodeSource := some .withoutPlusSign }) ∧ SaysDigits (str!"41446681800") false (str!"41446681800") [] :=
  ⟨by kernel_rfl, .number (plainText_says false (ds := str!"41446681800") (by decide) (by decide) (by decide))⟩
-- a Brazilian number dialled with the carrier code 15
example : parseKeepRaw Data.container (str!"0151191234567") (str!"BR") = .ok (none,
      { countryCode := some 55, nationalNumber := some 1191234567, rawInput := some (str!"0151191234567"),
        countryCodeSource := some .defaultCountry, preferredCarrier := some (str!"15") }) := by kernel_rfl
-- C99_suffix: neither Switzerland nor the United States rewrite numbers
example : (str!"US") ∉ rewriting ∧ Data.container.mainRegion 41 ∉ rewriting := by decide +kernel
-- and there is a reason for the exceptions: a local number of the island Montserrat gets its area code
example : parse Data.container (str!"3541234") (str!"MS") = .ok (none, { countryCode := some 1, nationalNumber := some 6643541234 }) := by kernel_rfl

end Verif.Props
