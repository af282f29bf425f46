import Verif.Lemmas.Kept
import Verif.Props.C76
import Verif.Props.C70
import Verif.Props.C71
/-!
# C82: numbers for calls from another country, with the letters kept

`FormatOutOfCountryKeepingAlphaChars` writes the text that was typed, without what stands before the number and with what has to be
dialled before it from the calling region.
-/
namespace Verif.Props
open Spec

/-- The international prefix written before a text whose letters are kept: the only one of the region, or else the preferred one. -/
def KeptPrefix (m : Metadata) (p : Str) : Prop :=
  p ≠ [] ∧ ((IsUniquePrefix m.internationalPrefix.src ∧ p = m.internationalPrefix.src) ∨
    (¬ IsUniquePrefix m.internationalPrefix.src ∧ p = m.preferredInternationalPrefix))

/-- The same as `dialledPrefix`, for the metadata without a preferred prefix where there is only one. -/
def onlyFirst (m : Metadata) : Metadata :=
  if uniqueInternationalPrefix.isMatch m.internationalPrefix.src then { m with preferredInternationalPrefix := [] } else m

/-- The part of the text typed that is taken for the number, as the model finds it. -/
def numberPart (n : PhoneNumber) : Str :=
  if (nsnOf n).length > 3 then
    match indexOf (kept n.raw) ((nsnOf n).take 3) with
    | some i => (kept n.raw).drop i
    | none => kept n.raw
  else kept n.raw

theorem numberPart_spec (n : PhoneNumber) : NumberPart n (numberPart n) := by
  unfold NumberPart numberPart
  by_cases h : (nsnOf n).length ≤ 3
  · rw [if_pos h, if_neg (by omega)]
  · rw [if_neg h, if_pos (by omega)]; exact from_indexOf _ _

theorem numberPart_unique {n : PhoneNumber} {t : Str} (h : NumberPart n t) : t = numberPart n := by
  have h' := numberPart_spec n
  unfold NumberPart at h h'
  by_cases hl : (nsnOf n).length ≤ 3
  · rw [if_pos hl] at h h'; rw [h, h']
  · rw [if_neg hl] at h h'; exact Verif.From.unique h h'

theorem numberPart_ascii (n : PhoneNumber) : ∀ u ∈ numberPart n, u < 128 ∧ u ≠ 10 := by
  have key : ∀ u ∈ kept n.raw, u < 128 ∧ u ≠ 10 := fun u hu => by have := kept_lt u hu; omega
  intro u hu
  unfold numberPart at hu
  (repeat' split at hu)
  · exact key u (List.mem_of_mem_drop hu)
  · exact key u hu
  · exact key u hu

/-- Every number has exactly one such part. -/
theorem C82_part (n : PhoneNumber) : ∃ t, NumberPart n t ∧ ∀ t', NumberPart n t' → t' = t :=
  ⟨_, numberPart_spec n, fun _ h => numberPart_unique h⟩

theorem formatKeepingAlpha_eq (C : Container) (n : PhoneNumber) (r : Str) (hraw : n.raw ≠ []) (hcc : C.hasCC n.cc = true) :
    formatKeepingAlpha C n r =
      if n.cc = nanpaCountryCode ∧ C.isNanpa r = true then decInt n.cc ++ 32 :: numberPart n
      else if n.cc ≠ nanpaCountryCode ∧ (C.metaForRegion r).isSome = true ∧ n.cc = C.ccForValidRegion r then
        match chooseFormat (match C.metaForRegion r with | some m => m.formats | none => []) (nsnOf n) with
        | none => numberPart n
        | some p => formatNsnUsingPattern (numberPart n) { p with pattern := anyDigitsPattern, format := str!"$1$2" } .national []
      else
        let p := match C.metaForRegion r with
          | none => []
          | some m => if uniqueInternationalPrefix.isMatch m.internationalPrefix.src then m.internationalPrefix.src
              else m.preferredInternationalPrefix
        let body := appendExtension n (C.metaFor n.cc (C.mainRegion n.cc)) .international (stripExtension (numberPart n)).2
        if p ≠ [] then p ++ 32 :: (decInt n.cc ++ 32 :: body) else prefixWithCC n.cc .international body := by
  rw [formatKeepingAlpha, if_neg hraw, if_neg (by simp [hcc])]
  simp only [normalize_kept, numberPart]
  rfl

theorem metaForRegion_valid {C : Container} {r : Str} {m : Metadata} (h : C.metaForRegion r = some m) : C.validRegion r = true := by
  unfold Container.metaForRegion at h; split at h
  · assumption
  · cases h

/-- A message without the text typed is written as by `FormatOutOfCountryCallingNumber`. -/
theorem C82_noText (C : Container) (n : PhoneNumber) (r : Str) (h : n.raw = []) : formatKeepingAlpha C n r = formatOutOfCountry C n r := by
  rw [formatKeepingAlpha, if_pos h]

/-- A message whose country code is not known is written as typed. -/
theorem C82_unknown (C : Container) (n : PhoneNumber) (r : Str) (h : n.raw ≠ []) (hcc : C.hasCC n.cc = false) :
    formatKeepingAlpha C n r = n.raw := by
  rw [formatKeepingAlpha, if_neg h, if_pos (by simp [hcc])]

/-- Calls within the North American plan: `1`, a space and the number as typed. -/
theorem C82_nanpa (C : Container) (hb : Built C) (n : PhoneNumber) (r : Str) (hraw : n.raw ≠ []) (hcc : C.hasCC n.cc = true) (h1 : n.cc = 1)
    (hr : r ∈ C.regionsOf 1) (t : Str) (ht : NumberPart n t) : formatKeepingAlpha C n r = str!"1 " ++ t := by
  rw [formatKeepingAlpha_eq C n r hraw hcc, if_pos ⟨h1, (hb.nanpa r).2 hr⟩, h1, numberPart_unique ht]
  rfl

/-- Calls within another country: the number as typed, with the national prefix rule of the rule chosen for the number put to the first
digits that stand together. -/
theorem C82_home (n : PhoneNumber) (r : Str) (m : Metadata) (hm : Data.container.metaForRegion r = some m) (hcc : m.countryCode = n.cc) (h1 : n.cc ≠ 1)
    (hraw : n.raw ≠ []) (t : Str) (ht : NumberPart n t) :
    (Chosen m.formats (nsnOf n) none → formatKeepingAlpha Data.container n r = t) ∧
      ∀ p, Chosen m.formats (nsnOf n) (some p) → RuleOnDigits p.npRule t (formatKeepingAlpha Data.container n r) := by
  have hr := metaForRegion_valid hm
  obtain ⟨-, m', hm1, -, hmem⟩ := validRegion_meta built_shipped Data.wf_tables hr
  rw [hm] at hm1; cases hm1
  have hcc1 : Data.container.hasCC n.cc = true := by rw [← hcc]; exact regionsOf_hasCC hmem
  have hlay := List.all_eq_true.1 wf_layout m (Container.metaForRegion_mem hm)
  simp only [layoutOk, Bool.and_eq_true, List.all_eq_true] at hlay
  have hch := chooseFormat_chosen hlay.1 (nsnOf_isDig n)
  have hout := formatKeepingAlpha_eq _ n r hraw hcc1
  rw [if_neg (fun h => h1 h.1), if_pos ⟨h1, by rw [hm]; rfl, by simp [Container.ccForValidRegion, hm, hcc]⟩] at hout
  simp only [hm] at hout
  rw [numberPart_unique ht]
  refine ⟨fun h => ?_, fun p h => ?_⟩
  · rw [← chosen_unique h hch] at hout
    exact hout
  · rw [← chosen_unique h hch] at hout
    rw [hout]
    refine anyDigits_format ?_ (numberPart_ascii n)
    have hp : p ∈ m.formats := by
      cases h with
      | some e _ _ => rw [e]; simp
    have := hlay.1 p hp
    unfold layoutRuleOk at this
    split at this
    · cases this
    · simp only [Bool.and_eq_true] at this; exact this.1.2

/-- Calls to another country: the prefix of the calling region, the country code, the number as typed and the extension of the message; or
`+` in place of the prefix, where the calling region has none.  Where the text typed ends with an extension, it is not written twice. -/
theorem C82_abroad (n : PhoneNumber) (r : Str) (hcc' : Data.container.ccForRegion r ≠ n.cc) (hraw : n.raw ≠ [])
    (hcc : Data.container.hasCC n.cc = true) (t : Str) (ht : NumberPart n t) :
    ∃ t' M, t' <+: t ∧ ((∃ a v, t = a ++ [v] ∧ isLetter v = true) ∨ Spaced t → t' = t) ∧
      Data.container.metaFor n.cc (Data.container.mainRegion n.cc) = some M ∧
      (∀ m p, Data.container.metaForRegion r = some m → KeptPrefix m p → formatKeepingAlpha Data.container n r =
        p ++ ' '.toNat :: (decimal n.cc.toNat ++ ' '.toNat :: (t' ++ extensionText M .international n.ext))) ∧
      ((∀ m p, Data.container.metaForRegion r = some m → ¬ KeptPrefix m p) → formatKeepingAlpha Data.container n r =
        '+'.toNat :: (decimal n.cc.toNat ++ ' '.toNat :: (t' ++ extensionText M .international n.ext))) := by
  obtain ⟨M, hM, -⟩ := main_meta built_shipped Data.wf_tables hcc
  have h0 := (prefixFree_spec prefixFree_shipped hcc).1
  have hdec := decInt_nonneg (c := n.cc) (by omega)
  have hn1 : ¬ (n.cc = nanpaCountryCode ∧ Data.container.isNanpa r = true) := by
    rintro ⟨h1, h2⟩
    have hmem := (built_shipped.nanpa r).1 h2
    rcases regionsOf_meta built_shipped Data.wf_tables hmem with ⟨h3, h4, -⟩ | ⟨-, h5, m', h3, -, h4⟩
    · have h6 : (Data.container.regionsOf 1).length ≠ 1 := by decide +kernel
      rw [h4] at h6
      exact absurd rfl h6
    · apply hcc'
      have hval := metaForRegion_valid h3
      simp [Container.ccForRegion, hval, Container.ccForValidRegion, h3, h4, h1]; rfl
  have hn2 : ¬ (n.cc ≠ nanpaCountryCode ∧ (Data.container.metaForRegion r).isSome = true ∧ n.cc = Data.container.ccForValidRegion r) := by
    rintro ⟨-, h2, h3⟩
    apply hcc'
    obtain ⟨m, hm⟩ := Option.isSome_iff_exists.1 h2
    have hval := metaForRegion_valid hm
    simp [Container.ccForRegion, hval, h3]
  have hbody : appendExtension n (some M) .international (stripExtension (numberPart n)).2 =
      (stripExtension (numberPart n)).2 ++ extensionText M .international n.ext := by
    simp only [appendExtension, extensionText, reduceCtorEq, if_false]
    split
    · simp_all
    · split <;> simp_all
  have hout := formatKeepingAlpha_eq Data.container n r hraw hcc
  rw [if_neg hn1, if_neg hn2, hM, hbody, hdec] at hout
  obtain ⟨e, he⟩ := stripExtension_prefix (numberPart n)
  rw [numberPart_unique ht]
  refine ⟨(stripExtension (numberPart n)).2, M, ⟨e, he.symm⟩, ?_, hM, ?_, ?_⟩
  · rintro (⟨a, v, hav, hv⟩ | hs)
    · rw [hav, stripExtension_letter a v hv]
    · have := sign_spaced (.inl rfl) hs
      simp only [List.nil_append] at this
      rw [this]
  · rintro m p hm ⟨hp, ⟨h1, rfl⟩ | ⟨h1, rfl⟩⟩
    · rw [hout]
      simp only [hm, (uniqueInternationalPrefix_iff _).2 h1, if_true, if_pos hp]; rfl
    · rw [hout]
      have : uniqueInternationalPrefix.isMatch m.internationalPrefix.src = false := by
        rw [Bool.eq_false_iff]; exact fun h => h1 ((uniqueInternationalPrefix_iff _).1 h)
      simp only [hm, this, Bool.false_eq_true, if_false, if_pos hp]; rfl
  · intro hno
    rw [hout]
    have hempty : (match Data.container.metaForRegion r with
        | none => []
        | some m => if uniqueInternationalPrefix.isMatch m.internationalPrefix.src then m.internationalPrefix.src
            else m.preferredInternationalPrefix) = [] := by
      cases hm : Data.container.metaForRegion r with
      | none => rfl
      | some m =>
        simp only
        apply Classical.byContradiction
        intro h
        refine hno m _ hm ⟨h, ?_⟩
        cases hu : uniqueInternationalPrefix.isMatch m.internationalPrefix.src with
        | true => exact .inl ⟨(uniqueInternationalPrefix_iff _).1 hu, if_pos rfl⟩
        | false => exact .inr ⟨fun h => (by rw [(uniqueInternationalPrefix_iff _).2 h] at hu; cases hu), if_neg (by simp)⟩
    simp only [hempty, prefixWithCC]
    rw [hdec]; simp

/-! ## What is written is read as the same number -/

theorem keptReadsBack_shipped : (Data.container.regionMeta.all fun e => decide (e.1 = str!"HK") ||
    (iddReadsBack (onlyFirst e.2) && (dialledPrefix (onlyFirst e.2)).all isDig)) = true := by kernel_rfl

theorem dialledPrefix_onlyFirst (m : Metadata) : dialledPrefix (onlyFirst m) =
    if uniqueInternationalPrefix.isMatch m.internationalPrefix.src then m.internationalPrefix.src else m.preferredInternationalPrefix := by
  unfold onlyFirst
  by_cases h : uniqueInternationalPrefix.isMatch m.internationalPrefix.src = true
  · rw [if_pos h, if_pos h]
    simp [dialledPrefix, h]
  · rw [if_neg h, if_neg h]
    unfold dialledPrefix
    cases m.preferredInternationalPrefix with
    | nil => simp [h]
    | cons u p => rfl

theorem onlyFirst_idd (m : Metadata) : (onlyFirst m).internationalPrefix = m.internationalPrefix := by
  unfold onlyFirst; split <;> rfl

theorem keptPrefix_iff (m : Metadata) (p : Str) : KeptPrefix m p ↔ p ≠ [] ∧ p = dialledPrefix (onlyFirst m) := by
  rw [dialledPrefix_onlyFirst, KeptPrefix]
  by_cases h : uniqueInternationalPrefix.isMatch m.internationalPrefix.src = true
  · rw [if_pos h]
    have := (uniqueInternationalPrefix_iff _).1 h
    simp [this]
  · rw [if_neg h]
    have : ¬ IsUniquePrefix m.internationalPrefix.src := fun h' => h ((uniqueInternationalPrefix_iff _).2 h')
    simp [this]

/-- The number as typed, of at most 150 characters: its digits, and for letters the digits of their keys, are those given.  Either with
three letters or more and without a plus sign, or of digits and separators only. -/
structure WithLetters (t digits : Str) : Prop where
  letters : LetterNumber t
  three : 3 ≤ letterCount t
  noSign : '+'.toNat ∉ t
  digits : (convertAlpha t).filter isDig = digits
  short : t.length ≤ 150

theorem convertAlpha_append (a b : Str) : convertAlpha (a ++ b) = convertAlpha a ++ convertAlpha b := by
  rw [C03_map, C03_map, C03_map, List.map_append]

theorem convertAlpha_plain {a : Str} (ha : ∀ u ∈ a, isDig u = true ∨ u ∈ gapL) : convertAlpha a = a := by
  rw [C03_map]; exact filter_isDig_alpha ha

/-- A number with letters after a country code and what is dialled before it. -/
theorem WithLetters.lead {t digits : Str} (h : WithLetters t digits) {sign lead : Str} (hs : sign = [] ∨ sign = str!"+")
    (hl : ∀ u ∈ lead, isDig u = true ∨ u ∈ gapL) (hf : lead = [] ∨ ∃ d rest, lead = d :: rest ∧ isDig d = true) (hlen : lead.length ≤ 50) :
    LetterNumber (sign ++ (lead ++ t)) ∧ 3 ≤ letterCount (sign ++ (lead ++ t)) ∧
      convertAlpha (sign ++ (lead ++ t)) = sign ++ (lead ++ convertAlpha t) ∧ Spaced (convertAlpha t) ∧ (convertAlpha t).length ≤ 150 := by
  obtain ⟨h1, h2, h3, h4, h5⟩ := h
  obtain ⟨pre, a, b, rfl, hp, ha, hd, hb, hend, -, -⟩ := letterNumber_parts h1
  have hp : pre = [] := by
    rcases hp with rfl | rfl
    · rfl
    · simp at h3
  subst hp
  simp only [List.nil_append] at h2 h3 h4 h5 ⊢
  refine ⟨?_, ?_, ?_, ?_, ?_⟩
  · have := LetterNumber.mk sign (lead ++ a) b hs ?_ ?_ ?_ ?_ hb hend ?_
    · simpa using this
    · intro u hu
      rcases List.mem_append.1 hu with hu | hu
      · exact hl u hu
      · exact ha.all u hu
    · obtain ⟨v, c, hv, hvd⟩ := ha.first
      rcases hf with rfl | ⟨d, rest, rfl, hd⟩
      · exact ⟨v, c, hv, hvd⟩
      · exact ⟨d, rest ++ a, rfl, hd⟩
    · obtain ⟨c, v, hv, hvd⟩ := ha.last
      exact ⟨lead ++ c, v, by rw [hv]; simp, hvd⟩
    · rw [List.filter_append, List.length_append]; omega
    · rcases hs with rfl | rfl <;> simp at h5 ⊢ <;> omega
  · simp only [letterCount, List.filter_append, List.length_append] at h2 ⊢; omega
  · rw [convertAlpha_append, convertAlpha_append lead, convertAlpha_plain hl]
    rcases hs with rfl | rfl <;> rfl
  · rw [C03_map]
    obtain ⟨x, c, hx, hc⟩ := hend
    exact spaced_alpha ha hb (.inr ⟨x, c, hx, .inr hc⟩)
  · rw [C03_map]; simpa using h5

theorem spaced_parts {t : Str} (h : Spaced t) : ∃ a v, t = a ++ [v] ∧ isDig v = true := h.last

/-- What is read of the prefix and the country code before a number of digits and separators. -/
theorem kept_core (n : PhoneNumber) (r : Str) (hk : r ≠ str!"HK") (hcc : Data.container.hasCC n.cc = true)
    (h2 : 2 ≤ (nsnOf n).length) (h17 : (nsnOf n).length ≤ 17)
    (ha : ∀ m, Data.container.metaFor n.cc (Data.container.mainRegion n.cc) = some m → LeftAlone m (nsnOf n)) {F y : Str} (hF : Spaced F)
    (hF4 : F.filter isDig = nsnOf n) (hF3 : F.length ≤ 150) (hy : ExtPart y n.ext) :
    (∀ m p, Data.container.metaForRegion r = some m → KeptPrefix m p → p.all isDig = true ∧ p.length ≤ 10 ∧
      ∃ src c, parseCore Data.container (p ++ 32 :: (decimal n.cc.toNat ++ 32 :: (F ++ y))) r true = .ok (.ok ⟨n.cc, n.ext, nsnOf n, some src, c⟩)) ∧
    ∃ src c, parseCore Data.container (43 :: (decimal n.cc.toNat ++ 32 :: (F ++ y))) r true = .ok (.ok ⟨n.cc, n.ext, nsnOf n, some src, c⟩) := by
  refine ⟨?_, ?_⟩
  · intro m p hm hkp
    obtain ⟨hp, hp'⟩ := (keptPrefix_iff m p).1 hkp
    have hval := metaForRegion_valid hm
    obtain ⟨-, m', hm1, hm', -⟩ := validRegion_meta built_shipped Data.wf_tables hval
    rw [hm] at hm1; cases hm1
    have hidd : iddReadsBack (onlyFirst m) = true ∧ (dialledPrefix (onlyFirst m)).all isDig = true := by
      have := List.all_eq_true.1 keptReadsBack_shipped _ (mapGet_mem hm')
      simpa [hk] using this
    obtain ⟨hidd, hall⟩ := hidd
    simp only [iddReadsBack, Bool.or_eq_true, Bool.and_eq_true, Nat.ble_eq, ← hp', onlyFirst_idd] at hidd
    obtain ⟨⟨⟨⟨hpd, hp10⟩, hna⟩, hfull⟩, hheads⟩ := hidd.resolve_left (by simpa using hp)
    obtain ⟨c, hc⟩ := idd_core n hval hm hcc h2 h17 ha hp hpd hp10 hna hfull hheads hF.all hF.last hF3 hF4 hy
    exact ⟨by rw [hp']; exact hall, hp10, _, c, hc⟩
  · obtain ⟨c, hc⟩ := written_core Data.container prefixFree_shipped (hasCC_zero Data.wf_regions) Data.wf_nonGeo Data.wf_lengthTables n hcc h2 h17 ha r
      [] F y 32 (.inl rfl) (by decide) hF.all hF.last hF3 hF4 hy
    simp only [List.nil_append, List.append_assoc, List.cons_append] at hc
    exact ⟨_, c, hc⟩

theorem decimal_lead {cc : Nat} (h0 : 0 < cc) (h : cc < 1000) : (∀ u ∈ decimal cc, isDig u = true) ∧ (decimal cc).length ≤ 3 ∧
    ∃ v b, decimal cc = v :: b ∧ isDig v = true := by
  obtain ⟨v, b, h1, h2, -⟩ := decimal_first h0
  refine ⟨by rw [← dec_eq_decimal]; exact dec_digits _, ?_, v, b, h1, h2⟩
  rw [← dec_eq_decimal]; exact (length_dec_le (by omega)).2 (by omega)

/-- Calls to another country, to a number typed with letters: what is written is read, with the calling region as default, as the same
number. -/
theorem C82_reads_letters (n : PhoneNumber) (r : Str) (hk : r ≠ str!"HK") (hcc' : Data.container.ccForRegion r ≠ n.cc)
    (hv : isValidNumber Data.container n = .ok true) (hex : ¬ Ambiguous n) (hext : n.ext = []) (hraw : n.raw ≠ []) (t : Str)
    (ht : NumberPart n t) (hl : WithLetters t (nsnOf n)) :
    ∃ pn, parse Data.container (formatKeepingAlpha Data.container n r) r = .ok (none, pn) ∧ ReadsAs pn n := by
  obtain ⟨hcc, h2, h17, ha⟩ := valid_leftAlone n hv hex
  obtain ⟨hc0, hc1000, -, -⟩ := prefixFree_spec prefixFree_shipped hcc
  obtain ⟨hdec, hlen3, v, b, hvb, hvd⟩ := decimal_lead (cc := n.cc.toNat) (by omega) (by omega)
  obtain ⟨t', M, -, htt, hM, hp, hq⟩ := C82_abroad n r hcc' hraw hcc t ht
  have hend : ∃ a v, t = a ++ [v] ∧ isLetter v = true := by
    obtain ⟨pre, x, y, rfl, -, -, -, -, ⟨a, c, rfl, hc⟩, -⟩ := letterNumber_parts hl.letters
    exact ⟨pre ++ (x ++ a), c, by simp, hc⟩
  have htt := htt (.inl hend)
  subst htt
  have hsp := (hl.lead (sign := []) (lead := []) (.inl rfl) (by simp) (.inl rfl) (by simp)).2.2.2
  have hcore := kept_core n r hk hcc h2 h17 ha hsp.1 hl.digits hsp.2 (y := []) (by rw [hext]; exact .none)
  have hx : extensionText M .international n.ext = [] := by simp [extensionText, hext]
  rw [hx] at hp hq
  simp only [List.append_nil] at hp hq hcore
  by_cases hkp : ∃ m p, Data.container.metaForRegion r = some m ∧ KeptPrefix m p
  · obtain ⟨m, p, hm, hkp⟩ := hkp
    obtain ⟨hpd, hp10, src, c, hc⟩ := hcore.1 m p hm hkp
    have hpd := List.all_eq_true.1 hpd
    have hlead : ∀ u ∈ p ++ 32 :: (decimal n.cc.toNat ++ [32]), isDig u = true ∨ u ∈ gapL := by
      intro u hu
      simp only [List.mem_append, List.mem_cons, List.not_mem_nil, or_false] at hu
      rcases hu with hu | rfl | hu | rfl
      · exact .inl (hpd u hu)
      · exact .inr (by decide)
      · exact .inl (hdec u hu)
      · exact .inr (by decide)
    obtain ⟨g1, g2, g3, -⟩ := hl.lead (sign := []) (lead := p ++ 32 :: (decimal n.cc.toNat ++ [32])) (.inl rfl) hlead
      (.inr (by
        cases hpp : p with
        | nil => exact absurd hpp hkp.1
        | cons u p' => exact ⟨u, _, rfl, hpd u (by rw [hpp]; simp)⟩))
      (by simp; omega)
    obtain ⟨pn, k1, k2⟩ := parse_of_core hc h2 h17
    refine ⟨pn, ?_, k2⟩
    rw [hp m p hm hkp]
    have := ((C70_letters Data.container _ g1 g2 r).1 pn).2 (by rw [g3]; simpa using k1)
    simpa using this
  · obtain ⟨src, c, hc⟩ := hcore.2
    have hlead : ∀ u ∈ decimal n.cc.toNat ++ [32], isDig u = true ∨ u ∈ gapL := by
      intro u hu
      simp only [List.mem_append, List.mem_cons, List.not_mem_nil, or_false] at hu
      rcases hu with hu | rfl
      · exact .inl (hdec u hu)
      · exact .inr (by decide)
    obtain ⟨g1, g2, g3, -⟩ := hl.lead (sign := str!"+") (lead := decimal n.cc.toNat ++ [32]) (.inr rfl) hlead
      (.inr ⟨v, b ++ [32], by rw [hvb]; rfl, hvd⟩) (by simp; omega)
    obtain ⟨pn, k1, k2⟩ := parse_of_core hc h2 h17
    refine ⟨pn, ?_, k2⟩
    rw [hq (fun m p hm h => hkp ⟨m, p, hm, h⟩)]
    have := ((C70_letters Data.container _ g1 g2 r).1 pn).2 (by rw [g3]; simpa using k1)
    simpa using this

/-- Calls to another country, to a number typed with digits and separators only: what is written is read as the same number, with its
extension of up to 9 digits. -/
theorem C82_reads_digits (n : PhoneNumber) (r : Str) (hk : r ≠ str!"HK") (hcc' : Data.container.ccForRegion r ≠ n.cc)
    (hv : isValidNumber Data.container n = .ok true) (hex : ¬ Ambiguous n) (hext : ShortExt n 9) (hraw : n.raw ≠ []) (t : Str)
    (ht : NumberPart n t) (hs : Spaced t) (hd : t.filter isDig = nsnOf n) (h150 : t.length ≤ 150) :
    ∃ pn, parse Data.container (formatKeepingAlpha Data.container n r) r = .ok (none, pn) ∧ ReadsAs pn n := by
  obtain ⟨hcc, h2, h17, ha⟩ := valid_leftAlone n hv hex
  obtain ⟨t', M, -, htt, hM, hp, hq⟩ := C82_abroad n r hcc' hraw hcc t ht
  have htt := htt (.inr hs)
  subst htt
  have hends := List.all_eq_true.1 wf_intlEnds M (Container.metaFor_mem hM)
  obtain ⟨x, hx, hx9, hxe⟩ := extLabel_of hends
  have hy := extPart_of hext hx hx9
  have hxt : extensionText M .international n.ext = if n.ext = [] then [] else x.1 ++ n.ext := by
    simp only [extensionText, reduceCtorEq, if_false, ← hxe]
    by_cases h : M.preferredExtnPrefix = [] <;> simp [h]
  rw [hxt] at hp hq
  have hcore := kept_core n r hk hcc h2 h17 ha hs hd h150 hy
  by_cases hkp : ∃ m p, Data.container.metaForRegion r = some m ∧ KeptPrefix m p
  · obtain ⟨m, p, hm, hkp⟩ := hkp
    obtain ⟨-, -, src, c, hc⟩ := hcore.1 m p hm hkp
    rw [hp m p hm hkp]
    exact parse_of_core hc h2 h17
  · obtain ⟨src, c, hc⟩ := hcore.2
    rw [hq (fun m p hm h => hkp ⟨m, p, hm, h⟩)]
    exact parse_of_core hc h2 h17

/-- Calls within the North American plan, to a valid number of ten digits: what is written is read as the same number. -/
theorem C82_reads_nanpa (n : PhoneNumber) (r : Str) (hr : r ∈ Data.container.supportedRegions) (hcc : Data.container.ccForRegion r = 1)
    (h1 : n.cc = 1) (hv : isValidNumber Data.container n = .ok true) (h10 : (nsnOf n).length = 10) (hext : n.ext = []) (hraw : n.raw ≠ []) (t : Str)
    (ht : NumberPart n t) (hl : WithLetters t (nsnOf n) ∨ (Spaced t ∧ t.filter isDig = nsnOf n ∧ t.length ≤ 150)) :
    ∃ pn, parse Data.container (formatKeepingAlpha Data.container n r) r = .ok (none, pn) ∧ ReadsAs pn n := by
  have hval := supported_valid hr
  obtain ⟨-, m, hm, -, hmem⟩ := validRegion_meta built_shipped Data.wf_tables hval
  have hmc : m.countryCode = 1 := by simpa [Container.ccForRegion, hval, Container.ccForValidRegion, hm] using hcc
  rw [hmc] at hmem
  have hcc1 : Data.container.hasCC n.cc = true := by rw [h1]; exact regionsOf_hasCC hmem
  rw [C82_nanpa Data.container built_shipped n r hraw hcc1 h1 hmem t ht]
  have key : ∀ F, Spaced F → F.filter isDig = nsnOf n → F.length ≤ 150 →
      ∃ pn, parse Data.container ((str!"1 ") ++ F) r = .ok (none, pn) ∧ ReadsAs pn n := by
    intro F hF hF1 hF2
    have hF' : Spaced ((str!"1 ") ++ F) := by
      refine ⟨?_, ⟨49, 32 :: F, rfl, by decide⟩, ?_⟩
      · intro u hu
        rcases List.mem_append.1 hu with hu | hu
        · exact (show ∀ u ∈ str!"1 ", isDig u = true ∨ u ∈ gapL by decide) u hu
        · exact hF.all u hu
      · obtain ⟨a, v, hav, hvd⟩ := hF.last
        exact ⟨(str!"1 ") ++ a, v, by rw [hav]; simp, hvd⟩
    obtain ⟨-, c, hc⟩ := nanpa_core n r hr hcc h1 hv h10 (junk := []) (y := []) (d := []) (by simp) hF' .none
      (by
        rw [blen_ascii]
        · simp; omega
        · intro u hu
          simp only [List.nil_append, List.append_nil] at hu
          exact ascii_text (fun u hu => (hF'.all u hu).imp id (List.mem_cons_of_mem _)) u hu)
      (by
        rw [List.filter_append, hF1]; rfl)
    simp only [List.nil_append, List.append_nil] at hc
    have hc' : parseCore Data.container ((str!"1 ") ++ F) r true = .ok (.ok ⟨n.cc, n.ext, nsnOf n, some .withoutPlusSign, c⟩) := by
      rw [hext]; exact hc
    exact parse_of_core hc' (by omega) (by omega)
  rcases hl with hl | ⟨g1, g2, g3⟩
  · obtain ⟨g1, g2, g3, g4, g5⟩ := hl.lead (sign := []) (lead := str!"1 ") (.inl rfl) (by decide) (.inr ⟨49, [32], rfl, by decide⟩) (by decide)
    obtain ⟨pn, k1, k2⟩ := key _ g4 hl.digits g5
    refine ⟨pn, ?_, k2⟩
    exact ((C70_letters Data.container _ g1 g2 r).1 pn).2 (by rw [g3]; exact k1)
  · exact key t g1 g2 g3

/-! ## Cases -/

/-- A number typed with letters, as the parser keeps it. -/
def flowers : PhoneNumber :=
  { countryCode := some 1
    nationalNumber := some 8003569377
    rawInput := some (str!"+1 (800) flowers")
    countryCodeSource := some .withPlusSign }

example : parseHelper Data.container (str!"+1 (800) flowers") (str!"GB") true true {} = .ok (none, flowers) := by kernel_rfl

example : NumberPart flowers (str!"800 FLOWERS") := by
  have := numberPart_spec flowers
  rwa [show numberPart flowers = str!"800 FLOWERS" by kernel_rfl] at this

theorem flowers_typed : WithLetters (str!"800 FLOWERS") (nsnOf flowers) where
  letters := .mk [] (str!"800") (str!" FLOWERS") (.inl rfl) (by unfold IsSeparator; decide) ⟨56, (str!"00"), rfl, by decide⟩ ⟨(str!"80"), 48, rfl, by decide⟩ (by decide)
    (by unfold IsSeparator; decide) ⟨(str!" FLOWER"), 83, rfl, by decide⟩ (by decide)
  three := by decide
  noSign := by decide
  digits := by kernel_rfl
  short := by decide

example : formatKeepingAlpha Data.container flowers (str!"GB") = str!"00 1 800 FLOWERS" ∧
    formatKeepingAlpha Data.container flowers (str!"CA") = str!"1 800 FLOWERS" ∧
    formatKeepingAlpha Data.container flowers (str!"SG") = str!"+1 800 FLOWERS" := by
  refine ⟨?_, ?_, ?_⟩ <;> kernel_rfl

example : isValidNumber Data.container flowers = .ok true ∧ ¬ Ambiguous flowers ∧ Data.container.ccForRegion (str!"GB") ≠ flowers.cc ∧
    (str!"CA") ∈ Data.container.supportedRegions ∧ Data.container.ccForRegion (str!"CA") = 1 ∧ (nsnOf flowers).length = 10 := by
  refine ⟨by kernel_rfl, ?_, by decide +kernel, by decide +kernel, by kernel_rfl, by decide +kernel⟩
  rintro ⟨b, hb, -⟩
  rw [show ambiguousFor flowers.cc.toNat = [] by decide +kernel] at hb
  cases hb

/-- A number of another country, called from its own country: the national prefix is put to the digits. -/
example : formatKeepingAlpha Data.container { countryCode := some 44, nationalNumber := some 2070313000, rawInput := some (str!"+44 2070 313ABC") } (str!"GB") =
    str!"02070 313ABC" := by kernel_rfl

/-! ## Where the text is not the number -/

/-- The three digits are looked for without regard to separators: where a separator stands among the first three digits of the number,
nothing is cut off before it, and the country code is written twice.  The text written is not read as a number. -/
theorem C82_code_twice :
    let n : PhoneNumber := { countryCode := some 44, nationalNumber := some 2070313000, rawInput := some (str!"+44 20 7031 3000"), countryCodeSource := some .withPlusSign }
    parseHelper Data.container (str!"+44 20 7031 3000") (str!"GB") true true {} = .ok (none, n) ∧ isValidNumber Data.container n = .ok true ∧
      formatKeepingAlpha Data.container n (str!"US") = str!"011 44 +44 20 7031 3000" ∧
      parse Data.container (str!"011 44 +44 20 7031 3000") (str!"US") = .ok (some .notANumber, {}) := by
  refine ⟨?_, ?_, ?_, ?_⟩ <;> kernel_rfl

/-- `#` is not kept, so an extension typed after it is no longer recognised and is written twice: as part of the number, and as extension. -/
theorem C82_extension_twice :
    let n : PhoneNumber := { countryCode := some 1, nationalNumber := some 6502530000, extension := some (str!"123"), rawInput := some (str!"+1 650 253 0000 #123"), countryCodeSource := some .withPlusSign }
    parseHelper Data.container (str!"+1 650 253 0000 #123") (str!"GB") true true {} = .ok (none, n) ∧
      formatKeepingAlpha Data.container n (str!"GB") = str!"00 1 650 253 0000 123 ext. 123" ∧
      formatKeepingAlpha Data.container n (str!"US") = str!"1 650 253 0000 123" := by
  refine ⟨?_, ?_, ?_⟩ <;> kernel_rfl

/-- Digits other than the ASCII ones are not kept: of a number typed with full-width digits nothing is written. -/
theorem C82_wide_digits :
    let s := (str!"+1 650253").map (fun u => if isDig u then u + 0xFEE0 else u) ++ (str!"0000").map (· + 0xFEE0)
    let n : PhoneNumber := { countryCode := some 1, nationalNumber := some 6502530000, rawInput := some s, countryCodeSource := some .withPlusSign }
    parseHelper Data.container s (str!"GB") true true {} = .ok (none, n) ∧
      formatKeepingAlpha Data.container n (str!"GB") = str!"00 1 + " := by
  refine ⟨?_, ?_⟩ <;> kernel_rfl

end Verif.Props
