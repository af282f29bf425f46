import Verif.Lemmas.Dialled
import Verif.Props.C21
import Verif.Props.C66
import Verif.Props.C74
/-!
# C76: a number written for a call from another country is read there as the same number
-/
namespace Verif.Props
open Spec

/-- In every region but Hong Kong the international prefix written before numbers is recognised. -/
theorem iddReadsBack_shipped : (Data.container.regionMeta.all fun e => decide (e.1 = str!"HK") || iddReadsBack e.2) = true := by kernel_rfl

/-- All regions of the North American plan pass the static check. -/
theorem nanpaOk_shipped : ((Data.container.regionsOf 1).all fun r => match mapGet Data.container.regionMeta r with
    | none => true
    | some m => nanpaOk m) = true := by
  simp only [mapGet_str]
  kernel_rfl

/-- The formatting rules of the plan write no prefix. -/
theorem plainRules_shipped : (match mapGet Data.container.regionMeta (Data.container.mainRegion 1) with
    | none => true
    | some m => plainRules m) = true := by
  simp only [mapGet_str]
  kernel_rfl

theorem dialledPrefix_none {m : Metadata} (h : dialledPrefix m = []) (p : Str) : ¬ DialPrefix m p := by
  rintro ⟨hp, ⟨h1, rfl⟩ | ⟨h1, h2, rfl⟩⟩
  · unfold dialledPrefix at h
    split at h
    · exact h1 (by assumption)
    · exact hp h
  · unfold dialledPrefix at h
    simp only [h1, (uniqueInternationalPrefix_iff _).2 h2, if_true] at h
    exact hp h

theorem dialledPrefix_some {m : Metadata} (h : dialledPrefix m ≠ []) : DialPrefix m (dialledPrefix m) := by
  refine ⟨h, ?_⟩
  unfold dialledPrefix at h ⊢
  split at h
  · rename_i h1
    simp only [h1]
    split at h
    · rename_i h2
      rw [if_pos h2]
      exact .inr ⟨trivial, (uniqueInternationalPrefix_iff _).1 h2, rfl⟩
    · exact absurd rfl h
  · exact .inl ⟨h, rfl⟩

/-- The parsed message agrees with the number: country code, national significant number, extension. -/
def ReadsAs (pn n : PhoneNumber) : Prop :=
  pn.countryCode.getD 0 = n.countryCode.getD 0 ∧ nsnOf pn = nsnOf n ∧ pn.extension.getD [] = n.extension.getD []

theorem parse_of_core {C : Container} {s r : Str} {n : PhoneNumber} {src : CCSource} {c : Str}
    (h : parseCore C s r true = .ok (.ok ⟨n.cc, n.ext, nsnOf n, some src, c⟩)) (h2 : 2 ≤ (nsnOf n).length) (h17 : (nsnOf n).length ≤ 17) :
    ∃ pn, parse C s r = .ok (none, pn) ∧ ReadsAs pn n := by
  have hp := parseHelper_core C s r false true {}
  rw [h] at hp
  simp only [Refines] at hp
  refine ⟨_, hp, rfl, C05_store (nsnOf n) {} (C04_digits n) h2 h17 rfl, ?_⟩
  show (if n.ext ≠ [] then some n.ext else none).getD [] = n.ext
  by_cases h : n.ext = []
  · rw [if_neg (by simp [h]), h]; rfl
  · rw [if_pos h]; rfl

theorem decimal_first {c : Nat} (h : 0 < c) : ∃ v b, decimal c = v :: b ∧ isDig v = true ∧ v ≠ 48 := by
  have h1 := dec_head c (by omega)
  have h2 := dec_digits c
  have h3 := dec_ne_nil c
  rw [dec_eq_decimal] at h1 h2 h3
  cases hd : decimal c with
  | nil => exact absurd hd h3
  | cons v b =>
    rw [hd] at h1 h2
    exact ⟨v, b, rfl, h2 v (by simp), by simpa using h1⟩

theorem ascii_ext {y d : Str} (hy : ExtPart y d) : y.length ≤ 40 ∧ ∀ u ∈ y, u < 128 := by
  have hd128 : ∀ u, isDig u = true → u < 128 := by intro u hu; simp [isDig] at hu; omega
  cases hy with
  | none => simp
  | some x d hx hd h1 h2 =>
    have k1 : ∀ x ∈ extLabels, x.1.length + x.2 ≤ 40 ∧ ∀ u ∈ x.1, u < 128 := by decide
    obtain ⟨k2, k3⟩ := k1 x hx
    refine ⟨by simp; omega, fun u hu => ?_⟩
    rcases List.mem_append.1 hu with hu | hu
    · exact k3 u hu
    · exact hd128 u (hd u hu)

theorem ascii_text {t : Str} (ht : ∀ u ∈ t, isDig u = true ∨ u ∈ 126 :: gapL) : ∀ u ∈ t, u < 128 := by
  intro u hu
  rcases ht u hu with h | h
  · simp [isDig] at h; omega
  · exact (show ∀ u ∈ 126 :: gapL, u < 128 by decide) u h

theorem extLabel_of {m : Metadata} (h : intlEndsOk m = true) : ∃ x ∈ extLabels, 9 ≤ x.2 ∧
    (if m.preferredExtnPrefix ≠ [] then m.preferredExtnPrefix else str!" ext. ") = x.1 := by
  simp only [intlEndsOk, Bool.and_eq_true, decide_eq_true_eq] at h
  have key : ∀ p ∈ [[], (str!" x"), (str!" Anexo "), (str!" int "), (str!"#"), (str!" int. ")],
    ∃ x ∈ extLabels, 9 ≤ x.2 ∧ (if p ≠ [] then p else str!" ext. ") = x.1 := by decide
  exact key _ h.2

theorem regions_named : (Data.container.supportedRegions.all fun r => !r.isEmpty) = true := by kernel_rfl

theorem supported_valid {r : Str} (h : r ∈ Data.container.supportedRegions) : Data.container.validRegion r = true := by
  simp only [Container.validRegion, Bool.and_eq_true, decide_eq_true_eq]
  refine ⟨?_, h⟩
  rintro rfl
  have := List.all_eq_true.1 regions_named _ h
  cases this

/-- The decisions of parsing a prefix for calls to another country, a country code and a number written with separators. -/
theorem idd_core (n : PhoneNumber) {r : Str} {m : Metadata} (hval : Data.container.validRegion r = true)
    (hm : Data.container.metaForRegion r = some m) (hcc : Data.container.hasCC n.cc = true) (h2 : 2 ≤ (nsnOf n).length) (h17 : (nsnOf n).length ≤ 17)
    (ha : ∀ m, Data.container.metaFor n.cc (Data.container.mainRegion n.cc) = some m → LeftAlone m (nsnOf n))
    {p : Str} (hp : p ≠ []) (hpd : p.all isDig = true ∨ decide (p ++ [32] ∈ toneLeads) = true) (hp10 : p.length ≤ 10)
    (hna : m.internationalPrefix.re.noAnchor = true) (hfull : m.internationalPrefix.re.full.isMatch (p.filter isDig) = true)
    (hheads : heads (fun k _ => Nat.beq k (p.filter isDig).length) 16 0 [m.internationalPrefix.re] [[afterLit (p.filter isDig) codeFirst]] = true)
    {F y d : Str} (k1 : ∀ u ∈ F, isDig u = true ∨ u ∈ gapL) (k2 : ∃ a v, F = a ++ [v] ∧ isDig v = true) (k3 : F.length ≤ 150)
    (k4 : F.filter isDig = nsnOf n) (hy : ExtPart y d) :
    ∃ c, parseCore Data.container (p ++ 32 :: (decimal n.cc.toNat ++ 32 :: (F ++ y))) r true =
      .ok (.ok ⟨n.cc, d, nsnOf n, some .withIdd, c⟩) := by
  have h0 : 0 < n.cc := (prefixFree_spec prefixFree_shipped hcc).1
  have hc1000 := (prefixFree_spec prefixFree_shipped hcc).2.1
  have hdec : ∀ u ∈ decimal n.cc.toNat, isDig u = true := by rw [← dec_eq_decimal]; exact dec_digits _
  have hlen3 : (decimal n.cc.toNat).length ≤ 3 := by
    rw [← dec_eq_decimal]; exact (length_dec_le (by omega)).2 (by omega)
  obtain ⟨v, b, hvb, hvd, hv0⟩ := decimal_first (c := n.cc.toNat) (by omega)
  have ht : Spaced (decimal n.cc.toNat ++ 32 :: F) := by
    refine ⟨?_, ⟨v, b ++ 32 :: F, by rw [hvb]; rfl, hvd⟩, ?_⟩
    · intro u hu
      rcases List.mem_append.1 hu with hu | hu
      · exact .inl (hdec u hu)
      · rcases List.mem_cons.1 hu with rfl | hu
        · exact .inr (by decide)
        · exact k1 u hu
    · obtain ⟨a, v, hav, hv⟩ := k2
      exact ⟨decimal n.cc.toNat ++ 32 :: a, v, by rw [hav]; simp, hv⟩
  have hfil : (decimal n.cc.toNat ++ 32 :: F).filter isDig = decimal n.cc.toNat ++ nsnOf n := by
    rw [List.filter_append, List.filter_cons_of_neg (by decide), k4, List.filter_eq_self.2 hdec]
  have hl3 : 3 ≤ ((decimal n.cc.toNat ++ 32 :: F).filter isDig).length := by
    rw [hfil, hvb]; simp; omega
  -- the prefix and the text after it
  have hdial : Dial (p ++ 32 :: (decimal n.cc.toNat ++ 32 :: F)) := by
    rcases hpd with hpd | hpd
    · have hpd := List.all_eq_true.1 hpd
      refine Spaced.dial ⟨?_, ?_, ?_⟩ ?_
      · intro u hu
        rcases List.mem_append.1 hu with hu | hu
        · exact .inl (hpd u hu)
        · rcases List.mem_cons.1 hu with rfl | hu
          · exact .inr (by decide)
          · exact ht.all u hu
      · cases hd : p with
        | nil => exact absurd hd hp
        | cons v b => exact ⟨v, b ++ 32 :: _, rfl, hpd v (by rw [hd]; simp)⟩
      · obtain ⟨a, v, hav, hv⟩ := ht.last
        exact ⟨p ++ 32 :: a, v, by rw [hav]; simp, hv⟩
      · rw [List.filter_append, List.filter_cons_of_neg (by decide), List.length_append]; omega
    · have := toneLead_dial (by simpa using hpd) ht hl3
      simpa using this
  have hfilT : (p ++ 32 :: (decimal n.cc.toNat ++ 32 :: F)).filter isDig =
      (p).filter isDig ++ v :: (b ++ nsnOf n) := by
    rw [List.filter_append, List.filter_cons_of_neg (by decide), hfil, hvb]; rfl
  have hread := idd_some hna (p := (p).filter isDig) (fun u hu => (List.mem_filter.1 hu).2) hfull hheads hvd hv0
    (e := b ++ nsnOf n) (by
      intro u hu
      rcases List.mem_append.1 hu with hu | hu
      · exact hdec u (by rw [hvb]; simp [hu])
      · exact nsnOf_isDig n u hu)
  rw [← hfilT] at hread
  rw [show v :: (b ++ nsnOf n) = decimal n.cc.toNat ++ nsnOf n by rw [hvb]; rfl] at hread
  obtain ⟨hex1, hfin⟩ := roundtrip_finish Data.container prefixFree_shipped (hasCC_zero Data.wf_regions) Data.wf_nonGeo
    Data.wf_lengthTables n hcc h2 h17 ha r
  obtain ⟨hy40, hy128⟩ := ascii_ext hy
  have h250 : blen ((p ++ 32 :: (decimal n.cc.toNat ++ 32 :: F)) ++ y) ≤ 250 := by
    rw [blen_ascii]
    · simp only [List.length_append, List.length_cons]; omega
    · intro u hu
      rcases List.mem_append.1 hu with hu | hu
      · refine ascii_text (t := p ++ 32 :: (decimal n.cc.toNat ++ 32 :: F)) ?_ u hu
        intro u hu
        rcases List.mem_append.1 hu with hu | hu
        · rcases hpd with hpd | hpd
          · exact .inl (List.all_eq_true.1 hpd u hu)
          · exact toneLeads_mem _ (by simpa using hpd) u (by simp [hu])
        · rcases List.mem_cons.1 hu with rfl | hu
          · exact .inr (by decide)
          · exact (ht.all u hu).imp id (List.mem_cons_of_mem _)
      · exact hy128 u hu
  have hcore := parseCore_idd hval hm hdial hy h250 hread
    (by rw [blen_digits (by
          intro u hu
          rcases List.mem_append.1 hu with hu | hu
          · exact hdec u hu
          · exact nsnOf_isDig n u hu), hvb]; simp; omega)
    (by rw [hex1]; simp only; omega)
  rw [hex1] at hcore
  simp only [hfin, bind, Except.bind, pure, Except.pure] at hcore
  simp only [List.append_assoc, List.cons_append] at hcore
  exact ⟨_, hcore⟩

/-- The decisions of parsing what is written for a call to another country. -/
theorem abroad_core (n : PhoneNumber) (r : Str) (hr : r ∈ Data.container.supportedRegions) (hk : r ≠ str!"HK")
    (hcc' : Data.container.ccForRegion r ≠ n.cc) (hv : isValidNumber Data.container n = .ok true) (hex : ¬ Ambiguous n) (hext : ShortExt n 9) :
    ∃ src c, parseCore Data.container (formatOutOfCountry Data.container n r) r true = .ok (.ok ⟨n.cc, n.ext, nsnOf n, some src, c⟩) ∧
      2 ≤ (nsnOf n).length ∧ (nsnOf n).length ≤ 17 ∧ (src = .withIdd ∨ (src = .withPlusSign ∧
        formatOutOfCountry Data.container n r = format Data.container { n with rawInput := none } .international)) := by
  obtain ⟨hcc, h2, h17, ha⟩ := valid_leftAlone n hv hex
  have hval := supported_valid hr
  obtain ⟨-, m, hm, hm', hmem⟩ := validRegion_meta built_shipped Data.wf_tables hval
  have hmc : m.countryCode ≠ n.cc := by simpa [Container.ccForRegion, hval, Container.ccForValidRegion, hm] using hcc'
  obtain ⟨body, hb1, hb2, hb3⟩ := C21_abroad Data.container built_shipped Data.wf_tables prefixFree_shipped n r m hm hcc hmc
  by_cases hp : dialledPrefix m = []
  · -- no prefix: the INTERNATIONAL form
    rw [hb3 (dialledPrefix_none hp), ← hb1]
    obtain ⟨c, k1⟩ := international_core _ built_shipped Data.wf_tables prefixFree_shipped (hasCC_zero Data.wf_regions)
      Data.wf_nonGeo Data.wf_lengthTables Data.wf_intlFormats Data.wf_intlLiterals wf_intlEnds { n with rawInput := none } hcc
      (by simp [PhoneNumber.raw]) h2 h17 ha hext r
    exact ⟨_, c, k1, h2, h17, .inr ⟨rfl, rfl⟩⟩
  · have hidd : iddReadsBack m = true := by
      have := List.all_eq_true.1 iddReadsBack_shipped _ (mapGet_mem hm')
      simpa [hk] using this
    rw [hb2 _ (dialledPrefix_some hp)]
    -- the text
    obtain ⟨M, hM, -⟩ := main_meta built_shipped Data.wf_tables hcc
    have hMm := Container.metaFor_mem hM
    have hok := List.all_eq_true.1 Data.wf_intlFormats M hMm
    have hends := List.all_eq_true.1 wf_intlEnds M hMm
    obtain ⟨k1, k2, k3⟩ := formatNsn_spaced M hok (List.all_eq_true.1 Data.wf_intlLiterals M hMm) hends (nsnOf n) (nsnOf_isDig n)
      (by intro h; simp [h] at h2)
    have k4 := formatNsn_digits M hok (nsnOf n) (nsnOf_isDig n)
    generalize hF : formatNsn (nsnOf n) (some M) .international [] = F at k1 k2 k3 k4
    obtain ⟨x, hx, hx9, hxe⟩ := extLabel_of hends
    have hy := extPart_of hext hx hx9
    have h0 : 0 < n.cc := (prefixFree_spec prefixFree_shipped hcc).1
    have hc1000 := (prefixFree_spec prefixFree_shipped hcc).2.1
    have hbody : body = F ++ (if n.ext = [] then [] else x.1 ++ n.ext) := by
      have : format Data.container { n with rawInput := none } .international = '+'.toNat :: (decimal n.cc.toNat ++ ' '.toNat :: (F ++ (if n.ext = [] then [] else x.1 ++ n.ext))) := by
        have hcc1 : Data.container.hasCC ({ n with rawInput := none } : PhoneNumber).cc = true := hcc
        have hM1 : Data.container.metaFor ({ n with rawInput := none } : PhoneNumber).cc (Data.container.mainRegion ({ n with rawInput := none } : PhoneNumber).cc) = some M := hM
        have hn1 : nsnOf ({ n with rawInput := none } : PhoneNumber) = nsnOf n := rfl
        have he1 : ({ n with rawInput := none } : PhoneNumber).ext = n.ext := rfl
        have hc1 : decInt ({ n with rawInput := none } : PhoneNumber).cc = decimal n.cc.toNat := decInt_nonneg (c := n.cc) (by omega)
        simp only [format, formatCore, reduceCtorEq, if_false, hcc1, Bool.not_true, Bool.false_eq_true, hM1, prefixWithCC,
          appendExtension, hn1, he1, hc1, hxe, hF]
        split
        · rename_i h; simp [PhoneNumber.raw] at h
        · split <;> simp
      rw [this] at hb1
      have := List.append_cancel_left (List.cons.inj hb1).2
      exact ((List.cons.inj this).2).symm
    rw [hbody]
    generalize hY : (if n.ext = [] then [] else x.1 ++ n.ext) = y at hy
    simp only [iddReadsBack, Bool.or_eq_true, Bool.and_eq_true, Nat.ble_eq] at hidd
    obtain ⟨⟨⟨⟨hpd, hp10⟩, hna⟩, hfull⟩, hheads⟩ := hidd.resolve_left (by simpa using hp)
    obtain ⟨c, hcore⟩ := idd_core n hval hm hcc h2 h17 ha hp hpd hp10 hna hfull hheads k1 k2 (by omega) k4 hy
    exact ⟨.withIdd, c, hcore, h2, h17, .inl rfl⟩

/-- Calls to another country: what `FormatOutOfCountryCallingNumber` writes for a valid number and a calling region with another country
code (other than Hong Kong) is parsed, with the calling region as default, as the same number, with its extension of up to 9
digits. -/
theorem C76_abroad (n : PhoneNumber) (r : Str) (hr : r ∈ Data.container.supportedRegions) (hk : r ≠ str!"HK")
    (hcc' : Data.container.ccForRegion r ≠ n.cc) (hv : isValidNumber Data.container n = .ok true) (hex : ¬ Ambiguous n) (hext : ShortExt n 9) :
    ∃ pn, parse Data.container (formatOutOfCountry Data.container n r) r = .ok (none, pn) ∧ ReadsAs pn n := by
  obtain ⟨src, c, h, h2, h17, -⟩ := abroad_core n r hr hk hcc' hv hex hext
  exact parse_of_core h h2 h17

/-- Calls from an unsupported region: the INTERNATIONAL form is written and read back. -/
theorem C76_unsupported (n : PhoneNumber) (r : Str) (hr : r ∉ Data.container.supportedRegions)
    (hv : isValidNumber Data.container n = .ok true) (hraw : ¬ (n.nn = 0 ∧ n.raw ≠ [])) (hex : ¬ Ambiguous n) (hext : ShortExt n 9) :
    ∃ pn, parse Data.container (formatOutOfCountry Data.container n r) r = .ok (none, pn) ∧ ReadsAs pn n := by
  rw [C21_unsupported_region _ _ _ hr]
  exact C65_international_valid n hv hraw hex hext r

/-- Calls within a country other than those of the North American plan, to a number valid for the calling region: the NATIONAL form is
written and read back, with the exceptions of C66. -/
theorem C76_home (n : PhoneNumber) (r : Str) (hr : r ∈ Data.container.supportedRegions) (hcc : Data.container.ccForRegion r = n.cc)
    (h1 : n.cc ≠ 1) (hv : isValidForRegion Data.container n r = .ok true) (hu : r ∉ natUnsettled) (hex : ¬ NatAmbiguous n)
    (hraw : ¬ (n.nn = 0 ∧ n.raw ≠ [])) (hext : ShortExt n 9) :
    ∃ pn, parse Data.container (formatOutOfCountry Data.container n r) r = .ok (none, pn) ∧ ReadsAs pn n := by
  have hval := supported_valid hr
  obtain ⟨h001, m, hm, hm', hmem⟩ := validRegion_meta built_shipped Data.wf_tables hval
  have hmc : m.countryCode = n.cc := by simpa [Container.ccForRegion, hval, Container.ccForValidRegion, hm] using hcc
  rw [C21_same Data.container n r m hm hmc (by rw [← hmc]; exact regionsOf_hasCC hmem) h1]
  exact C66_national_valid n r hv h001 hu hex hraw hext

/-- Parsing the digits of a number of the North American plan after 1, in any of its regions. -/
theorem nanpa_core (n : PhoneNumber) (r : Str) (hr : r ∈ Data.container.supportedRegions) (hcc : Data.container.ccForRegion r = 1)
    (h1 : n.cc = 1) (hv : isValidNumber Data.container n = .ok true) (h10 : (nsnOf n).length = 10) {junk t y d : Str}
    (hj : ∀ u ∈ junk, u ∈ gapL) (ht : Spaced t) (hy : ExtPart y d) (h250 : blen (junk ++ (t ++ y)) ≤ 250)
    (hfil : t.filter isDig = 49 :: nsnOf n) :
    ¬ (n.nn = 0 ∧ n.raw ≠ []) ∧ ∃ c, parseCore Data.container (junk ++ (t ++ y)) r true =
      .ok (.ok ⟨n.cc, d, nsnOf n, some .withoutPlusSign, c⟩) := by
  have hval := supported_valid hr
  obtain ⟨h001, m, hm, hm', hmem⟩ := validRegion_meta built_shipped Data.wf_tables hval
  have hmc : m.countryCode = 1 := by simpa [Container.ccForRegion, hval, Container.ccForValidRegion, hm] using hcc
  have hex : ¬ Ambiguous n := by
    rintro ⟨b, hb, -⟩
    rw [h1] at hb
    rw [show ambiguousFor (Int.toNat 1) = [] by decide] at hb
    cases hb
  obtain ⟨hcc, h2, h17, ha⟩ := valid_leftAlone n hv hex
  rw [hmc] at hmem
  have hnok : ∀ r' m', r' ∈ Data.container.regionsOf 1 → mapGet Data.container.regionMeta r' = some m' → nanpaOk m' = true := by
    intro r' m' h3 h4
    have := List.all_eq_true.1 nanpaOk_shipped r' h3
    simpa only [h4] using this
  -- the first digit
  obtain ⟨r', m', hr', hm1', hkind⟩ := valid_ofKind built_shipped Data.wf_tables Data.wf_allDescs n hv
  rw [h1] at hr'
  have hmeta' : mapGet Data.container.regionMeta r' = some m' := by
    rcases regionsOf_meta built_shipped Data.wf_tables hr' with ⟨g1, g2, -⟩ | ⟨g1, -, m0, g2, g3, -⟩
    · rw [g2] at hmem
      exact absurd (List.mem_singleton.1 hmem) h001
    · simp only [Container.metaFor, g1, if_false, g2, Option.some.injEq] at hm1'
      rw [← hm1']; exact g3
  have hok' := hnok r' m' hr' hmeta'
  obtain ⟨u, e, hue⟩ : ∃ u e, nsnOf n = u :: e := by
    cases h : nsnOf n with
    | nil => simp [h] at h10
    | cons u e => exact ⟨u, e, rfl⟩
  have hud : isDig u = true := nsnOf_isDig n u (by rw [hue]; simp)
  have hu50 : 50 ≤ u := by
    have hacc := matches_acc hkind.1
    rw [hue] at hacc
    have hs := canStart_acc hacc
    obtain ⟨⟨g, hg, -⟩, -⟩ := hkind
    simp only [nanpaOk, hg, Bool.and_eq_true, Bool.not_eq_true'] at hok'
    obtain ⟨⟨⟨⟨⟨⟨-, a1⟩, a2⟩, -⟩, -⟩, -⟩, -⟩ := hok'
    rw [hg] at hs
    rcases isDig_cases hud with rfl | rfl | rfl | rfl | rfl | rfl | rfl | rfl | rfl | rfl <;> first | omega | (rw [hs] at a1; cases a1) | (rw [hs] at a2; cases a2)
  have hraw : ¬ (n.nn = 0 ∧ n.raw ≠ []) := by
    rintro ⟨h0, -⟩
    have h3 := (C04_shape n).1
    rw [show n.nationalNumber.getD 0 = 0 from h0, hue] at h3
    have h48 : ∀ v ∈ u :: e, v = 48 := by
      rw [h3]
      intro v hv
      rcases List.mem_append.1 hv with hv | hv
      · exact (List.mem_replicate.1 hv).2
      · rw [← dec_eq_decimal] at hv
        exact List.mem_singleton.1 hv
    have := h48 u (by simp)
    omega
  refine ⟨hraw, ?_⟩
  rw [hue] at hfil
  have hcore := parseCore_nanpa hval hm (hnok r m hmem hm') (List.all_eq_true.1 Data.wf_lengthTables m (Container.metaForRegion_mem hm))
    hj ht hy h250 hfil hu50 (by rw [hue] at h10; simpa using h10)
  obtain ⟨-, hfin⟩ := roundtrip_finish Data.container prefixFree_shipped (hasCC_zero Data.wf_regions) Data.wf_nonGeo
    Data.wf_lengthTables n hcc h2 h17 ha r
  rw [h1, hue] at hfin
  simp only [hfin, bind, Except.bind, pure, Except.pure] at hcore
  rw [← hue, ← h1] at hcore
  exact ⟨_, hcore⟩

/-- Calls within the North American plan, from any of its regions to a valid number of ten digits of any of its regions: `1` and the
NATIONAL form are written and read back. -/
theorem C76_nanpa (n : PhoneNumber) (r : Str) (hr : r ∈ Data.container.supportedRegions) (hcc : Data.container.ccForRegion r = 1)
    (h1 : n.cc = 1) (hv : isValidNumber Data.container n = .ok true) (h10 : (nsnOf n).length = 10) (hext : ShortExt n 9) :
    ∃ pn, parse Data.container (formatOutOfCountry Data.container n r) r = .ok (none, pn) ∧ ReadsAs pn n := by
  have hval := supported_valid hr
  obtain ⟨h001, m, hm, hm', hmem⟩ := validRegion_meta built_shipped Data.wf_tables hval
  have hmc : m.countryCode = 1 := by simpa [Container.ccForRegion, hval, Container.ccForValidRegion, hm] using hcc
  have hex : ¬ Ambiguous n := by
    rintro ⟨b, hb, -⟩
    rw [h1] at hb
    rw [show ambiguousFor (Int.toNat 1) = [] by decide] at hb
    cases hb
  obtain ⟨hcc, h2, h17, ha⟩ := valid_leftAlone n hv hex
  rw [hmc] at hmem
  rw [C21_nanpa Data.container built_shipped n r hval h1 hmem]
  have hnok : ∀ r' m', r' ∈ Data.container.regionsOf 1 → mapGet Data.container.regionMeta r' = some m' → nanpaOk m' = true := by
    intro r' m' h3 h4
    have := List.all_eq_true.1 nanpaOk_shipped r' h3
    simpa only [h4] using this
  -- the first digit
  obtain ⟨r', m', hr', hm1', hkind⟩ := valid_ofKind built_shipped Data.wf_tables Data.wf_allDescs n hv
  rw [h1] at hr'
  have hmeta' : mapGet Data.container.regionMeta r' = some m' := by
    rcases regionsOf_meta built_shipped Data.wf_tables hr' with ⟨g1, g2, -⟩ | ⟨g1, -, m0, g2, g3, -⟩
    · rw [g2] at hmem
      exact absurd (List.mem_singleton.1 hmem) h001
    · simp only [Container.metaFor, g1, if_false, g2, Option.some.injEq] at hm1'
      rw [← hm1']; exact g3
  have hok' := hnok r' m' hr' hmeta'
  obtain ⟨u, e, hue⟩ : ∃ u e, nsnOf n = u :: e := by
    cases h : nsnOf n with
    | nil => simp [h] at h10
    | cons u e => exact ⟨u, e, rfl⟩
  have hud : isDig u = true := nsnOf_isDig n u (by rw [hue]; simp)
  have hu50 : 50 ≤ u := by
    have hacc := matches_acc hkind.1
    rw [hue] at hacc
    have hs := canStart_acc hacc
    obtain ⟨⟨g, hg, -⟩, -⟩ := hkind
    simp only [nanpaOk, hg, Bool.and_eq_true, Bool.not_eq_true'] at hok'
    obtain ⟨⟨⟨⟨⟨⟨-, a1⟩, a2⟩, -⟩, -⟩, -⟩, -⟩ := hok'
    rw [hg] at hs
    rcases isDig_cases hud with rfl | rfl | rfl | rfl | rfl | rfl | rfl | rfl | rfl | rfl <;> first | omega | (rw [hs] at a1; cases a1) | (rw [hs] at a2; cases a2)
  have hraw : ¬ (n.nn = 0 ∧ n.raw ≠ []) := by
    rintro ⟨h0, -⟩
    have h3 := (C04_shape n).1
    rw [show n.nationalNumber.getD 0 = 0 from h0, hue] at h3
    have h48 : ∀ v ∈ u :: e, v = 48 := by
      rw [h3]
      intro v hv
      rcases List.mem_append.1 hv with hv | hv
      · exact (List.mem_replicate.1 hv).2
      · rw [← dec_eq_decimal] at hv
        exact List.mem_singleton.1 hv
    have := h48 u (by simp)
    omega
  -- the text
  obtain ⟨M, hM, -⟩ := main_meta built_shipped Data.wf_tables hcc
  have hends := List.all_eq_true.1 wf_intlEnds M (Container.metaFor_mem hM)
  have hplain : plainRules M = true := by
    have h := plainRules_shipped
    rcases regionsOf_meta built_shipped Data.wf_tables (mainRegion_mem Data.wf_tables hcc) with ⟨g1, g2, -⟩ | ⟨g1, -, m0, g2, g3, -⟩
    · rw [h1] at g2
      rw [g2] at hmem
      exact absurd (List.mem_singleton.1 hmem) h001
    · simp only [Container.metaFor, g1, if_false, g2, Option.some.injEq] at hM
      rw [h1, hM] at g3
      simpa only [g3] using h
  obtain ⟨k1, k2, k3, k4⟩ := plainRules_text hplain (nsnOf_isDig n) (by rw [hue]; simp)
  generalize hF : formatNsn (nsnOf n) (some M) .national [] = F at k1 k2 k3 k4
  obtain ⟨x, hx, hx9, hxe⟩ := extLabel_of hends
  have hy := extPart_of hext hx hx9
  have hfmt : format Data.container n .national = F ++ (if n.ext = [] then [] else x.1 ++ n.ext) := by
    simp only [format, if_neg hraw, formatCore, reduceCtorEq, if_false, hcc, Bool.not_true, Bool.false_eq_true, hM, prefixWithCC,
      appendExtension, hxe, hF]
    split <;> simp
  rw [hfmt]
  generalize (if n.ext = [] then [] else x.1 ++ n.ext) = y at hy
  have ht : Spaced ((str!"1 ") ++ F) := by
    refine ⟨?_, ⟨49, 32 :: F, rfl, rfl⟩, ?_⟩
    · intro v hv
      rcases List.mem_append.1 hv with hv | hv
      · exact (show ∀ v ∈ (str!"1 "), isDig v = true ∨ v ∈ gapL by decide) v hv
      · exact k1 v hv
    · obtain ⟨a, v, hav, hv⟩ := k2
      exact ⟨(str!"1 ") ++ a, v, by rw [hav]; simp, hv⟩
  have hfil : ((str!"1 ") ++ F).filter isDig = 49 :: u :: e := by
    rw [List.filter_append, k4, hue]; rfl
  obtain ⟨hy40, hy128⟩ := ascii_ext hy
  have h250 : blen (((str!"1 ") ++ F) ++ y) ≤ 250 := by
    rw [blen_ascii]
    · simp only [List.length_append, List.length_cons, List.length_nil]; omega
    · intro v hv
      rcases List.mem_append.1 hv with hv | hv
      · exact ascii_text (fun v hv => (ht.all v hv).imp id (List.mem_cons_of_mem _)) v hv
      · exact hy128 v hv
  have hcore := parseCore_nanpa hval hm (hnok r m hmem hm') (List.all_eq_true.1 Data.wf_lengthTables m (Container.metaForRegion_mem hm))
    (junk := []) (by simp) ht hy h250 hfil hu50 (by rw [hue] at h10; simpa using h10)
  obtain ⟨-, hfin⟩ := roundtrip_finish Data.container prefixFree_shipped (hasCC_zero Data.wf_regions) Data.wf_nonGeo
    Data.wf_lengthTables n hcc h2 h17 ha r
  rw [h1, hue] at hfin
  simp only [hfin, bind, Except.bind, pure, Except.pure] at hcore
  rw [← hue, ← h1] at hcore
  have := parse_of_core hcore h2 h17
  simpa [List.append_assoc] using this

/-- Hong Kong is an exception: of `00 1 650-253-0000`, written there for a number of the USA, the beginning `001` is read as the
international prefix, and the rest as a number of Singapore. -/
theorem C76_hongkong :
    isValidNumber Data.container { countryCode := some 1, nationalNumber := some 6502530000 } = .ok true ∧
    formatOutOfCountry Data.container { countryCode := some 1, nationalNumber := some 6502530000 } (str!"HK") = str!"00 1 650-253-0000" ∧
    (parse Data.container (str!"00 1 650-253-0000") (str!"HK")).map (fun x => (x.1, x.2.cc, nsnOf x.2)) =
      .ok (none, 65, str!"02530000") := by
  refine ⟨?_, ?_, ?_⟩ <;> kernel_rfl

/-- Numbers of seven digits are an exception in the North American plan: `1 310-1234`, written in Barbados for a Canadian number, is read
as a number of Barbados. -/
theorem C76_seven_digits :
    isValidNumber Data.container { countryCode := some 1, nationalNumber := some 3101234 } = .ok true ∧
    formatOutOfCountry Data.container { countryCode := some 1, nationalNumber := some 3101234 } (str!"BB") = str!"1 310-1234" ∧
    (parse Data.container (str!"1 310-1234") (str!"BB")).map (fun x => (x.1, x.2.cc, nsnOf x.2)) = .ok (none, 1, str!"2463101234") := by
  refine ⟨?_, ?_, ?_⟩ <;> kernel_rfl

-- a Swiss number with an extension, written in Belarus
example : (str!"BY") ∈ Data.container.supportedRegions ∧ Data.container.ccForRegion (str!"BY") ≠ 41 ∧
    isValidNumber Data.container { countryCode := some 41, nationalNumber := some 446681800, extension := some (str!"7") } = .ok true ∧
    ¬ Ambiguous { countryCode := some 41, nationalNumber := some 446681800, extension := some (str!"7") } ∧
    ShortExt { countryCode := some 41, nationalNumber := some 446681800, extension := some (str!"7") } 9 := by
  have h : Data.container.ccForRegion (str!"BY") = 375 := by kernel_rfl
  refine ⟨by decide +kernel, by rw [h]; decide, ?_, by decide +kernel, by unfold ShortExt; decide⟩; kernel_rfl
example : formatOutOfCountry Data.container { countryCode := some 41, nationalNumber := some 446681800, extension := some (str!"7") } (str!"BY") =
    str!"8~10 41 44 668 18 00 ext. 7" := by kernel_rfl
example : parse Data.container (str!"8~10 41 44 668 18 00 ext. 7") (str!"BY") =
    .ok (none, { countryCode := some 41, nationalNumber := some 446681800, extension := some (str!"7") }) := by kernel_rfl
-- within the North American plan
example : formatOutOfCountry Data.container { countryCode := some 1, nationalNumber := some 6502530000 } (str!"BB") = str!"1 (650) 253-0000" := by
  kernel_rfl

end Verif.Props
