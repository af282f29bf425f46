import Verif.Props.C01
import Verif.Props.C19
import Verif.Props.C72
import Verif.Props.C76
import Verif.Props.C78
/-!
# C79: FormatInOriginalFormat shows a number the way it was typed
-/
namespace Verif.Props
open Spec

/-! ## What is shown -/

/-- There is a rule for grouping the digits of the number. -/
def UsesRule (n : PhoneNumber) : Prop :=
  ∃ m p, Data.container.metaFor n.cc (Data.container.mainRegion n.cc) = some m ∧ Chosen m.formats (nsnOf n) (some p)

/-- `cand` is shown if there is a rule for the number and `cand` has the characters one can dial that were typed; else what was typed. -/
def ShownAs (n : PhoneNumber) (typed cand out : Str) : Prop :=
  (UsesRule n ∧ diallableOf cand = diallableOf typed → out = cand) ∧ (¬ (UsesRule n ∧ diallableOf cand = diallableOf typed) → out = typed)

/-- The digits typed begin with the national prefix `np`, and the others are a valid number in the region. -/
def TypedWithPrefix (typed np region : Str) : Prop :=
  ∃ rest n, DigitTranscript typed (np ++ rest) ∧ parse Data.container rest region = .ok (none, n) ∧ isValidNumber Data.container n = .ok true

/-- The national prefix rule of a formatting rule puts a digit before the first group. -/
def AddsDigits (p : NumberFormat) : Prop :=
  ∃ a b, p.npRule = a ++ str!"$1" ++ b ∧ '$'.toNat ∉ a ∧ ∃ u ∈ a, ∃ v, UnicodeDigit (rune u) v

/-- What is compared with a number typed without country code: the NATIONAL form, or, for a number typed without the national prefix which
the NATIONAL form would have, the same without the national prefix rule. -/
inductive NationalCand (n : PhoneNumber) (typed : Str) : Str → Prop
  | full : (Data.container.nddPrefix (Data.container.mainRegion n.cc) true = [] ∨
        TypedWithPrefix typed (Data.container.nddPrefix (Data.container.mainRegion n.cc) true) (Data.container.mainRegion n.cc) ∨
        ∀ m p, Data.container.metaFor n.cc (Data.container.mainRegion n.cc) = some m → Chosen m.formats (nsnOf n) (some p) → ¬ AddsDigits p) →
      NationalCand n typed (format Data.container n .national)
  | bare {m p body} : Data.container.nddPrefix (Data.container.mainRegion n.cc) true ≠ [] →
      ¬ TypedWithPrefix typed (Data.container.nddPrefix (Data.container.mainRegion n.cc) true) (Data.container.mainRegion n.cc) →
      Data.container.metaFor n.cc (Data.container.mainRegion n.cc) = some m → Chosen m.formats (nsnOf n) (some p) → AddsDigits p →
      LaidOut [{ p with npRule := [] }] (nsnOf n) .national [] body →
      NationalCand n typed (body ++ extensionText m .national (n.extension.getD []))

theorem usesRule_iff (n : PhoneNumber) : hasFormattingPattern Data.container n = true ↔ UsesRule n := by
  unfold hasFormattingPattern UsesRule
  cases hm : Data.container.metaFor n.cc (Data.container.mainRegion n.cc) with
  | none => simp
  | some m =>
    have hl := List.all_eq_true.1 wf_layout m (Container.metaFor_mem hm)
    simp only [layoutOk, Bool.and_eq_true, List.all_eq_true] at hl
    have hc := chooseFormat_chosen hl.1 (nsnOf_isDig n)
    simp only [Option.isSome_iff_exists]
    constructor
    · rintro ⟨p, hp⟩
      rw [hp] at hc
      exact ⟨m, p, rfl, hc⟩
    · rintro ⟨_, p, h, hp⟩
      cases h
      exact ⟨p, chosen_unique hc hp⟩

theorem parsed_facts {s region : Str} {n : PhoneNumber} (h : parseKeepRaw Data.container s region = .ok (none, n)) :
    n.raw = s ∧ s ≠ [] ∧ n.src ≠ .unspecified ∧ Data.container.hasCC n.cc = true := by
  obtain ⟨o, h1, rfl⟩ := parse_core_of_ok h
  obtain ⟨hcc, -⟩ := parseCore_spec Data.wf_regions Data.wf_transform h1
  have h2 := parseCore_two h1
  obtain ⟨src, hsrc, hne⟩ := parseCore_source h1 (by
    intro h0; rw [h0, hasCC_zero Data.wf_regions] at hcc; cases hcc)
  exact ⟨rfl, by intro h0; rw [h0] at h2; simp at h2, by simpa [PhoneNumber.src, ParseOut.apply, hsrc] using hne, hcc⟩

/-- Given what the switch over the country code source yields. -/
theorem shownAs_of {s region r cand : Str} {n : PhoneNumber} (h : parseKeepRaw Data.container s region = .ok (none, n))
    (hc : originalBody Data.container n r = .ok cand) :
    ∃ out, formatInOriginal Data.container n r = .ok out ∧ ShownAs n s cand out := by
  obtain ⟨hraw, hs, hsrc, -⟩ := parsed_facts h
  obtain ⟨out, ho, ho0, -⟩ := C19_shipped s region r n h
  refine ⟨out, ho, ?_⟩
  unfold formatInOriginal at ho
  by_cases hu : UsesRule n
  · have hf := (usesRule_iff n).2 hu
    rw [if_neg (by simp [hf]), if_neg hsrc] at ho
    simp only [hc, bind, Except.bind, C02_filter, hraw] at ho
    by_cases h0 : cand = []
    · simp only [h0, ne_eq, not_true, false_and, if_false, pure, Except.pure, Except.ok.injEq] at ho
      exact absurd ho.symm ho0
    · rw [if_pos ⟨h0, hs⟩] at ho
      by_cases hd : diallableOf cand = diallableOf s
      · simp only [hd, ne_eq, not_true, if_false, pure, Except.pure, Except.ok.injEq] at ho
        exact ⟨fun _ => ho.symm, fun hn => absurd ⟨hu, hd⟩ hn⟩
      · simp only [hd, ne_eq, not_false_eq_true, if_true, pure, Except.pure, Except.ok.injEq] at ho
        exact ⟨fun hn => absurd hn.2 hd, fun _ => ho.symm⟩
  · have hf : hasFormattingPattern Data.container n = false := by
      rw [Bool.eq_false_iff]; exact fun h => hu ((usesRule_iff n).1 h)
    rw [if_pos (by rw [hraw]; simp [hf, hs])] at ho
    cases ho
    exact ⟨fun hn => absurd hn.1 hu, fun _ => hraw⟩

/-- A number typed with a plus sign is compared with its INTERNATIONAL form. -/
theorem C79_plus (s region r : Str) (n : PhoneNumber) (h : parseKeepRaw Data.container s region = .ok (none, n))
    (hsrc : n.src = .withPlusSign) :
    ∃ out, formatInOriginal Data.container n r = .ok out ∧ ShownAs n s (format Data.container n .international) out :=
  shownAs_of h (by rw [originalBody, hsrc])

/-- A number typed with an international prefix is compared with what is written for a call from `r`. -/
theorem C79_idd (s region r : Str) (n : PhoneNumber) (h : parseKeepRaw Data.container s region = .ok (none, n))
    (hsrc : n.src = .withIdd) :
    ∃ out, formatInOriginal Data.container n r = .ok out ∧ ShownAs n s (formatOutOfCountry Data.container n r) out :=
  shownAs_of h (by rw [originalBody, hsrc])

/-- A number other than 0 typed with its country code but without plus sign is compared with its INTERNATIONAL form without the plus
sign. -/
theorem C79_noPlus (s region r : Str) (n : PhoneNumber) (h : parseKeepRaw Data.container s region = .ok (none, n))
    (hsrc : n.src = .withoutPlusSign) (h0 : n.nn ≠ 0) :
    ∃ rest out, format Data.container n .international = '+'.toNat :: rest ∧ formatInOriginal Data.container n r = .ok out ∧
      ShownAs n s rest out := by
  obtain ⟨-, -, -, hcc⟩ := parsed_facts h
  rcases format_international_eq (n := n) hcc with h1 | ⟨t, h1⟩
  · exact absurd h1.1 h0
  · obtain ⟨out, k1, k2⟩ := shownAs_of (r := r) (cand := decInt n.cc ++ 32 :: t) h (by
      rw [originalBody, hsrc]
      simp only [h1, dropByte, Except.ok.injEq]
      rw [show (unitBytes 43).tail = [] by decide]
      rfl)
    exact ⟨_, out, h1, k1, k2⟩

theorem hasDigit_iff (a : Str) : normalizeDigitsOnly a ≠ [] ↔ ∃ u ∈ a, ∃ v, UnicodeDigit (rune u) v := by
  have h := C01_transcript a
  generalize normalizeDigitsOnly a = d at h
  induction h with
  | nil => simp
  | @digit u v s t h _ ih => simp; exact .inl ⟨v, h⟩
  | @other u s t h _ ih =>
    refine Iff.trans ih ?_
    constructor
    · rintro ⟨x, hx, k⟩; exact ⟨x, List.mem_cons_of_mem _ hx, k⟩
    · rintro ⟨x, hx, v, k⟩
      rcases List.mem_cons.1 hx with rfl | hx
      · exact absurd k (h v)
      · exact ⟨x, hx, v, k⟩

theorem typedWithPrefix_iff (typed np region : Str) :
    ∃ b, rawContainsNationalPrefix Data.container typed np region = .ok b ∧ (b = true ↔ TypedWithPrefix typed np region) := by
  unfold rawContainsNationalPrefix
  simp only
  by_cases hp : hasPrefix (normalizeDigitsOnly typed) np = true
  · rw [if_pos hp]
    obtain ⟨t, ht⟩ := List.isPrefixOf_iff_prefix.1 hp
    have hdrop : (normalizeDigitsOnly typed).drop np.length = t := by rw [← ht]; simp
    rw [hdrop]
    have huniq : ∀ rest, DigitTranscript typed (np ++ rest) → rest = t := by
      intro rest h
      have := C01_unique _ _ h
      rw [← ht] at this
      exact List.append_cancel_left this
    obtain ⟨e, m, hr⟩ := (C06_no_panic Data.container Data.wf_generalLengths t region).1
    simp only [hr, bind, Except.bind, pure, Except.pure]
    cases e with
    | some e =>
      refine ⟨false, rfl, by simp, ?_⟩
      rintro ⟨rest, n, h1, h2, -⟩
      rw [huniq rest h1, hr] at h2
      cases h2
    | none =>
      obtain ⟨v, x, hv, -⟩ := C26_valid_iff_type Data.container built_shipped Data.wf_tables Data.wf_allDescs m
      refine ⟨v, hv, ?_, ?_⟩
      · rintro rfl
        exact ⟨t, m, by rw [ht]; exact C01_transcript typed, hr, hv⟩
      · rintro ⟨rest, n, h1, h2, h3⟩
        rw [huniq rest h1, hr] at h2
        cases h2
        rw [hv] at h3
        exact Except.ok.inj h3
  · rw [if_neg hp]
    refine ⟨false, rfl, by simp, ?_⟩
    rintro ⟨rest, n, h1, -⟩
    have := C01_unique _ _ h1
    exact absurd (List.isPrefixOf_iff_prefix.2 ⟨rest, this⟩) hp

/-- The national prefix rules have at most one dollar sign. -/
theorem wf_oneDollar : (Data.container.allMeta.all fun m => m.formats.all fun p => Nat.ble (p.npRule.filter fun u => Nat.beq u 36).length 1) = true := by
  kernel_rfl

theorem wf_asciiRule : (Data.container.allMeta.all fun m => m.formats.all fun p => p.npRule.all fun u => Nat.blt u 128) = true := by
  kernel_rfl

theorem oneDollar {m : Metadata} (hm : m ∈ Data.container.allMeta) {p : NumberFormat} (hp : p ∈ m.formats) {a b : Str} {d : Nat}
    (h : p.npRule = a ++ 36 :: d :: b) : 36 ∉ a ∧ 36 ∉ b := by
  have h1 := List.all_eq_true.1 (List.all_eq_true.1 wf_oneDollar m hm) p hp
  rw [Nat.ble_eq, h] at h1
  simp only [List.filter_append, List.length_append] at h1
  rw [List.filter_cons_of_pos (by rfl)] at h1
  simp only [List.length_cons] at h1
  have key : ∀ l : Str, (l.filter fun u => Nat.beq u 36).length = 0 → 36 ∉ l := by
    intro l hl hmem
    rw [List.length_eq_zero_iff, List.filter_eq_nil_iff] at hl
    exact hl 36 hmem rfl
  refine ⟨key a (by omega), fun hb => ?_⟩
  exact key (d :: b) (by omega) (List.mem_cons_of_mem _ hb)

theorem indexOf_addsDigits {m : Metadata} (hm : m ∈ Data.container.allMeta) {p : NumberFormat} (hp : p ∈ m.formats) :
    AddsDigits p ↔ ∃ i, indexOf p.npRule (str!"$1") = some (i + 1) ∧ normalizeDigitsOnly (p.npRule.take (i + 1)) ≠ [] := by
  constructor
  · rintro ⟨a, b, h1, h2, h3⟩
    have hi : indexOf p.npRule (str!"$1") = some a.length := by
      rw [h1]
      refine indexOf_first_occ (c := 36) (q := [49]) (b := b) (by decide) ?_
      rintro ⟨x, y, hxy⟩
      exact h2 (by rw [hxy]; simp)
    cases a with
    | nil => simp at h3
    | cons u a =>
      refine ⟨a.length, hi, ?_⟩
      rw [hasDigit_iff, h1]
      simpa using h3
  · rintro ⟨i, h1, h2⟩
    obtain ⟨t, ht⟩ := indexOf_prefix h1
    have hs : p.npRule = p.npRule.take (i + 1) ++ 36 :: 49 :: t := by
      conv => lhs; rw [← List.take_append_drop (i + 1) p.npRule, ht]
      simp
    refine ⟨p.npRule.take (i + 1), t, by conv => lhs; rw [hs]
                                         simp, (oneDollar hm hp hs).1, (hasDigit_iff _).1 h2⟩

/-- A number typed without country code is compared with its NATIONAL form, or with that without the national prefix rule. -/
theorem C79_default (s region r : Str) (n : PhoneNumber) (h : parseKeepRaw Data.container s region = .ok (none, n))
    (hsrc : n.src = .defaultCountry) :
    ∃ cand out, NationalCand n s cand ∧ formatInOriginal Data.container n r = .ok out ∧ ShownAs n s cand out := by
  obtain ⟨hraw, -, -, hcc⟩ := parsed_facts h
  suffices hk : ∃ cand, NationalCand n s cand ∧ originalNational Data.container n = .ok cand by
    obtain ⟨cand, h1, h2⟩ := hk
    obtain ⟨out, h3, h4⟩ := shownAs_of (r := r) (cand := cand) h (by rw [originalBody, hsrc]; exact h2)
    exact ⟨cand, out, h1, h3, h4⟩
  obtain ⟨b, hb, hbt⟩ := typedWithPrefix_iff s (Data.container.nddPrefix (Data.container.mainRegion n.cc) true) (Data.container.mainRegion n.cc)
  unfold originalNational
  simp only [hraw, hb, bind, Except.bind, pure, Except.pure]
  by_cases hnp : Data.container.nddPrefix (Data.container.mainRegion n.cc) true = []
  · rw [if_pos hnp]
    exact ⟨_, .full (.inl hnp), rfl⟩
  rw [if_neg hnp]
  cases b with
  | true => exact ⟨_, .full (.inr (.inl (hbt.1 rfl))), rfl⟩
  | false =>
    have hnt : ¬ TypedWithPrefix s (Data.container.nddPrefix (Data.container.mainRegion n.cc) true) (Data.container.mainRegion n.cc) :=
      fun k => by have := hbt.2 k; cases this
    simp only [Bool.false_eq_true, if_false]
    cases hm : Data.container.metaForRegion (Data.container.mainRegion n.cc) with
    | none => simp [Container.nddPrefix, hm] at hnp
    | some m =>
      have hmf : Data.container.metaFor n.cc (Data.container.mainRegion n.cc) = some m := by
        rcases regionsOf_meta built_shipped Data.wf_tables (mainRegion_mem Data.wf_tables hcc) with ⟨g1, g2, -⟩ | ⟨g1, -, m0, g2, g3, -⟩
        · have : Data.container.metaForRegion nonGeoRegion = none := by kernel_rfl
          rw [g1, this] at hm; cases hm
        · simp only [Container.metaFor, g1, if_false, hm]
      have hmem := Container.metaForRegion_mem hm
      have hl := List.all_eq_true.1 wf_layout m hmem
      simp only [layoutOk, Bool.and_eq_true, List.all_eq_true] at hl
      have hc := chooseFormat_chosen hl.1 (nsnOf_isDig n)
      simp only
      cases hch : chooseFormat m.formats (nsnOf n) with
      | none =>
        rw [hch] at hc
        refine ⟨_, .full (.inr (.inr fun m' p h1 h2 => ?_)), rfl⟩
        rw [hmf] at h1; cases h1
        cases chosen_unique hc h2
      | some p =>
        rw [hch] at hc
        have hp : p ∈ m.formats := (chooseFormat_acc _ _ _ hch).1
        have hnot : ¬ AddsDigits p → NationalCand n s (format Data.container n .national) := by
          intro hna
          refine .full (.inr (.inr fun m' q h1 h2 => ?_))
          rw [hmf] at h1; cases h1
          cases chosen_unique hc h2
          exact hna
        by_cases ha : AddsDigits p
        · obtain ⟨i, hi, hd⟩ := (indexOf_addsDigits hmem hp).1 ha
          simp only [hi, hd, if_false]
          obtain ⟨m', hm', hby⟩ := C72_shipped n .national [{ p with npRule := [] }] hcc
          rw [hmf] at hm'; cases hm'
          have hur : userRule m.nationalPrefix { p with npRule := [] } = { p with npRule := [] } := by
            simp [userRule, userNpRule, substAll]
          obtain ⟨body, h1, h2⟩ := hby (by
            intro q hq
            rw [List.mem_singleton.1 hq, hur]
            have := hl.1 p hp
            simp only [layoutRuleOk] at this ⊢
            split <;> simp_all [templateOk])
          rw [List.map_singleton, hur] at h1
          refine ⟨_, .bare hnp hnt hmf hc ha h1, ?_⟩
          rw [h2]; rfl
        · refine ⟨_, hnot ha, ?_⟩
          simp only
          split
          · rename_i i hi
            by_cases hd : normalizeDigitsOnly (p.npRule.take (i + 1)) = []
            · rw [if_pos hd]
            · exact absurd ((indexOf_addsDigits hmem hp).2 ⟨i, hi, hd⟩) ha
          · rfl

/-! ## What was written by the library is shown unchanged -/

theorem keepRaw_of_core {s r : Str} {n : PhoneNumber} {src : CCSource} {c : Str}
    (h : parseCore Data.container s r true = .ok (.ok ⟨n.cc, n.ext, nsnOf n, some src, c⟩)) (h2 : 2 ≤ (nsnOf n).length)
    (h17 : (nsnOf n).length ≤ 17) :
    ∃ pn, parseKeepRaw Data.container s r = .ok (none, pn) ∧ ReadsAs pn n ∧ pn.raw = s ∧ pn.src = src := by
  have hp := parseHelper_core Data.container s r true true {}
  rw [h] at hp
  simp only [Refines] at hp
  refine ⟨_, hp, ⟨rfl, C05_store (nsnOf n) {} (C04_digits n) h2 h17 rfl, ?_⟩, rfl, rfl⟩
  show (if n.ext ≠ [] then some n.ext else none).getD [] = n.ext
  by_cases h : n.ext = []
  · rw [if_neg (by simp [h]), h]; rfl
  · rw [if_pos h]; rfl

theorem formatCore_congr {C : Container} {a b : PhoneNumber} (h : ReadsAs a b) (f : Fmt) : formatCore C a f = formatCore C b f := by
  obtain ⟨h1, h2, h3⟩ := h
  have h1 : a.cc = b.cc := h1
  have h3 : a.ext = b.ext := h3
  simp only [formatCore, appendExtension, h1, h2, h3]

theorem format_reads {a n : PhoneNumber} (h : ReadsAs a n) (hn : ¬ (n.nn = 0 ∧ n.raw ≠ [])) (f : Fmt) :
    format Data.container a f = format Data.container n f ∨ format Data.container a f = a.raw := by
  unfold format
  rw [if_neg hn, formatCore_congr h]
  by_cases ha : a.nn = 0 ∧ a.raw ≠ []
  · rw [if_pos ha]; exact .inr rfl
  · rw [if_neg ha]; exact .inl rfl

theorem shownAs_same {n : PhoneNumber} {s cand out : Str} (h : ShownAs n s cand out) (hc : diallableOf cand = diallableOf s → cand = s) : out = s := by
  by_cases hu : UsesRule n ∧ diallableOf cand = diallableOf s
  · rw [h.1 hu, hc hu.2]
  · exact h.2 hu

/-- The INTERNATIONAL form of a valid number, parsed with any default region, is shown unchanged, whatever the region it is shown for. -/
theorem C79_international (n : PhoneNumber) (hv : isValidNumber Data.container n = .ok true) (hraw : ¬ (n.nn = 0 ∧ n.raw ≠ []))
    (hex : ¬ Ambiguous n) (hext : ShortExt n 9) (region : Str) :
    ∃ pn, parseKeepRaw Data.container (format Data.container n .international) region = .ok (none, pn) ∧ ReadsAs pn n ∧
      ∀ r, formatInOriginal Data.container pn r = .ok (format Data.container n .international) := by
  obtain ⟨hcc, h2, h17, ha⟩ := valid_leftAlone n hv hex
  obtain ⟨c, hcore⟩ := international_core _ built_shipped Data.wf_tables prefixFree_shipped (hasCC_zero Data.wf_regions) Data.wf_nonGeo
    Data.wf_lengthTables Data.wf_intlFormats Data.wf_intlLiterals wf_intlEnds n hcc hraw h2 h17 ha hext region
  obtain ⟨pn, k1, k2, k3, k4⟩ := keepRaw_of_core hcore h2 h17
  refine ⟨pn, k1, k2, fun r => ?_⟩
  obtain ⟨out, h1, h2⟩ := C79_plus _ region r pn k1 k4
  rw [h1, shownAs_same h2]
  intro _
  rcases format_reads k2 hraw .international with h | h
  · exact h
  · rw [h, k3]

theorem fill_plain (G : List Str) {a : Str} (ha : 36 ∉ a) (t : Str) : fill G (a ++ t) = a ++ fill G t := by
  induction a with
  | nil => rfl
  | cons u a ih =>
    simp only [List.mem_cons, not_or] at ha
    rw [List.cons_append, fill_nil_tail G u _ (fun h => ha.1 h.symm), ih ha.2]; rfl

theorem diallableOf_append (a b : Str) : diallableOf (a ++ b) = diallableOf a ++ diallableOf b := by simp [diallableOf]

/-- With its national prefix rule a rule shows the characters of the national prefix rule in addition. -/
theorem fill_putRule (G : List Str) {a b : Str} (ha : 36 ∉ a) (hb : 36 ∉ b) (t : Str) :
    putRule (a ++ 36 :: 49 :: b) t = t ∨ (diallableOf (fill G (putRule (a ++ 36 :: 49 :: b) t))).length =
      (diallableOf (fill G t)).length + (diallableOf a).length + (diallableOf b).length := by
  induction t with
  | nil => exact .inl rfl
  | cons u t ih =>
    by_cases hu : u = 36
    · subst hu
      cases t with
      | nil => exact .inl rfl
      | cons d t =>
        right
        have h1 : putRule (a ++ 36 :: 49 :: b) (36 :: d :: t) = a ++ 36 :: d :: (b ++ t) := by
          have hf : fill [[36, d]] (36 :: 49 :: b) = 36 :: d :: b := by
            have := fill_plain [[36, d]] hb []
            simp only [List.append_nil] at this
            simp [fill, this]
          simp only [putRule, if_true, fill_plain _ ha, hf]
          simp
        rw [h1, fill_plain G ha]
        have h2 : fill G (36 :: d :: (b ++ t)) = G.getD (d - 49) [] ++ (b ++ fill G t) := by
          simp only [fill, if_true, fill_plain G hb]
        have h3 : fill G (36 :: d :: t) = G.getD (d - 49) [] ++ fill G t := by simp only [fill, if_true]
        rw [h2, h3]
        simp only [diallableOf_append, List.length_append]
        omega
    · rw [putRule_tail _ u t hu]
      rcases ih with ih | ih
      · left; rw [ih]
      · right
        rw [fill_nil_tail G u _ hu, fill_nil_tail G u t hu]
        have : ∀ x : Str, diallableOf (u :: x) = diallableOf [u] ++ diallableOf x := fun x => diallableOf_append [u] x
        rw [this, this (fill G t)]
        simp only [List.length_append, ih]
        omega

theorem digit_diallable {u v : Nat} (hu : u < 128) (h : UnicodeDigit (rune u) v) : IsDiallable u := by
  rw [Verif.rune_of_lt hu] at h
  have hc := (charDigit_iff u (48 + v)).2 ⟨v, h, rfl⟩
  have key : ∀ u < 128, (charDigit u).isSome = true → IsDiallable u := by unfold IsDiallable; decide +kernel
  exact key u hu (by rw [hc]; rfl)

/-- The NATIONAL form of a number valid for a region, parsed there, is shown unchanged (with the exceptions of C66). -/
theorem C79_national (n : PhoneNumber) (region : Str) (hv : isValidForRegion Data.container n region = .ok true) (hr : region ≠ str!"001")
    (hu : region ∉ natUnsettled) (hex : ¬ NatAmbiguous n) (hraw : ¬ (n.nn = 0 ∧ n.raw ≠ [])) (hext : ShortExt n 9) :
    ∃ pn, parseKeepRaw Data.container (format Data.container n .national) region = .ok (none, pn) ∧ ReadsAs pn n ∧
      ∀ r, formatInOriginal Data.container pn r = .ok (format Data.container n .national) := by
  obtain ⟨junk, t, y, c, -, -, -, -, -, -, h2, h17, hcore, -⟩ := national_core n region hv hr hu hex hraw hext
  obtain ⟨pn, k1, k2, k3, k4⟩ := keepRaw_of_core hcore h2 h17
  refine ⟨pn, k1, k2, fun r => ?_⟩
  obtain ⟨cand, out, hcand, h1, h2⟩ := C79_default _ region r pn k1 k4
  rw [h1, shownAs_same h2]
  obtain ⟨-, -, -, hcc⟩ := parsed_facts k1
  obtain ⟨g1, g2, g3⟩ := k2
  have g1 : pn.cc = n.cc := g1
  cases hcand with
  | full =>
    intro _
    rcases format_reads ⟨g1, g2, g3⟩ hraw .national with h | h
    · exact h
    · rw [h, k3]
  | @bare m p body hnp hnt hm hch hadd hlay =>
    intro hd
    obtain ⟨m', body', hm', hlay', hfmt⟩ := C71_shipped n .national (by simp) (by rw [← g1]; exact hcc) hraw
    rw [← g1, hm] at hm'; cases hm'
    rw [← g2] at hlay'
    have happ : Applies p (nsnOf pn) := by cases hch with | some _ h _ => exact h
    have hp : p ∈ m.formats := by cases hch with | some h _ _ => rw [h]; simp
    have hmem := Container.metaFor_mem hm
    rw [hfmt, g3] at hd ⊢
    suffices hb : body = body' by rw [hb]; simp [leadText]
    cases hlay with
    | plain h =>
      exact absurd (show Applies { p with npRule := [] } (nsnOf pn) from happ) (by
        cases h with | none h => exact h _ (by simp))
    | @rule q gs hq hgs =>
      have hq' : q = { p with npRule := [] } := by
        cases hq with | @some pre post p' h1 h2 h3 =>
          cases pre with
          | nil => cases h1; rfl
          | cons x pre => simp at h1
      subst hq'
      cases hlay' with
      | plain h => cases chosen_unique h hch
      | @rule q' gs' hq' hgs' =>
        cases chosen_unique hq' hch
        have : gs = gs' := by
          have : groupSizes p.pattern.re 1 = some gs := hgs
          rw [this] at hgs'; exact Option.some.inj hgs'
        subst this
        obtain ⟨a, b, hr1, hr2, u, hua, v, huv⟩ := hadd
        have hr1' : p.npRule = a ++ 36 :: 49 :: b := by rw [hr1]; simp
        obtain ⟨ha, hb⟩ := oneDollar hmem hp hr1'
        have hne : p.npRule ≠ [] := by rw [hr1']; simp
        have ht1 : template { p with npRule := [] } .national [] = p.format := by simp [template]
        have ht2 : template p .national [] = putRule p.npRule p.format := by simp [template, hne]
        have htidy : ∀ x, tidy .national x = x := fun x => by simp [tidy]
        rw [htidy, htidy, ht1, ht2] at hd ⊢
        rcases fill_putRule (cut gs (nsnOf pn)) ha hb p.format with h | h
        · rw [hr1', h]
        · exfalso
          rw [← hr1'] at h
          have hlen := congrArg List.length hd
          simp only [leadText, List.nil_append, diallableOf_append, List.length_append] at hlen
          have hu128 : u < 128 := by
            have := List.all_eq_true.1 (List.all_eq_true.1 (List.all_eq_true.1 wf_asciiRule m hmem) p hp) u (by rw [hr1']; simp [hua])
            simpa [Nat.blt_eq] using this
          have hpos : 0 < (diallableOf a).length :=
            List.length_pos_iff.2 (List.ne_nil_of_mem (List.mem_filter.2 ⟨hua, by simpa using digit_diallable hu128 huv⟩))
          omega

/-- What is written for a call from another country (other than Hong Kong), parsed there, is shown there unchanged. -/
theorem C79_abroad (n : PhoneNumber) (r : Str) (hr : r ∈ Data.container.supportedRegions) (hk : r ≠ str!"HK")
    (hcc' : Data.container.ccForRegion r ≠ n.cc) (hv : isValidNumber Data.container n = .ok true) (hex : ¬ Ambiguous n) (hext : ShortExt n 9) :
    ∃ pn, parseKeepRaw Data.container (formatOutOfCountry Data.container n r) r = .ok (none, pn) ∧ ReadsAs pn n ∧
      formatInOriginal Data.container pn r = .ok (formatOutOfCountry Data.container n r) := by
  obtain ⟨hcc, -, -, -⟩ := valid_leftAlone n hv hex
  obtain ⟨src, c, hcore, h2, h17, hsrc⟩ := abroad_core n r hr hk hcc' hv hex hext
  obtain ⟨pn, k1, k2, k3, k4⟩ := keepRaw_of_core hcore h2 h17
  refine ⟨pn, k1, k2, ?_⟩
  have hval := supported_valid hr
  rcases hsrc with rfl | ⟨rfl, he⟩
  · obtain ⟨out, h1, h2⟩ := C79_idd _ r r pn k1 k4
    rw [h1, shownAs_same h2]
    intro _
    obtain ⟨g1, g2, g3⟩ := k2
    have g1 : pn.cc = n.cc := g1
    have g3 : pn.ext = n.ext := g3
    obtain ⟨h001, m, hm, hm', hmem⟩ := validRegion_meta built_shipped Data.wf_tables hval
    have hmc : m.countryCode ≠ n.cc := by simpa [Container.ccForRegion, hval, Container.ccForValidRegion, hm] using hcc'
    have hnan : ¬ (n.cc = nanpaCountryCode ∧ Data.container.isNanpa r = true) := by
      rintro ⟨h1, h2⟩
      rcases regionsOf_meta built_shipped Data.wf_tables ((Built.nanpa built_shipped r).1 h2) with ⟨h3, -⟩ | ⟨-, -, m', h3, -, h4⟩
      · exact h001 h3
      · rw [hm] at h3; cases h3
        exact hmc (h4.trans h1.symm)
    have hsame : ¬ (n.cc ≠ nanpaCountryCode ∧ n.cc = Data.container.ccForValidRegion r) := by
      rintro ⟨-, h⟩
      exact hmc (by simpa [Container.ccForValidRegion, hm] using h.symm)
    simp only [formatOutOfCountry, hval, Bool.not_true, Bool.false_eq_true, if_false, g1, g2, g3, hcc, hnan, hsame, appendExtension]
  · obtain ⟨out, h1, h2⟩ := C79_plus _ r r pn k1 k4
    rw [h1, shownAs_same h2]
    intro _
    rcases format_reads (n := { n with rawInput := none }) k2 (by rintro ⟨-, h⟩; exact h rfl) .international with h | h
    · rw [h, he]
    · rw [h, k3]

/-! ## Concrete cases -/

/-- The number 0, nine digits long, of Tajikistan, as it was typed. -/
def tajikZero (typed : Str) (src : CCSource) : PhoneNumber :=
  { countryCode := some 992, nationalNumber := some 0, italianLeadingZero := some true, numberOfLeadingZeros := some 8,
    rawInput := some typed, countryCodeSource := some src }

/-- Numbers that are 0 are an exception in `C79_noPlus`: `Format` returns what was typed, and of that the first byte is cut off instead of
the plus sign.  The text shown may then lack an opening bracket or not be valid UTF-8. -/
theorem C79_zero :
    isValidNumber Data.container (tajikZero [] .withoutPlusSign) = .ok true ∧
    parseKeepRaw Data.container (str!"(992) 000000000") (str!"TJ") = .ok (none, tajikZero (str!"(992) 000000000") .withoutPlusSign) ∧
    formatInOriginal Data.container (tajikZero (str!"(992) 000000000") .withoutPlusSign) (str!"TJ") = .ok (str!"992) 000000000") ∧
    parseKeepRaw Data.container (0xFF19 :: str!"92000000000") (str!"TJ") =
      .ok (none, tajikZero (0xFF19 :: str!"92000000000") .withoutPlusSign) ∧
    formatInOriginal Data.container (tajikZero (0xFF19 :: str!"92000000000") .withoutPlusSign) (str!"TJ") =
      .ok ((badBase + 0xBC) :: (badBase + 0x99) :: str!"92000000000") := by
  refine ⟨?_, ?_, ?_, ?_, ?_⟩ <;> kernel_rfl

-- typed without the national prefix, the number is shown without it
example : parseKeepRaw Data.container (str!"2070313000") (str!"GB") = .ok (none,
    { countryCode := some 44, nationalNumber := some 2070313000, rawInput := some (str!"2070313000"), countryCodeSource := some .defaultCountry }) ∧
    formatInOriginal Data.container
      { countryCode := some 44, nationalNumber := some 2070313000, rawInput := some (str!"2070313000"), countryCodeSource := some .defaultCountry }
      (str!"GB") = .ok (str!"20 7031 3000") := by
  refine ⟨?_, ?_⟩ <;> kernel_rfl
-- typed with the country code only
example : parseKeepRaw Data.container (str!"442070313000") (str!"GB") = .ok (none,
    { countryCode := some 44, nationalNumber := some 2070313000, rawInput := some (str!"442070313000"), countryCodeSource := some .withoutPlusSign }) ∧
    formatInOriginal Data.container
      { countryCode := some 44, nationalNumber := some 2070313000, rawInput := some (str!"442070313000"), countryCodeSource := some .withoutPlusSign }
      (str!"GB") = .ok (str!"44 20 7031 3000") := by
  refine ⟨?_, ?_⟩ <;> kernel_rfl
-- typed with an international prefix or with a plus sign
example : parseKeepRaw Data.container (str!"00442070313000") (str!"CH") = .ok (none,
    { countryCode := some 44, nationalNumber := some 2070313000, rawInput := some (str!"00442070313000"), countryCodeSource := some .withIdd }) ∧
    formatInOriginal Data.container
      { countryCode := some 44, nationalNumber := some 2070313000, rawInput := some (str!"00442070313000"), countryCodeSource := some .withIdd }
      (str!"CH") = .ok (str!"00 44 20 7031 3000") := by
  refine ⟨?_, ?_⟩ <;> kernel_rfl
example : parseKeepRaw Data.container (str!"+442070313000") (str!"CH") = .ok (none,
    { countryCode := some 44, nationalNumber := some 2070313000, rawInput := some (str!"+442070313000"), countryCodeSource := some .withPlusSign }) ∧
    formatInOriginal Data.container
      { countryCode := some 44, nationalNumber := some 2070313000, rawInput := some (str!"+442070313000"), countryCodeSource := some .withPlusSign }
      (str!"CH") = .ok (str!"+44 20 7031 3000") := by
  refine ⟨?_, ?_⟩ <;> kernel_rfl
-- the hypotheses of the theorems on what was written by the library
example : isValidNumber Data.container { countryCode := some 44, nationalNumber := some 2070313000, extension := some (str!"7") } = .ok true ∧
    isValidForRegion Data.container { countryCode := some 44, nationalNumber := some 2070313000, extension := some (str!"7") } (str!"GB") = .ok true ∧
    (str!"GB") ∉ natUnsettled ∧ (str!"CH") ∈ Data.container.supportedRegions ∧ Data.container.ccForRegion (str!"CH") = 41 ∧
    ¬ Ambiguous { countryCode := some 44, nationalNumber := some 2070313000, extension := some (str!"7") } ∧
    ¬ NatAmbiguous { countryCode := some 44, nationalNumber := some 2070313000, extension := some (str!"7") } ∧
    ShortExt { countryCode := some 44, nationalNumber := some 2070313000, extension := some (str!"7") } 9 := by
  refine ⟨?_, ?_, by decide, by decide +kernel, ?_, by decide +kernel, by decide +kernel, by unfold ShortExt; decide⟩ <;> kernel_rfl

end Verif.Props
