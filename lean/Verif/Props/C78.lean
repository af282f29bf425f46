import Verif.Props.C69
/-!
# C78: what IsNumberMatch says about two texts
-/
namespace Verif
open Spec

/-- Extraction from a text without a plus sign, with no region, finds no country code. -/
theorem extractCore_bare (C : Container) {t : Str} (h0 : t ≠ []) (hp : ∀ u ∈ t, rune u ∉ plusL) :
    extractCore C t none = .ok (.ok (0, [], .defaultCountry)) := by
  have hi : parsePrefixAsIdd nonMatchIdd (normalize t) = none := by
    unfold parsePrefixAsIdd
    rw [nonMatch_find _ (normalize_digits t)]
  have hs : stripIntlPrefix t nonMatchIdd = (normalize t, .defaultCountry) := by
    unfold stripIntlPrefix
    rw [if_neg h0, plus_find_none t hp]
    simp only [hi]
  simp only [extractCore, extractOnce, hs, bind, Except.bind, pure, Except.pure, ne_eq, not_true, if_false]

/-- Reading a text that lacks a country code without any region gives code 0 and the digits of the text. -/
theorem parseCore_bare {C : Container} (hz : C.validRegion unknownRegion = false) {s : Str} {o : ParseOut}
    (he : parseCore C s unknownRegion true = .ok (.error .invalidCountryCode)) (h : parseCore C s [] false = .ok (.ok o)) :
    o.cc = 0 ∧ (∀ u ∈ o.nsn, isDig u = true) ∧ 2 ≤ o.nsn.length ∧ o.nsn.length ≤ 17 := by
  have hm0 : C.metaForRegion [] = none := by simp [Container.metaForRegion, Container.validRegion]
  have hmz : C.metaForRegion unknownRegion = none := by simp [Container.metaForRegion, hz]
  unfold parseCore at he h
  split at h
  · cases h
  · rename_i h1
    rw [if_neg h1] at he
    split at h
    · cases h
    · rename_i h2
      rw [if_neg h2] at he
      simp only [bind, Except.bind, pure, Except.pure] at h he
      cases hb : buildNationalNumber s with
      | error p => rw [hb] at h; cases h
      | ok b =>
        rw [hb] at h he
        cases b with
        | error e => cases h
        | ok nat =>
          simp only [Bool.false_and, Bool.false_eq_true, if_false, Bool.true_and] at h he
          split at h
          · cases h
          · rename_i hv
            rw [if_neg hv] at he
            have hv : isViable nat = true := by simpa using hv
            by_cases hp : plusCharsPattern.isMatch nat = true
            · -- with a plus sign both readings do the same
              exfalso
              obtain ⟨a, b, hab, ha0, ha, hbb⟩ := viable_plus_start hv hp
              have hck : checkRegion C nat unknownRegion = true := by
                have : nat ≠ [] := by rintro rfl; rw [isViable_nil] at hv; cases hv
                simp [checkRegion, hp, this]
              rw [hck] at he
              simp only [Bool.not_true, Bool.false_eq_true, if_false] at he
              unfold parseViable at h he
              rw [hm0] at h
              rw [hmz] at he
              simp only [bind, Except.bind, pure, Except.pure] at h he
              cases hx : extractCore C (stripExtension nat).2 none with
              | error p => rw [hx] at h; cases h
              | ok r =>
                rw [hx] at h he
                cases r with
                | error e => cases h
                | ok r =>
                  obtain ⟨code, rest, src⟩ := r
                  simp only at h he
                  have hcode : code ≠ 0 := by
                    rintro rfl
                    have hx0 := extractCore_zero hx
                    rw [hab, extractOnce_plus C a b _ ha0 ha hbb] at hx0
                    split at hx0
                    · cases hx0
                    · split at hx0
                      · rename_i hn
                        simp only [Except.ok.injEq, Prod.mk.injEq] at hx0
                        exact hn hx0.1
                      · cases hx0
                  rw [if_pos hcode] at he
                  cases hf : finishCore rest (finishMeta C code unknownRegion) with
                  | error p => rw [hf] at he; cases he
                  | ok f =>
                    rw [hf] at he
                    cases f with
                    | error e =>
                      simp only [Except.ok.injEq, Except.error.injEq] at he
                      subst he
                      unfold finishCore at hf
                      split at hf
                      · cases hf
                      · simp only [bind, Except.bind, pure, Except.pure] at hf
                        split at hf
                        · cases hf
                        · (repeat' split at hf) <;> cases hf
                    | ok f => obtain ⟨x, y⟩ := f; cases he
            · have hpl : ∀ u ∈ (stripExtension nat).2, rune u ∉ plusL := by
                intro u hu hm
                obtain ⟨e, he'⟩ := stripExtension_prefix nat
                exact hp ((plus_isMatch_iff nat).2 ⟨u, by rw [he']; simp [hu], hm⟩)
              unfold parseViable at h
              rw [hm0] at h
              simp only [extractCore_bare C (stripExtension_ne_nil hv) hpl, bind, Except.bind, pure, Except.pure, ne_eq, not_true, if_false] at h
              split at h
              · cases h
              · rename_i f hf
                cases f with
                | error e => cases h
                | ok f =>
                  obtain ⟨nsn, carrier⟩ := f
                  cases h
                  exact ⟨rfl, finishCore_spec hf (fun md hm => by cases hm) (by simpa using normalize_digits _)⟩

/-- Numbers read from texts have the same identity exactly if code, national significant number and extension agree. -/
theorem identity_iff {o o' : ParseOut} {s s' : Str} (h : (∀ u ∈ o.nsn, isDig u = true) ∧ 2 ≤ o.nsn.length ∧ o.nsn.length ≤ 17)
    (h' : (∀ u ∈ o'.nsn, isDig u = true) ∧ 2 ≤ o'.nsn.length ∧ o'.nsn.length ≤ 17) :
    Props.SameIdentity (o.apply s false {}) (o'.apply s' false {}) ↔ o.cc = o'.cc ∧
      nsnOf (o.apply s false {}) = nsnOf (o'.apply s' false {}) ∧ (o.apply s false {}).ext = (o'.apply s' false {}).ext := by
  have e : nsnOf (o.apply s false {}) = o.nsn := nsnOf_apply o s false {} h.1 h.2.1 h.2.2 rfl
  have e' : nsnOf (o'.apply s' false {}) = o'.nsn := nsnOf_apply o' s' false {} h'.1 h'.2.1 h'.2.2 rfl
  constructor
  · rintro ⟨h1, h2, h3, h4, h5⟩
    refine ⟨h1, ?_, h3⟩
    unfold nsnOf PhoneNumber.ilz PhoneNumber.nlz PhoneNumber.nn
    rw [h2, h4]
    by_cases hi : (o.apply s false {}).italianLeadingZero = some true
    · rw [h5 hi]
    · have : (o'.apply s' false {}).italianLeadingZero.getD false = false := by
        rw [← h4]
        cases hx : (o.apply s false {}).italianLeadingZero with
        | none => rfl
        | some v => cases v; rfl; exact absurd hx hi
      simp [this]
  · rintro ⟨h1, h2, h3⟩
    rw [e, e'] at h2
    refine ⟨h1, ?_, h3, ?_, fun _ => ?_⟩ <;> simp only [ParseOut.apply, h2]

namespace Props

/-- The text is a number by itself, with a country code. -/
def Complete (s : Str) (a : PhoneNumber) : Prop := parse Data.container s (str!"ZZ") = .ok (none, a)

/-- The text lacks a country code, or begins with an unknown one. -/
def Lacking (s : Str) : Prop := ∃ a, parse Data.container s (str!"ZZ") = .ok (some .invalidCountryCode, a)

/-- How IsNumberMatch reads two texts: a text without a country code is read in the main region of the other one's country code; if
both are without one, they are read without any region.  The flag tells whether both had a country code. -/
inductive ReadBoth (s t : Str) : PhoneNumber → PhoneNumber → Bool → Prop
  | complete {a b : PhoneNumber} : Complete s a → Complete t b → ReadBoth s t a b true
  | first {a b : PhoneNumber} : Complete s a → Lacking t →
      parse Data.container t (Data.container.mainRegion a.cc) = .ok (none, b) → ReadBoth s t a b false
  | second {a b : PhoneNumber} : Lacking s → Complete t b →
      parse Data.container s (Data.container.mainRegion b.cc) = .ok (none, a) → ReadBoth s t a b false
  | neither {a b : PhoneNumber} : Lacking s → Lacking t → parseHelper Data.container s [] false false {} = .ok (none, a) →
      parseHelper Data.container t [] false false {} = .ok (none, b) → ReadBoth s t a b false

/-- The same number: country code, national significant number and extension. -/
def SameRead (a b : PhoneNumber) : Prop :=
  a.countryCode.getD 0 = b.countryCode.getD 0 ∧ nsnOf a = nsnOf b ∧ a.extension.getD [] = b.extension.getD []

instance (a b : PhoneNumber) : Decidable (SameRead a b) := by unfold SameRead; infer_instance

/-- Partly the same: not the same, no two different extensions, the same country code, and the digits of one national number (without
leading zeros) end with those of the other. -/
def PartlySame (a b : PhoneNumber) : Prop :=
  ¬ SameRead a b ∧ ¬ (a.extension.getD [] ≠ [] ∧ b.extension.getD [] ≠ [] ∧ a.extension.getD [] ≠ b.extension.getD []) ∧
    a.countryCode.getD 0 = b.countryCode.getD 0 ∧
    (decimal (a.nationalNumber.getD 0) <:+ decimal (b.nationalNumber.getD 0) ∨
      decimal (b.nationalNumber.getD 0) <:+ decimal (a.nationalNumber.getD 0))

/-- What is known of a number read from a text. -/
def FromText (a : PhoneNumber) : Prop :=
  ∃ (o : ParseOut) (s : Str), a = o.apply s false {} ∧ (∀ u ∈ o.nsn, isDig u = true) ∧ 2 ≤ o.nsn.length ∧ o.nsn.length ≤ 17

theorem FromText.same {a b : PhoneNumber} (ha : FromText a) (hb : FromText b) : SameIdentity a b ↔ SameRead a b := by
  obtain ⟨o, s, rfl, h⟩ := ha
  obtain ⟨o', s', rfl, h'⟩ := hb
  exact identity_iff h h'

theorem fromText_parse {s r : Str} {a : PhoneNumber} (h : parse Data.container s r = .ok (none, a)) : FromText a ∧ a.cc ≠ 0 := by
  obtain ⟨o, h1, rfl⟩ := parse_core_of_ok h
  obtain ⟨k1, k2⟩ := parseCore_spec Data.wf_regions Data.wf_transform h1
  refine ⟨⟨o, s, rfl, k2⟩, ?_⟩
  show o.cc ≠ 0
  intro h0
  rw [h0, hasCC_zero Data.wf_regions] at k1
  cases k1

theorem unknown_invalid : Data.container.validRegion unknownRegion = false := by kernel_rfl

theorem fromText_bare {s : Str} {a : PhoneNumber} (hl : Lacking s) (h : parseHelper Data.container s [] false false {} = .ok (none, a)) :
    FromText a ∧ a.cc = 0 := by
  obtain ⟨o, h1, rfl⟩ := parse_core_of_ok h
  obtain ⟨n, hl⟩ := hl
  have h2 := parseHelper_core Data.container s unknownRegion false true {}
  have hc : parseCore Data.container s unknownRegion true = .ok (.error .invalidCountryCode) := by
    have hl : parseHelper Data.container s unknownRegion false true {} = .ok (some .invalidCountryCode, n) := hl
    rw [hl] at h2
    cases hc : parseCore Data.container s unknownRegion true with
    | error p => rw [hc] at h2; cases h2
    | ok r =>
      rw [hc] at h2
      cases r with
      | error e => obtain ⟨n', h2⟩ := h2; cases h2; rfl
      | ok o => cases h2
  obtain ⟨k1, k2⟩ := parseCore_bare unknown_invalid hc h1
  exact ⟨⟨o, s, rfl, k2⟩, k1⟩

/-- The two numbers are comparable. -/
theorem ReadBoth.parts {s t : Str} {a b : PhoneNumber} {f : Bool} (h : ReadBoth s t a b f) :
    (SameIdentity a b ↔ SameRead a b) ∧ ((a.cc ≠ 0 ∧ b.cc ≠ 0) ∨ (f = false ∧ a.cc = 0 ∧ b.cc = 0)) := by
  cases h with
  | complete h1 h2 =>
    obtain ⟨k1, k2⟩ := fromText_parse h1
    obtain ⟨l1, l2⟩ := fromText_parse h2
    exact ⟨k1.same l1, .inl ⟨k2, l2⟩⟩
  | first h1 h2 h3 =>
    obtain ⟨k1, k2⟩ := fromText_parse h1
    obtain ⟨l1, l2⟩ := fromText_parse h3
    exact ⟨k1.same l1, .inl ⟨k2, l2⟩⟩
  | second h1 h2 h3 =>
    obtain ⟨k1, k2⟩ := fromText_parse h3
    obtain ⟨l1, l2⟩ := fromText_parse h2
    exact ⟨k1.same l1, .inl ⟨k2, l2⟩⟩
  | neither h1 h2 h3 h4 =>
    obtain ⟨k1, k2⟩ := fromText_bare h1 h3
    obtain ⟨l1, l2⟩ := fromText_bare h2 h4
    exact ⟨k1.same l1, .inr ⟨rfl, k2, l2⟩⟩

/-- The decision for two numbers read together. -/
theorem match_read {s t : Str} {a b : PhoneNumber} {f : Bool} (h : ReadBoth s t a b f) (m : MatchType)
    (hm : m = (if f = false ∧ numberMatch a b = .exactMatch then .nsnMatch else numberMatch a b)) :
    m ≠ .notANumber ∧ (m = .exactMatch ↔ f = true ∧ SameRead a b) ∧ (m = .nsnMatch ↔ f = false ∧ SameRead a b) ∧
      (m = .shortNsnMatch ↔ PartlySame a b) := by
  obtain ⟨hs, hc⟩ := h.parts
  have hne : SameRead a b → ¬ (a.ext ≠ [] ∧ b.ext ≠ [] ∧ a.ext ≠ b.ext) := fun h he => he.2.2 h.2.2
  have hnum : numberMatch a b = if a.ext ≠ [] ∧ b.ext ≠ [] ∧ a.ext ≠ b.ext then .noMatch
      else if SameRead a b then (if f = false ∧ a.cc = 0 then .nsnMatch else .exactMatch)
      else if a.cc = b.cc ∧ (dec b.nn <:+ dec a.nn ∨ dec a.nn <:+ dec b.nn) then .shortNsnMatch else .noMatch := by
    rw [numberMatch_eq]
    split
    · rfl
    · rcases hc with hc | ⟨hf, hc1, hc2⟩
      · rw [if_pos hc]
        simp only [hs, hc.1, and_false, if_false]
      · rw [if_neg (by simp [hc1])]
        have hsc : SameIdentity { a with countryCode := none } { b with countryCode := none } ↔ SameRead a b := by
          rw [← hs]
          exact ⟨fun h => ⟨by rw [show a.countryCode.getD 0 = 0 from hc1, show b.countryCode.getD 0 = 0 from hc2], h.2⟩,
            fun h => ⟨rfl, h.2⟩⟩
        simp only [hsc, hc1, hc2, hf, true_and, if_true]
  have hsuf : (dec b.nn <:+ dec a.nn ∨ dec a.nn <:+ dec b.nn) ↔ (decimal (a.nationalNumber.getD 0) <:+ decimal (b.nationalNumber.getD 0) ∨
      decimal (b.nationalNumber.getD 0) <:+ decimal (a.nationalNumber.getD 0)) := by
    rw [dec_eq_decimal, dec_eq_decimal]; exact Or.comm
  have hp : PartlySame a b ↔ ¬ SameRead a b ∧ ¬ (a.ext ≠ [] ∧ b.ext ≠ [] ∧ a.ext ≠ b.ext) ∧
      (a.cc = b.cc ∧ (dec b.nn <:+ dec a.nn ∨ dec a.nn <:+ dec b.nn)) := by rw [hsuf]; exact Iff.rfl
  have hfc : f = true → a.cc ≠ 0 := by
    intro h; rcases hc with hc | hc
    · exact hc.1
    · rw [h] at hc; cases hc.1
  rw [hp, hm, hnum]
  by_cases h1 : SameRead a b
  · have h2 := hne h1
    cases f with
    | true => simp [h1, h2]
    | false => by_cases h0 : a.cc = 0 <;> simp [h1, h2, h0]
  · by_cases h2 : a.ext ≠ [] ∧ b.ext ≠ [] ∧ a.ext ≠ b.ext
    · rw [if_pos h2]; simp [h1, h2]
    · rw [if_neg h2, if_neg h1]
      by_cases h3 : a.cc = b.cc ∧ (dec b.nn <:+ dec a.nn ∨ dec a.nn <:+ dec b.nn)
      · simp only [if_pos h3]; simp only [h1, h2, h3]; simp
      · simp only [if_neg h3, h3]; simp [h1]

/-- A supported country code has a region. -/
theorem mainRegion_ne_unknown {cc : Int} (h : Data.container.hasCC cc = true) : Data.container.mainRegion cc ≠ unknownRegion := by
  intro h0
  have hm := mainRegion_mem Data.wf_tables h
  rw [h0] at hm
  rcases regionsOf_meta built_shipped Data.wf_tables hm with ⟨h1, -⟩ | ⟨-, h1, -⟩
  · exact absurd h1 (by decide)
  · rw [unknown_invalid] at h1; cases h1

/-- IsNumberMatch of two texts.  It never panics; it answers NOT_A_NUMBER exactly if the two texts cannot both be read; otherwise
EXACT_MATCH exactly if both have a country code and are the same number, NSN_MATCH exactly if one has no country code and, read like the
other, they are the same number, SHORT_NSN_MATCH exactly if they are partly the same. -/
theorem C78_texts (s t : Str) : ∃ m, numberMatchStrings Data.container s t = .ok m ∧
    (m = .notANumber ↔ ¬ ∃ a b f, ReadBoth s t a b f) ∧
    ∀ a b f, ReadBoth s t a b f → (m = .exactMatch ↔ f = true ∧ SameRead a b) ∧ (m = .nsnMatch ↔ f = false ∧ SameRead a b) ∧
      (m = .shortNsnMatch ↔ PartlySame a b) := by
  have key : ∃ m, numberMatchStrings Data.container s t = .ok m ∧
      ((m = .notANumber ∧ ¬ ∃ a b f, ReadBoth s t a b f) ∨
        ((∃ a b f, ReadBoth s t a b f) ∧ ∀ a b f, ReadBoth s t a b f →
          m = (if f = false ∧ numberMatch a b = .exactMatch then .nsnMatch else numberMatch a b))) := by
    have ok : ∀ s region check, ∃ r, parseHelper Data.container s region false check {} = .ok r := fun s region check =>
      parseHelper_ok Data.wf_generalLengths s region false check {}
    obtain ⟨⟨es, ns⟩, hs⟩ := ok s unknownRegion true
    obtain ⟨⟨et, nt⟩, ht⟩ := ok t unknownRegion true
    obtain ⟨⟨es', ns'⟩, hs'⟩ := ok s [] false
    obtain ⟨⟨et', nt'⟩, ht'⟩ := ok t [] false
    obtain ⟨⟨es2, ns2⟩, hs2⟩ := ok s (Data.container.mainRegion nt.cc) true
    obtain ⟨⟨et2, nt2⟩, ht2⟩ := ok t (Data.container.mainRegion ns.cc) true
    have hs : parse Data.container s unknownRegion = .ok (es, ns) := hs
    have ht : parse Data.container t unknownRegion = .ok (et, nt) := ht
    have hs2 : parse Data.container s (Data.container.mainRegion nt.cc) = .ok (es2, ns2) := hs2
    have ht2 : parse Data.container t (Data.container.mainRegion ns.cc) = .ok (et2, nt2) := ht2
    have cs : ∀ {a}, Complete s a → es = none ∧ a = ns := by
      intro a h
      have h : parse Data.container s unknownRegion = .ok (none, a) := h
      rw [hs] at h; cases h; exact ⟨rfl, rfl⟩
    have ct : ∀ {a}, Complete t a → et = none ∧ a = nt := by
      intro a h
      have h : parse Data.container t unknownRegion = .ok (none, a) := h
      rw [ht] at h; cases h; exact ⟨rfl, rfl⟩
    have ls : Lacking s → es = some .invalidCountryCode := by
      rintro ⟨a, h⟩
      have h : parse Data.container s unknownRegion = .ok (some .invalidCountryCode, a) := h
      rw [hs] at h; cases h; rfl
    have lt : Lacking t → et = some .invalidCountryCode := by
      rintro ⟨a, h⟩
      have h : parse Data.container t unknownRegion = .ok (some .invalidCountryCode, a) := h
      rw [ht] at h; cases h; rfl
    -- the readings are unique
    have uniq : ∀ {a b f}, ReadBoth s t a b f →
        (es = none ∧ et = none ∧ a = ns ∧ b = nt ∧ f = true) ∨
        (es = none ∧ et = some .invalidCountryCode ∧ et2 = none ∧ a = ns ∧ b = nt2 ∧ f = false) ∨
        (es = some .invalidCountryCode ∧ et = none ∧ es2 = none ∧ a = ns2 ∧ b = nt ∧ f = false) ∨
        (es = some .invalidCountryCode ∧ et = some .invalidCountryCode ∧ es' = none ∧ et' = none ∧ a = ns' ∧ b = nt' ∧ f = false) := by
      intro a b f h
      cases h with
      | complete h1 h2 => exact .inl ⟨(cs h1).1, (ct h2).1, (cs h1).2, (ct h2).2, rfl⟩
      | first h1 h2 h3 =>
        obtain ⟨e1, rfl⟩ := cs h1
        rw [ht2] at h3; cases h3
        exact .inr (.inl ⟨e1, lt h2, rfl, rfl, rfl, rfl⟩)
      | second h1 h2 h3 =>
        obtain ⟨e1, rfl⟩ := ct h2
        rw [hs2] at h3; cases h3
        exact .inr (.inr (.inl ⟨ls h1, e1, rfl, rfl, rfl, rfl⟩))
      | neither h1 h2 h3 h4 =>
        rw [hs'] at h3; cases h3
        rw [ht'] at h4; cases h4
        exact .inr (.inr (.inr ⟨ls h1, lt h2, rfl, rfl, rfl, rfl, rfl⟩))
    have hmain : ∀ {s n}, parse Data.container s unknownRegion = .ok (none, n) → Data.container.mainRegion n.cc ≠ unknownRegion := by
      intro s n h
      obtain ⟨o, h1, rfl⟩ := parse_core_of_ok h
      exact mainRegion_ne_unknown (parseCore_spec Data.wf_regions Data.wf_transform h1).1
    unfold numberMatchStrings
    simp only [hs, ht, bind, Except.bind, hs', ht', pure, Except.pure]
    cases es with
    | none =>
      simp only [numberMatchOne, ht, bind, Except.bind, pure, Except.pure]
      cases et with
      | none =>
        refine ⟨_, rfl, .inr ⟨⟨_, _, _, .complete hs ht⟩, fun a b f h => ?_⟩⟩
        rcases uniq h with h | h | h | h
        · obtain ⟨-, -, rfl, rfl, rfl⟩ := h; simp
        · cases h.2.1
        · cases h.1
        · cases h.1
      | some e =>
        by_cases he : e = .invalidCountryCode
        · subst he
          simp only [if_pos (hmain hs), ht2, ne_eq]
          cases et2 with
          | none =>
            simp only
            refine ⟨_, rfl, .inr ⟨⟨_, _, _, .first hs ⟨_, ht⟩ ht2⟩, fun a b f h => ?_⟩⟩
            rcases uniq h with h | h | h | h
            · cases h.2.1
            · obtain ⟨-, -, -, rfl, rfl, rfl⟩ := h; simp
            · cases h.1
            · cases h.1
          | some e =>
            refine ⟨_, rfl, .inl ⟨rfl, ?_⟩⟩
            rintro ⟨a, b, f, h⟩
            rcases uniq h with h | h | h | h
            · cases h.2.1
            · cases h.2.2.1
            · cases h.1
            · cases h.1
        · refine ⟨.notANumber, ?_, .inl ⟨rfl, ?_⟩⟩
          · cases e <;> first | rfl | exact absurd rfl he
          · rintro ⟨a, b, f, h⟩
            rcases uniq h with h | h | h | h
            · cases h.2.1
            · exact he (Option.some.inj h.2.1)
            · cases h.1
            · cases h.1
    | some e =>
      by_cases he : e = .invalidCountryCode
      · subst he
        cases et with
        | none =>
          simp only [numberMatchOne, hs, bind, Except.bind, pure, Except.pure, if_pos (hmain ht), hs2, ne_eq]
          cases es2 with
          | none =>
            simp only
            refine ⟨_, rfl, .inr ⟨⟨_, _, _, .second ⟨_, hs⟩ ht hs2⟩, fun a b f h => ?_⟩⟩
            rcases uniq h with h | h | h | h
            · cases h.1
            · cases h.1
            · obtain ⟨-, -, -, rfl, rfl, rfl⟩ := h; simp [C32_numbers b a]
            · cases h.2.1
          | some e =>
            refine ⟨_, rfl, .inl ⟨rfl, ?_⟩⟩
            rintro ⟨a, b, f, h⟩
            rcases uniq h with h | h | h | h
            · cases h.1
            · cases h.1
            · cases h.2.2.1
            · cases h.2.1
        | some e2 =>
          by_cases he2 : e2 = .invalidCountryCode
          · subst he2
            simp only
            cases es' with
            | some e =>
              refine ⟨_, rfl, .inl ⟨rfl, ?_⟩⟩
              rintro ⟨a, b, f, h⟩
              rcases uniq h with h | h | h | h
              · cases h.1
              · cases h.1
              · cases h.2.1
              · cases h.2.2.1
            | none =>
              cases et' with
              | some e =>
                refine ⟨_, rfl, .inl ⟨rfl, ?_⟩⟩
                rintro ⟨a, b, f, h⟩
                rcases uniq h with h | h | h | h
                · cases h.1
                · cases h.1
                · cases h.2.1
                · cases h.2.2.2.1
              | none =>
                refine ⟨_, rfl, .inr ⟨⟨_, _, _, .neither ⟨_, hs⟩ ⟨_, ht⟩ hs' ht'⟩, fun a b f h => ?_⟩⟩
                have hp := h.parts
                rcases uniq h with h | h | h | h
                · cases h.1
                · cases h.1
                · cases h.2.1
                · obtain ⟨-, -, -, -, rfl, rfl, rfl⟩ := h
                  have h0 := (fromText_bare ⟨_, hs⟩ hs').2
                  have : numberMatch a b ≠ .exactMatch := by
                    intro h; exact ((C33_iff _ _).1 h).2 h0
                  simp [this]
          · refine ⟨.notANumber, ?_, .inl ⟨rfl, ?_⟩⟩
            · cases e2 <;> first | rfl | exact absurd rfl he2
            · rintro ⟨a, b, f, h⟩
              rcases uniq h with h | h | h | h
              · cases h.1
              · cases h.1
              · cases h.2.1
              · exact he2 (Option.some.inj h.2.1)
      · refine ⟨.notANumber, ?_, .inl ⟨rfl, ?_⟩⟩
        · cases e <;> first | rfl | exact absurd rfl he
        · rintro ⟨a, b, f, h⟩
          rcases uniq h with h | h | h | h
          · cases h.1
          · cases h.1
          · exact he (Option.some.inj h.1)
          · exact he (Option.some.inj h.1)
  obtain ⟨m, h1, h2⟩ := key
  refine ⟨m, h1, ?_, ?_⟩
  · rcases h2 with ⟨rfl, h2⟩ | ⟨⟨a, b, f, h2⟩, h3⟩
    · exact ⟨fun _ => h2, fun _ => rfl⟩
    · have := (match_read h2 m (h3 a b f h2)).1
      exact ⟨fun h => absurd h this, fun h => absurd ⟨a, b, f, h2⟩ h⟩
  · intro a b f hr
    rcases h2 with ⟨-, h2⟩ | ⟨-, h3⟩
    · exact absurd ⟨a, b, f, hr⟩ h2
    · exact (match_read hr m (h3 a b f hr)).2

/-- EXACT_MATCH in terms of the E164 form: both texts have a country code, the same E164 form and the same extension. -/
theorem C78_e164 (s t : Str) : numberMatchStrings Data.container s t = .ok .exactMatch ↔
    ∃ a b, Complete s a ∧ Complete t b ∧ format Data.container a .e164 = format Data.container b .e164 ∧
      a.extension.getD [] = b.extension.getD [] := by
  have hcc : ∀ {s a}, Complete s a → Data.container.hasCC a.cc = true ∧ ¬ (a.nn = 0 ∧ a.raw ≠ []) := by
    intro s a h
    obtain ⟨o, h1, rfl⟩ := parse_core_of_ok h
    exact ⟨(parseCore_spec Data.wf_regions Data.wf_transform h1).1, fun h => h.2 rfl⟩
  obtain ⟨m, h1, h2, h3⟩ := C78_texts s t
  rw [h1]
  constructor
  · intro h
    obtain rfl := Except.ok.inj h
    have : ∃ a b f, ReadBoth s t a b f := Classical.byContradiction fun hn => by cases h2.2 hn
    obtain ⟨a, b, f, hr⟩ := this
    obtain ⟨rfl, k1, k2, k3⟩ := (h3 a b f hr).1.1 rfl
    cases hr with
    | complete ha hb =>
      refine ⟨a, b, ha, hb, ?_, k3⟩
      have p := (prefixFree_spec prefixFree_shipped (hcc ha).1).1
      have p' := (prefixFree_spec prefixFree_shipped (hcc hb).1).1
      rw [C15_shape _ a (by omega) (hcc ha).2, C15_shape _ b (by omega) (hcc hb).2, k2,
        show a.cc = b.cc from k1]
  · rintro ⟨a, b, ha, hb, h4, h5⟩
    obtain ⟨k1, k2⟩ := C15_shipped a b (hcc ha).1 (hcc hb).1 (hcc ha).2 (hcc hb).2 h4
    rw [(h3 a b true (.complete ha hb)).1.2 ⟨rfl, k1, k2, h5⟩]

/-- A number and a text: EXACT_MATCH exactly if the text has a country code and is the same number. -/
theorem C78_one_exact (n : PhoneNumber) (t : Str) : numberMatchOne Data.container n t = .ok .exactMatch ↔
    ∃ b, Complete t b ∧ SameIdentity n b := by
  have ok : ∀ s region check, ∃ r, parseHelper Data.container s region false check {} = .ok r := fun s region check =>
    parseHelper_ok Data.wf_generalLengths s region false check {}
  obtain ⟨⟨et, nt⟩, ht⟩ := ok t unknownRegion true
  have ht : parse Data.container t unknownRegion = .ok (et, nt) := ht
  have hcomp : ∀ b, Complete t b ↔ et = none ∧ b = nt := by
    intro b
    show parse Data.container t unknownRegion = .ok (none, b) ↔ _
    rw [ht]
    constructor
    · intro h; cases h; exact ⟨rfl, rfl⟩
    · rintro ⟨rfl, rfl⟩; rfl
  simp only [hcomp]
  unfold numberMatchOne
  simp only [ht, bind, Except.bind, pure, Except.pure]
  cases et with
  | none =>
    simp only [Except.ok.injEq, C33_iff, true_and, exists_eq_left]
    constructor
    · exact fun h => h.1
    · intro h
      exact ⟨h, by rw [h.1]; exact (fromText_parse ht).2⟩
  | some e =>
    have hno : ¬ ∃ b, ((some e : Option ParseErr) = none ∧ b = nt) ∧ SameIdentity n b := by rintro ⟨b, ⟨h, -⟩, -⟩; cases h
    simp only [hno, iff_false]
    by_cases he : e = .invalidCountryCode
    · subst he
      simp only
      obtain ⟨⟨e2, n2⟩, h2⟩ := ok t (Data.container.mainRegion n.cc) true
      have h2 : parse Data.container t (Data.container.mainRegion n.cc) = .ok (e2, n2) := h2
      obtain ⟨⟨e3, n3⟩, h3⟩ := ok t [] false
      simp only [h2, h3]
      split
      · cases e2 with
        | some e => simp
        | none => simp only [Except.ok.injEq]; split <;> simp_all
      · cases e3 with
        | some e => simp
        | none =>
          simp only [Except.ok.injEq, C33_iff]
          rintro ⟨h4, h5⟩
          have := (fromText_bare ⟨_, ht⟩ h3).2
          exact h5 (by rw [h4.1]; exact this)
    · cases e <;> first | (intro h; cases h; done) | exact absurd rfl he

/-- A number with a supported country code and a text: NSN_MATCH exactly if the text lacks a country code and, read in the main region
of the number's country code, is the same number. -/
theorem C78_one_nsn (n : PhoneNumber) (t : Str) (hn : Data.container.hasCC n.cc = true) :
    numberMatchOne Data.container n t = .ok .nsnMatch ↔
      Lacking t ∧ ∃ b, parse Data.container t (Data.container.mainRegion n.cc) = .ok (none, b) ∧ SameIdentity n b := by
  have ok : ∀ s region check, ∃ r, parseHelper Data.container s region false check {} = .ok r := fun s region check =>
    parseHelper_ok Data.wf_generalLengths s region false check {}
  obtain ⟨⟨et, nt⟩, ht⟩ := ok t unknownRegion true
  have ht : parse Data.container t unknownRegion = .ok (et, nt) := ht
  have hl : Lacking t ↔ et = some .invalidCountryCode := by
    show (∃ a, parse Data.container t unknownRegion = .ok (some .invalidCountryCode, a)) ↔ _
    rw [ht]
    constructor
    · rintro ⟨a, h⟩; cases h; rfl
    · rintro rfl; exact ⟨_, rfl⟩
  have hn0 : n.cc ≠ 0 := by
    intro h0; rw [h0, hasCC_zero Data.wf_regions] at hn; cases hn
  rw [hl]
  unfold numberMatchOne
  simp only [ht, bind, Except.bind, pure, Except.pure]
  cases et with
  | none =>
    simp only [Except.ok.injEq, C33_nsn_iff]
    constructor
    · rintro ⟨h | h, -⟩
      · exact absurd h hn0
      · exact absurd h (fromText_parse ht).2
    · rintro ⟨h, -⟩; cases h
  | some e =>
    by_cases he : e = .invalidCountryCode
    · subst he
      obtain ⟨⟨e2, n2⟩, h2⟩ := ok t (Data.container.mainRegion n.cc) true
      have h2 : parse Data.container t (Data.container.mainRegion n.cc) = .ok (e2, n2) := h2
      simp only [if_pos (mainRegion_ne_unknown hn), ne_eq, h2, true_and]
      cases e2 with
      | some e =>
        constructor
        · intro h; cases h
        · rintro ⟨b, h, -⟩; cases h
      | none =>
        have h0 := (fromText_parse h2).2
        have hx : numberMatch n n2 ≠ .nsnMatch := by
          intro h
          rcases ((C33_nsn_iff _ _).1 h).1 with h | h
          · exact hn0 h
          · exact h0 h
        have hy : (Except.ok (if numberMatch n n2 = .exactMatch then MatchType.nsnMatch else numberMatch n n2) : Go MatchType) =
            .ok .nsnMatch ↔ numberMatch n n2 = .exactMatch := by
          split
          · rename_i h; simp [h]
          · rename_i h; simp [h, hx]
        refine hy.trans ?_
        rw [C33_iff]
        constructor
        · rintro ⟨h, -⟩; exact ⟨n2, rfl, h⟩
        · rintro ⟨b, h, h'⟩; cases h; exact ⟨h', hn0⟩
    · constructor
      · intro h
        cases e <;> first | (cases h; done) | exact absurd rfl he
      · rintro ⟨h, -⟩; exact absurd (Option.some.inj h) he

/-- A number of a code without a region (freephone +800) is not compared with its own national text: "NOT_A_NUMBER". -/
theorem C78_nonGeo : ∃ a, Complete (str!"+800 1234 5678") a ∧ Lacking (str!"1234 5678") ∧
    numberMatchStrings Data.container (str!"+800 1234 5678") (str!"1234 5678") = .ok .notANumber :=
  ⟨{ countryCode := some 800, nationalNumber := some 12345678 }, by unfold Complete; kernel_rfl, ⟨{}, by kernel_rfl⟩, by kernel_rfl⟩

-- readings of each kind
example : ReadBoth (str!"+41 44 668 18 00 ext. 5") (str!"044 668 18 00") { countryCode := some 41, nationalNumber := some 446681800, extension := some (str!"5") }
    { countryCode := some 41, nationalNumber := some 446681800 } false :=
  .first (by unfold Complete; kernel_rfl) ⟨{}, by kernel_rfl⟩ (by kernel_rfl)
example : ReadBoth (str!"+41446681800") (str!"tel:+41-44-668-18-00") { countryCode := some 41, nationalNumber := some 446681800 }
    { countryCode := some 41, nationalNumber := some 446681800 } true :=
  .complete (by unfold Complete; kernel_rfl) (by unfold Complete; kernel_rfl)
example : ∃ a b, ReadBoth (str!"044 668 18 00") (str!"668 18 00") a b false ∧
    numberMatchStrings Data.container (str!"044 668 18 00") (str!"668 18 00") = .ok .shortNsnMatch :=
  ⟨{ countryCode := some 0, nationalNumber := some 446681800, italianLeadingZero := some true }, { countryCode := some 0, nationalNumber := some 6681800 },
    .neither ⟨{}, by kernel_rfl⟩ ⟨{}, by kernel_rfl⟩ (by kernel_rfl) (by kernel_rfl), by kernel_rfl⟩

end Props
end Verif
