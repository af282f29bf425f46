import Verif.Lemmas.Leniency
import Verif.Props.C10
import Verif.Props.C62
import Verif.Data.Alt
/-!
# C85: what the leniency levels ask of a text
-/
namespace Verif.Props
open Spec

theorem valid_hasCC {n : PhoneNumber} (hv : isValidNumber Data.container n = .ok true) : Data.container.hasCC n.cc = true := by
  obtain ⟨r, m', hr, hm', hkind⟩ := valid_ofKind built_shipped Data.wf_tables Data.wf_allDescs n hv
  exact regionsOf_hasCC hr

/-- The letters x of the text `s` make sense for the number `n`. -/
def ExesFit (n : PhoneNumber) (s : Str) : Prop := ExesOk (fun b => numberMatchOne Data.container n b = .ok .nsnMatch) n.ext s

/-- VALID: the number is valid, every letter x is there for a reason, and a national prefix that is called for is there. -/
theorem C85_valid (alt : List Metadata) (n : PhoneNumber) (s : Str) : Leniency.valid.verify Data.container alt n s = .ok true ↔
    isValidNumber Data.container n = .ok true ∧ ExesFit n s ∧ PrefixOk Data.container n := by
  unfold ExesFit
  rw [← onlyValidX_iff, ← nationalPrefixPresent_iff wf_layout]
  constructor
  · intro h
    obtain ⟨v, hv, h⟩ := Builder.bind_ok.1 h
    cases v with
    | false => cases Except.ok.inj h
    | true =>
      obtain ⟨x, hx, h⟩ := Builder.bind_ok.1 h
      cases x with
      | false => cases Except.ok.inj h
      | true => exact ⟨hv, hx, Except.ok.inj h⟩
  · rintro ⟨h1, h2, h3⟩
    unfold Leniency.verify
    simp only [h1, h2, h3, bind, Except.bind, pure, Except.pure]
    rfl

/-- What STRICT_GROUPING and EXACT_GROUPING ask for besides the groups. -/
theorem verifyCommon_iff (n : PhoneNumber) (s : Str) : verifyCommon Data.container n s = .ok true ↔
    isValidNumber Data.container n = .ok true ∧ ExesFit n s ∧ SlashesOk n s ∧ PrefixOk Data.container n := by
  unfold ExesFit
  rw [← onlyValidX_iff, ← nationalPrefixPresent_iff wf_layout, ← moreThanOneSlash_iff]
  constructor
  · intro h
    obtain ⟨v, hv, h⟩ := Builder.bind_ok.1 h
    cases v with
    | false => cases Except.ok.inj h
    | true =>
      obtain ⟨x, hx, h⟩ := Builder.bind_ok.1 h
      cases x with
      | false => cases Except.ok.inj h
      | true =>
        simp only [Bool.not_true, Bool.false_eq_true, if_false] at h
        split at h
        · cases Except.ok.inj h
        · rename_i hm
          exact ⟨hv, hx, by simpa using hm, Except.ok.inj h⟩
  · rintro ⟨h1, h2, h3, h4⟩
    unfold verifyCommon
    simp only [h1, h2, h3, h4, bind, Except.bind, pure, Except.pure]
    rfl

theorem strict_iff {n : PhoneNumber} {s : Str} {checker : Go Bool} {P : Prop} (hP : isValidNumber Data.container n = .ok true → (checker = .ok true ↔ P)) :
    (verifyCommon Data.container n s >>= fun b => if (!b) = true then pure false else checker) = .ok true ↔
      isValidNumber Data.container n = .ok true ∧ ExesFit n s ∧ SlashesOk n s ∧ PrefixOk Data.container n ∧ P := by
  constructor
  · intro h
    obtain ⟨v, hv, h⟩ := Builder.bind_ok.1 h
    cases v with
    | false => cases Except.ok.inj h
    | true =>
      obtain ⟨h1, h2, h3, h4⟩ := (verifyCommon_iff n s).1 hv
      exact ⟨h1, h2, h3, h4, (hP h1).1 h⟩
  · rintro ⟨h1, h2, h3, h4, h5⟩
    rw [(verifyCommon_iff n s).2 ⟨h1, h2, h3, h4⟩]
    exact (hP h1).2 h5

/-- STRICT_GROUPING: what VALID asks for, at most one slash, and no group of the number is split.  The groups are those of the
RFC 3966 form of the number or of an alternate format for its country code.  (A text as long as the country code is needed so that
the check does not panic; `C61` shows that this is so for the text the number was read from.) -/
theorem C85_strict (alt : List Metadata) (n : PhoneNumber) (s : Str) (hnn : n.nn ≠ 0) (hs : (decInt n.cc).length ≤ s.length + 1) :
    Leniency.strictGrouping.verify Data.container alt n s = .ok true ↔
    isValidNumber Data.container n = .ok true ∧ ExesFit n s ∧ SlashesOk n s ∧ PrefixOk Data.container n ∧
      ∃ gs t, Grouping Data.container alt n gs ∧ AsciiDigits s t ∧ ∃ r, AfterCode n t r ∧ KeptTogether Data.container n gs r := by
  refine strict_iff fun hv => ?_
  refine checkGrouping_iff (valid_hasCC hv) hnn (fun gs _ => ?_) (fun gs t hg => groupsRemainGrouped_iff _ n t gs hg)
  exact groupsRemainGrouped_ok (by rw [normalizeDigits_length]; omega) gs

/-- EXACT_GROUPING: what VALID asks for, at most one slash, and the blocks of digits of the text are the groups of the number. -/
theorem C85_exact (alt : List Metadata) (n : PhoneNumber) (s : Str) (hnn : n.nn ≠ 0) :
    Leniency.exactGrouping.verify Data.container alt n s = .ok true ↔
    isValidNumber Data.container n = .ok true ∧ ExesFit n s ∧ SlashesOk n s ∧ PrefixOk Data.container n ∧
      ∃ gs t, Grouping Data.container alt n gs ∧ AsciiDigits s t ∧ ExactlyGrouped n gs t := by
  refine strict_iff fun hv => ?_
  refine checkGrouping_iff (valid_hasCC hv) hnn (fun gs hg => ?_) (fun gs t hg => groupsExactlyPresent_iff n t gs hg)
  cases gs with
  | nil => exact absurd rfl hg
  | cons g gs => exact groupsExactlyPresent_ok

/-- There is a grouping for every valid number, without alternate formats: its groups are not empty, and together they are the
national significant number. -/
theorem C85_grouping (alt : List Metadata) (n : PhoneNumber) (hnn : n.nn ≠ 0) (hv : isValidNumber Data.container n = .ok true) :
    ∃ gs, Grouping Data.container alt n gs ∧ gs.flatten = nsnOf n ∧ ∀ g ∈ gs, g ≠ [] := by
  obtain ⟨gs, ext, h1, h2, h3, h4, h5, h6⟩ := usual_exists (valid_hasCC hv) hnn
  exact ⟨gs, .usual h1 h2 h3 h4, h5, h6⟩

/-- The three levels for everything a search finds: the number was read from the piece of text found, and the piece of text is as the
level asks. -/
theorem C85_found (alt : List Metadata) (text region : Str) (l : Leniency) (maxTries : Int) (ms : List FoundNumber) (c : Cursor)
    (h : Finder.findNumbers ⟨Data.container, alt, text, region, l⟩ maxTries = .ok (ms, c)) (m : FoundNumber) (hm : m ∈ ms) :
    ∃ n, parseKeepRaw Data.container m.raw region = .ok (none, n) ∧ m.number = Spec.Plain n ∧
      (l ≠ .possible → isValidNumber Data.container n = .ok true ∧ ExesFit n m.raw ∧ PrefixOk Data.container n) ∧
      (l = .strictGrouping ∨ l = .exactGrouping → SlashesOk n m.raw) ∧
      (l = .strictGrouping → n.nn ≠ 0 → ∃ gs t r, Grouping Data.container alt n gs ∧ AsciiDigits m.raw t ∧ AfterCode n t r ∧
        KeptTogether Data.container n gs r) ∧
      (l = .exactGrouping → n.nn ≠ 0 → ∃ gs t, Grouping Data.container alt n gs ∧ AsciiDigits m.raw t ∧ ExactlyGrouped n gs t) := by
  obtain ⟨_, _, _, _, _, n, hp, hv, he⟩ := Finder.parseAndVerify_some ((Finder.iterate_spec h).1 m hm).verified
  have hl1 := parsed_length hp
  have hl2 := parsed_cc hp
  refine ⟨n, hp, he, ?_, ?_, ?_, ?_⟩
  · intro hl
    exact (C85_valid alt n m.raw).1 (C62_grouping_valid _ alt n m.raw l hl hv)
  · rintro (rfl | rfl)
    · obtain ⟨v, hv', hv⟩ := Builder.bind_ok.1 hv
      cases v with
      | false => cases Except.ok.inj hv
      | true => exact ((verifyCommon_iff _ _).1 hv').2.2.1
    · obtain ⟨v, hv', hv⟩ := Builder.bind_ok.1 hv
      cases v with
      | false => cases Except.ok.inj hv
      | true => exact ((verifyCommon_iff _ _).1 hv').2.2.1
  · rintro rfl hnn
    obtain ⟨_, _, _, _, gs, t, h1, h2, r, h3, h4⟩ := (C85_strict alt n m.raw hnn (by omega)).1 hv
    exact ⟨gs, t, r, h1, h2, h3, h4⟩
  · rintro rfl hnn
    obtain ⟨_, _, _, _, h⟩ := (C85_exact alt n m.raw hnn).1 hv
    exact h

/-! ## Cases -/

/-- A number of Zurich, as read from a text in Switzerland. -/
def zurich (s : Str) (src : CCSource) : PhoneNumber :=
  { countryCode := some 41, nationalNumber := some 446681800, rawInput := some s, countryCodeSource := some src }

/-- All the texts are read as the number of Zurich; the levels VALID, STRICT_GROUPING and EXACT_GROUPING accept or refuse them. -/
theorem C85_cases : ∀ c ∈ [((str!"044 668 18 00"), CCSource.defaultCountry, true, true, true), ((str!"44 668 18 00"), .defaultCountry, false, false, false),
    ((str!"+41 44 668 18 00"), .withPlusSign, true, true, true), ((str!"+41446681800"), .withPlusSign, true, true, true),
    ((str!"+41 44 668 1800"), .withPlusSign, true, true, false), ((str!"+41 446 681 800"), .withPlusSign, true, false, false),
    ((str!"044/668/18 00"), .defaultCountry, true, false, false), ((str!"+41/44/668 18 00"), .withPlusSign, true, true, true)],
    parseKeepRaw Data.container c.1 (str!"CH") = .ok (none, zurich c.1 c.2.1) ∧
    (Leniency.valid.verify Data.container Data.alt (zurich c.1 c.2.1) c.1) = .ok c.2.2.1 ∧
    (Leniency.strictGrouping.verify Data.container Data.alt (zurich c.1 c.2.1) c.1) = .ok c.2.2.2.1 ∧
    (Leniency.exactGrouping.verify Data.container Data.alt (zurich c.1 c.2.1) c.1) = .ok c.2.2.2.2 := by
  have key : ∀ (s : Str) (src : CCSource) (a b d : Bool), parseKeepRaw Data.container s (str!"CH") = .ok (none, zurich s src) →
      (Leniency.valid.verify Data.container Data.alt (zurich s src) s) = .ok a →
      (Leniency.strictGrouping.verify Data.container Data.alt (zurich s src) s) = .ok b →
      (Leniency.exactGrouping.verify Data.container Data.alt (zurich s src) s) = .ok d →
      parseKeepRaw Data.container (s, src, a, b, d).1 (str!"CH") = .ok (none, zurich (s, src, a, b, d).1 (s, src, a, b, d).2.1) ∧
      (Leniency.valid.verify Data.container Data.alt (zurich (s, src, a, b, d).1 (s, src, a, b, d).2.1) (s, src, a, b, d).1) = .ok (s, src, a, b, d).2.2.1 ∧
      (Leniency.strictGrouping.verify Data.container Data.alt (zurich (s, src, a, b, d).1 (s, src, a, b, d).2.1) (s, src, a, b, d).1) = .ok (s, src, a, b, d).2.2.2.1 ∧
      (Leniency.exactGrouping.verify Data.container Data.alt (zurich (s, src, a, b, d).1 (s, src, a, b, d).2.1) (s, src, a, b, d).1) = .ok (s, src, a, b, d).2.2.2.2 :=
    fun s src a b d h1 h2 h3 h4 => ⟨h1, h2, h3, h4⟩
  intro c hc
  rcases List.mem_cons.1 hc with rfl | hc
  · exact key _ _ _ _ _ (by kernel_rfl) (by kernel_rfl) (by kernel_rfl) (by kernel_rfl)
  rcases List.mem_cons.1 hc with rfl | hc
  · exact key _ _ _ _ _ (by kernel_rfl) (by kernel_rfl) (by kernel_rfl) (by kernel_rfl)
  rcases List.mem_cons.1 hc with rfl | hc
  · exact key _ _ _ _ _ (by kernel_rfl) (by kernel_rfl) (by kernel_rfl) (by kernel_rfl)
  rcases List.mem_cons.1 hc with rfl | hc
  · exact key _ _ _ _ _ (by kernel_rfl) (by kernel_rfl) (by kernel_rfl) (by kernel_rfl)
  rcases List.mem_cons.1 hc with rfl | hc
  · exact key _ _ _ _ _ (by kernel_rfl) (by kernel_rfl) (by kernel_rfl) (by kernel_rfl)
  rcases List.mem_cons.1 hc with rfl | hc
  · exact key _ _ _ _ _ (by kernel_rfl) (by kernel_rfl) (by kernel_rfl) (by kernel_rfl)
  rcases List.mem_cons.1 hc with rfl | hc
  · exact key _ _ _ _ _ (by kernel_rfl) (by kernel_rfl) (by kernel_rfl) (by kernel_rfl)
  rcases List.mem_cons.1 hc with rfl | hc
  · exact key _ _ _ _ _ (by kernel_rfl) (by kernel_rfl) (by kernel_rfl) (by kernel_rfl)
  · cases hc

/-- The theorems say what they mean in a case: the number is written without the national prefix that Swiss numbers are written with. -/
example : ¬ PrefixOk Data.container (zurich (str!"44 668 18 00") .defaultCountry) := by
  intro h
  have h2 := (C85_valid Data.alt (zurich (str!"44 668 18 00") .defaultCountry) (str!"44 668 18 00")).2
    ⟨by kernel_rfl, fun a u b hs hu => absurd (show u ∈ str!"44 668 18 00" by rw [hs]; simp) (by
      have : ∀ v ∈ str!"44 668 18 00", ¬ Ex v := by decide
      exact fun hm => this u hm hu), h⟩
  have h3 := (C85_cases _ (List.mem_cons_of_mem _ (List.mem_cons_self ..))).2.1
  rw [h3] at h2
  cases h2

example : (str!"044 668 18 00").length + 1 ≥ (decInt (zurich (str!"044 668 18 00") .defaultCountry).cc).length ∧
    (zurich (str!"044 668 18 00") .defaultCountry).nn ≠ 0 := by decide +kernel

end Verif.Props
