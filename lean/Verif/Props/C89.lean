import Verif.Lemmas.ExtText
import Verif.Props.C88
/-!
# C89: a text with an extension is read as the number and the extension
-/
namespace Verif.Props
open Verif.Spec

/-- For any text that says a number and an extension (any label the parser knows, in capitals or not, with blanks and marks around it)
and any text that says the same number without an extension: parsing them for the same region, on any metadata, gives the same error, or
the same number, with the extension in the first case. -/
theorem C89_extension (C : Container) (region : Str) {s s' ds d : Str} {plus : Bool} (h : NumberExtText s plus ds d)
    (h' : NumberText s' plus ds) :
    (∀ n, parse C s' region = .ok (none, n) → parse C s region = .ok (none, { n with extension := some d })) ∧
    (∀ m, parse C s region = .ok (none, m) → ∃ n, parse C s' region = .ok (none, n) ∧ m = { n with extension := some d }) ∧
      (∀ e, (∃ n, parse C s region = .ok (some e, n)) ↔ ∃ n, parse C s' region = .ok (some e, n)) := by
  have h1 := parseHelper_core C s region false true {}
  have h2 := parseHelper_core C s' region false true {}
  rw [parseCore_ext C h h' region true] at h1
  obtain ⟨_, _, _, _, _, _, ht, _, _⟩ := numberExtText_parts h
  have hd := ht.ne
  have e1 : parse C s region = parseHelper C s region false true {} := rfl
  have e2 : parse C s' region = parseHelper C s' region false true {} := rfl
  rw [e1, e2]
  generalize parseCore C s' region true = c at h1 h2
  cases c with
  | error p =>
    simp only [Refines, withExt] at h1 h2
    rw [h1, h2]
    refine ⟨?_, ?_, fun e => Iff.rfl⟩ <;> intro n hn <;> cases hn
  | ok c =>
    cases c with
    | error e =>
      simp only [Refines, withExt] at h1 h2
      obtain ⟨n1, h1⟩ := h1
      obtain ⟨n2, h2⟩ := h2
      rw [h1, h2]
      refine ⟨?_, ?_, fun e' => ⟨?_, ?_⟩⟩
      · intro n hn; cases hn
      · intro n hn; cases hn
      · rintro ⟨n, h⟩; cases h; exact ⟨_, rfl⟩
      · rintro ⟨n, h⟩; cases h; exact ⟨_, rfl⟩
    | ok o =>
      simp only [Refines, withExt] at h1 h2
      rw [h1, h2]
      have key : ({ o with ext := d } : ParseOut).apply s false {} = { o.apply s' false {} with extension := some d } := by
        simp [ParseOut.apply, hd]
      refine ⟨?_, ?_, fun e' => ⟨?_, ?_⟩⟩
      · intro n hn; cases hn; rw [key]
      · intro n hn; cases hn; exact ⟨_, rfl, key⟩
      · rintro ⟨n, h⟩; cases h
      · rintro ⟨n, h⟩; cases h

/-- So any two ways to write a number and an extension are read alike. -/
theorem C89_same (C : Container) (region : Str) {s s' ds d : Str} {plus : Bool} (h : NumberExtText s plus ds d)
    (h' : NumberExtText s' plus ds d) :
    (∀ n, parse C s region = .ok (none, n) ↔ parse C s' region = .ok (none, n)) ∧
      (∀ e, (∃ n, parse C s region = .ok (some e, n)) ↔ ∃ n, parse C s' region = .ok (some e, n)) := by
  obtain ⟨number, ext, back, -, hn, -⟩ := h.parts
  exact parse_of_core_eq (by rw [parseCore_ext C h hn, parseCore_ext C h' hn])

/-- The same for the parser that keeps the text. -/
theorem C89_raw (C : Container) (region : Str) {s s' ds d : Str} {plus : Bool} (h : NumberExtText s plus ds d) (h' : NumberText s' plus ds) :
    ∀ n, parseKeepRaw C s' region = .ok (none, n) →
      parseKeepRaw C s region = .ok (none, { n with extension := some d, rawInput := some s }) := by
  intro n hn
  have h1 := parseHelper_core C s region true true {}
  have h2 := parseHelper_core C s' region true true {}
  rw [parseCore_ext C h h' region true] at h1
  obtain ⟨_, _, _, _, _, _, ht, _, _⟩ := numberExtText_parts h
  have hd := ht.ne
  have e1 : parseKeepRaw C s region = parseHelper C s region true true {} := rfl
  have e2 : parseKeepRaw C s' region = parseHelper C s' region true true {} := rfl
  rw [e1]
  rw [e2] at hn
  generalize parseCore C s' region true = c at h1 h2
  cases c with
  | error p =>
    simp only [Refines, withExt] at h1 h2
    rw [h2] at hn; cases hn
  | ok c =>
    cases c with
    | error e =>
      simp only [Refines, withExt] at h1 h2
      obtain ⟨n2, h2⟩ := h2
      rw [h2] at hn; cases hn
    | ok o =>
      simp only [Refines, withExt] at h1 h2
      rw [h1]
      rw [h2] at hn
      cases hn
      simp [ParseOut.apply, hd]

/-! ## Cases -/

/-- "Tel: (044) 668-18 00, EXTENSION: 12#" says the number 0446681800 and the extension 12. -/
theorem swissExt : NumberExtText (str!"Tel: (044) 668-18 00, EXTENSION: 12#.") false (str!"0446681800") (str!"12") := by
  refine ⟨⟨str!"Tel: (044) 668-18 00", str!", EXTENSION: 12#", str!".", by decide, ?_, ⟨str!"Tel: (044) 668-18 0", 48, by decide, by decide +kernel⟩,
    ⟨str!", EXTENSION: ", 20, [[], (str!"#")], str!"#", ?_, by decide, by decide, by decide, by decide +kernel, by decide⟩, by decide +kernel⟩,
    by decide⟩
  · obtain ⟨h1, h2, h3⟩ := swissText
    refine ⟨⟨str!"Tel: (", [], str!"044) 668-18 00", [], by decide, by decide +kernel, fun u hu => (by cases hu), by simp, by decide +kernel,
      fun _ => ⟨48, str!"44) 668-18 00", by decide, by decide +kernel⟩, ⟨str!"044) 668-18 0", 48, by decide, by decide +kernel⟩, ?_,
      fun u hu => (by cases hu)⟩, by decide, by decide⟩
    have := C01_transcript (str!"044) 668-18 00")
    rwa [show normalizeDigitsOnly (str!"044) 668-18 00") = str!"0446681800" by decide +kernel] at this
  · have := ExtLabel.explicit (g := str!", ") (w := str!"EXTENSION") (a := str!": ") ?_ (by decide +kernel) ⟨str!":", str!" ", rfl, ?_, ?_⟩
    · exact this
    · intro u hu
      have : u = 44 ∨ u = 32 := by simpa using hu
      rcases this with rfl | rfl
      · exact .inr rfl
      · exact .inl (.inl rfl)
    · exact .inr (.inl rfl)
    · intro u hu
      have : u = 32 := by simpa using hu
      subst this
      exact .inl (.inl rfl)

example : parse Data.container (str!"Tel: (044) 668-18 00, EXTENSION: 12#.") (str!"CH") =
    parse Data.container (str!"0446681800;ext=12") (str!"CH") := by
  kernel_rfl

/-- The digits of the extension are kept as they are written, unlike those of the number: with Arabic-Indic digits in the number a text
matches the text with ASCII digits exactly, with Arabic-Indic digits in the extension it does not match at all. -/
theorem C89_verbatim :
    (parse Data.container (str!"+41446681800 ext. \u0661\u0662") []).toOption.map (fun r => (r.1, r.2.extension)) =
      some (none, some (str!"\u0661\u0662")) ∧
    (numberMatchStrings Data.container (str!"+\u0664\u0661446681800 ext. 12") (str!"+41446681800 ext. 12")).toOption = some .exactMatch ∧
    (numberMatchStrings Data.container (str!"+41446681800 ext. \u0661\u0662") (str!"+41446681800 ext. 12")).toOption = some .noMatch := by
  refine ⟨?_, ?_, ?_⟩ <;> kernel_rfl

end Verif.Props
