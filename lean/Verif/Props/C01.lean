import Verif.Lemmas.Normalize
/-!
# C01: NormalizeDigitsOnly keeps exactly the digits
-/
namespace Verif.Props
open Spec

/-- The output is the transcript of the decimal digits of the input: every Unicode decimal digit becomes its ASCII
digit, in order, and nothing else is in the output.  (Totality of the Lean function is the absence of panics.) -/
theorem C01_transcript (s : Str) : DigitTranscript s (normalizeDigitsOnly s) := by
  induction s with
  | nil => exact .nil
  | cons u s ih =>
    simp only [normalizeDigitsOnly, normalizeDigits, List.flatMap_cons] at ih ⊢
    cases h : charDigit (rune u) with
    | none => simpa using DigitTranscript.other ((charDigit_none_iff _).1 h) ih
    | some w =>
      obtain ⟨v, hv, rfl⟩ := (charDigit_iff _ _).1 h
      exact DigitTranscript.digit hv ih

/-- The transcript of a string is unique, so `C01_transcript` determines the function completely. -/
theorem C01_unique (s t : Str) (h : DigitTranscript s t) : t = normalizeDigitsOnly s := by
  induction h with
  | nil => rfl
  | @digit u v s t h _ ih =>
    subst ih
    simp [normalizeDigitsOnly, normalizeDigits, (charDigit_iff _ _).2 ⟨v, h, rfl⟩]
  | @other u s t h _ ih =>
    subst ih
    simp [normalizeDigitsOnly, normalizeDigits, (charDigit_none_iff _).2 h]

/-- Only ASCII digits are produced. -/
theorem C01_allDigits (s : Str) : AllDigits (normalizeDigitsOnly s) :=
  fun u hu => (isDig_iff u).1 (normalizeDigitsOnly_digits s u hu)

/-- Idempotence. -/
theorem C01_idempotent (s : Str) : normalizeDigitsOnly (normalizeDigitsOnly s) = normalizeDigitsOnly s :=
  normalizeDigitsOnly_of_digits (normalizeDigitsOnly_digits s)

/-- Distribution over concatenation. -/
theorem C01_append (a b : Str) : normalizeDigitsOnly (a ++ b) = normalizeDigitsOnly a ++ normalizeDigitsOnly b :=
  normalizeDigitsOnly_append a b

/-- A string mixing ASCII, Arabic-Indic and full-width digits, a letter and an invalid byte. -/
example : normalizeDigitsOnly [49, 0x662, 120, 0xFF13, 0x110080, 52] = str!"1234" := by decide +kernel
example : UnicodeDigit 0x662 2 := ⟨(0x660, 0x669), by decide +kernel, by decide, by decide, by decide⟩

end Verif.Props
