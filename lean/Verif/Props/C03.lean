import Verif.Lemmas.Normalize
/-!
# C03: ConvertAlphaCharactersInNumber changes letters only
-/
namespace Verif.Props
open Spec

/-- What one character becomes: the keypad digit of the letter it upper-cases to, otherwise itself (an invalid byte is read,
and therefore written, as U+FFFD). -/
def alphaSpec (u : Nat) : Nat := ((upperLetter (rune u)).bind keypadDigit).getD (rune u)

theorem alpha_small : ∀ c, c < 123 → (alphaMap (toUpperKey c)).getD c = ((upperLetter c).bind keypadDigit).getD c := by
  decide +kernel

theorem alphaMap_big {c : Nat} (h : 90 < c) : alphaMap c = none := by
  unfold alphaMap isDig; rw [if_neg (by simp; omega), if_neg (by omega)]

theorem alpha_char (c : Nat) : (alphaMap (toUpperKey c)).getD c = ((upperLetter c).bind keypadDigit).getD c := by
  by_cases h : c < 123
  · exact alpha_small c h
  · by_cases h1 : c = 0x131
    · subst h1; decide +kernel
    · by_cases h2 : c = 0x17F
      · subst h2; decide +kernel
      · have e1 : upperLetter c = none := by
          unfold upperLetter
          rw [if_neg (by simp; omega), if_neg (by simp; omega), if_neg (by simpa using h1), if_neg (by simpa using h2)]
        have e2 : toUpperKey c = c := by
          unfold toUpperKey; rw [if_neg (by omega), if_neg h1, if_neg h2]
        rw [e1, e2, alphaMap_big (by omega)]; rfl

/-- Character by character description. -/
theorem C03_map (s : Str) : convertAlpha s = s.map alphaSpec := by
  unfold convertAlpha normalizeHelper
  induction s with
  | nil => rfl
  | cons u s ih =>
    rw [List.flatMap_cons, ih, List.map_cons, alphaSpec, ← alpha_char]
    cases alphaMap (toUpperKey (rune u)) <;> simp

/-- The number of characters is unchanged. -/
theorem C03_length (s : Str) : (convertAlpha s).length = s.length := by simp [C03_map]

/-- In valid UTF-8 input every character that does not upper-case to an ASCII letter is kept. -/
theorem C03_kept (s : Str) (h : ValidUtf8 s) (i : Nat) (u : Nat) (hu : s[i]? = some u) (hl : upperLetter u = none) :
    (convertAlpha s)[i]? = some u := by
  have hr : rune u = u := by
    have := h u (List.mem_of_getElem? hu); simp [rune, badBase, this]
  rw [C03_map, List.getElem?_map, hu]; simp [alphaSpec, hr, hl]

/-- Every character that upper-cases to an ASCII letter is replaced by the digit of its key. -/
theorem C03_letter (s : Str) (i : Nat) (u : Nat) (c : Char) (d : Nat) (hu : s[i]? = some u)
    (hl : upperLetter (rune u) = some c) (hk : keypadDigit c = some d) :
    (convertAlpha s)[i]? = some d := by
  rw [C03_map, List.getElem?_map, hu]; simp [alphaSpec, hl, hk]

/-- Every such letter has a key, so letters never survive. -/
theorem C03_keypad_total (c : Nat) (l : Char) (hc : upperLetter c = some l) : ∃ d, keypadDigit l = some d := by
  have small : ∀ c, c < 123 → ∀ l ∈ upperLetter c, (keypadDigit l).isSome := by decide +kernel
  by_cases h : c < 123
  · exact Option.isSome_iff_exists.1 (small c h l hc)
  · unfold upperLetter at hc
    rw [if_neg (by simp; omega), if_neg (by simp; omega)] at hc
    split at hc
    · cases hc; exact ⟨_, rfl⟩
    · split at hc
      · cases hc; exact ⟨_, rfl⟩
      · cases hc

theorem alphaSpec_idem_small : ∀ c, c < 123 → alphaSpec (alphaSpec c) = alphaSpec c := by decide +kernel

theorem alphaSpec_idem (u : Nat) : alphaSpec (alphaSpec u) = alphaSpec u := by
  by_cases h : u < 123
  · exact alphaSpec_idem_small u h
  · by_cases h1 : u = 0x131
    · subst h1; decide +kernel
    · by_cases h2 : u = 0x17F
      · subst h2; decide +kernel
      · have hr : 122 < rune u ∧ rune u ≠ 0x131 ∧ rune u ≠ 0x17F ∧ rune (rune u) = rune u := by
          unfold rune badBase; split <;> simp <;> omega
        have e1 : upperLetter (rune u) = none := by
          unfold upperLetter
          rw [if_neg (by simp; omega), if_neg (by simp; omega), if_neg (by simpa using hr.2.1), if_neg (by simpa using hr.2.2.1)]
        simp [alphaSpec, e1, hr.2.2.2]

/-- Applying the conversion twice is applying it once. -/
theorem C03_idempotent (s : Str) : convertAlpha (convertAlpha s) = convertAlpha s := by
  rw [C03_map s, C03_map, List.map_map]
  congr 1; funext u; exact alphaSpec_idem u

example : convertAlpha (str!"1800-FLOWers ſé") = str!"1800-3569377 7é" := by decide +kernel
example : ValidUtf8 (str!"1800-FLOWers") := by unfold ValidUtf8; decide +kernel
example : upperLetter 0x17F = some 'S' ∧ keypadDigit 'S' = some '7'.toNat := by decide +kernel

end Verif.Props
