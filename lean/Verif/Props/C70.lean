import Verif.Spec.Vanity
import Verif.Lemmas.Vanity
import Verif.Data.Wf
/-!
# C70: numbers written with letters
-/
namespace Verif
open Spec

/-- Two runs of the parser with the same decisions. -/
theorem parse_of_core_eq {C : Container} {s s' r : Str} (h : parseCore C s r true = parseCore C s' r true) :
    (∀ n, parse C s r = .ok (none, n) ↔ parse C s' r = .ok (none, n)) ∧
      (∀ e, (∃ n, parse C s r = .ok (some e, n)) ↔ ∃ n, parse C s' r = .ok (some e, n)) := by
  have h1 := parseHelper_core C s r false true {}
  have h2 := parseHelper_core C s' r false true {}
  rw [← h] at h2
  have e1 : parse C s r = parseHelper C s r false true {} := rfl
  have e2 : parse C s' r = parseHelper C s' r false true {} := rfl
  rw [e1, e2]
  generalize parseCore C s r true = c at h1 h2
  cases c with
  | error p =>
    simp only [Refines] at h1 h2
    rw [h1, h2]
    exact ⟨fun n => Iff.rfl, fun e => Iff.rfl⟩
  | ok c =>
    cases c with
    | error e =>
      simp only [Refines] at h1 h2
      obtain ⟨n1, h1⟩ := h1
      obtain ⟨n2, h2⟩ := h2
      rw [h1, h2]
      refine ⟨fun n => ⟨fun h => ?_, fun h => ?_⟩, fun e' => ⟨?_, ?_⟩⟩
      · cases h
      · cases h
      · rintro ⟨n, h⟩; cases h; exact ⟨_, rfl⟩
      · rintro ⟨n, h⟩; cases h; exact ⟨_, rfl⟩
    | ok o =>
      simp only [Refines] at h1 h2
      rw [h1, h2]
      have : o.apply s false {} = o.apply s' false {} := by simp [ParseOut.apply]
      rw [this]
      exact ⟨fun n => Iff.rfl, fun e => Iff.rfl⟩

theorem filter_isDig_alpha {t : Str} (ht : ∀ u ∈ t, isDig u = true ∨ u ∈ gapL) : t.map Props.alphaSpec = t := by
  have : ∀ u ∈ t, Props.alphaSpec u = u := by
    intro u hu
    rcases ht u hu with h | h
    · have hu : u < 58 := by simp [isDig] at h; omega
      exact other_alphaSpec u (by omega) (dig_alphaMap u hu h).2
    · exact other_alphaSpec u ((show ∀ u ∈ gapL, u < 123 by decide) u h) (gap_alphaMap u h).2.2.1
  conv => rhs; rw [← List.map_id t]
  exact List.map_congr_left this

/-- The parts of a number written with letters. -/
theorem letterNumber_parts {s : Str} (h : LetterNumber s) : ∃ pre t v, s = pre ++ (t ++ v) ∧ (pre = [] ∨ pre = [43]) ∧ Spaced t ∧
    3 ≤ (t.filter isDig).length ∧ (∀ u ∈ v, VanChar u) ∧ (∃ a c, v = a ++ [c] ∧ isLetter c = true) ∧ (pre ++ (t ++ v)).length ≤ 250 ∧
    VanText pre (t ++ v) := by
  obtain ⟨pre, t, v, h1, h2, h3, h4, h5, h6, h7, h8⟩ := h
  have ht : Spaced t := ⟨h2, h3, h4⟩
  refine ⟨pre, t, v, rfl, h1, ht, h5, h6, h7, h8, ⟨h1, ?_, ?_, ?_, van_viable h1 ht h5 h6, ?_, h8⟩⟩
  · intro u hu
    rcases List.mem_append.1 hu with hu | hu
    · exact VanChar.gap_or (ht.all u hu)
    · exact h6 u hu
  · obtain ⟨w, b, rfl, hw⟩ := h3
    exact ⟨w, b ++ v, rfl, hw⟩
  · obtain ⟨a, c, rfl, hc⟩ := h7
    exact ⟨t ++ a, c, by simp, .inr hc⟩
  · obtain ⟨a, c, rfl, hc⟩ := h7
    have := stripExtension_letter (pre ++ (t ++ a)) c hc
    simpa using this

namespace Props

/-- A number with three letters or more is read as the number with every letter replaced by the digit of its key: Parse of the text and
Parse of ConvertAlphaCharactersInNumber of the text give the same number or the same error, for every default region. -/
theorem C70_letters (C : Container) (s : Str) (h : LetterNumber s) (h3 : 3 ≤ letterCount s) (r : Str) :
    (∀ n, parse C s r = .ok (none, n) ↔ parse C (convertAlpha s) r = .ok (none, n)) ∧
      (∀ e, (∃ n, parse C s r = .ok (some e, n)) ↔ ∃ n, parse C (convertAlpha s) r = .ok (some e, n)) := by
  obtain ⟨pre, t, v, rfl, hp, ht, hd, hv, hend, hlen, hvan⟩ := letterNumber_parts h
  have hb : ∀ u ∈ t ++ v, VanChar u := hvan.all
  have hl : 3 ≤ ((t ++ v).filter isLetter).length := by
    rcases hp with rfl | rfl
    · exact h3
    · simpa [letterCount, isLetter] using h3
  have hsp : Spaced ((t ++ v).map alphaSpec) := by
    obtain ⟨a, c, hac, hc⟩ := hend
    exact spaced_alpha ht hv (.inr ⟨a, c, hac, .inr hc⟩)
  have hconv : convertAlpha (pre ++ (t ++ v)) = pre ++ (t ++ v).map alphaSpec := by
    rw [C03_map, List.map_append]
    congr 1
    rcases hp with rfl | rfl
    · rfl
    · decide
  rw [hconv]
  apply parse_of_core_eq
  refine parseCore_van C hvan (hsp.van hp ?_ (by simpa using hlen)) ?_ r true
  · rw [List.map_append, List.filter_append, List.length_append, filter_isDig_alpha ht.all]; omega
  · rw [normalize_letters hb hl, hsp.normalize]

/-- The plus signs and digits of a text. -/
def plusAndDigits (s : Str) : Str := s.filter fun u => u == '+'.toNat || isDig u

/-- With one or two letters the letters are skipped: the text is read as its digits. -/
theorem C70_few (C : Container) (s : Str) (h : LetterNumber s) (h3 : letterCount s < 3) (r : Str) :
    (∀ n, parse C s r = .ok (none, n) ↔ parse C (plusAndDigits s) r = .ok (none, n)) ∧
      (∀ e, (∃ n, parse C s r = .ok (some e, n)) ↔ ∃ n, parse C (plusAndDigits s) r = .ok (some e, n)) := by
  obtain ⟨pre, t, v, rfl, hp, ht, hd, hv, hend, hlen, hvan⟩ := letterNumber_parts h
  have hb : ∀ u ∈ t ++ v, VanChar u := hvan.all
  have hl : ((t ++ v).filter isLetter).length < 3 := by
    rcases hp with rfl | rfl
    · exact h3
    · simpa [letterCount, isLetter] using h3
  have hf : ∀ l : Str, (∀ u ∈ l, VanChar u) → plusAndDigits l = l.filter isDig := by
    intro l hl
    refine List.filter_congr (fun u hu => ?_)
    have := (hl u hu).not_plus
    rw [(hl u hu).rune] at this
    have h43 : u ≠ 43 := by rintro rfl; exact this (by decide)
    have : (u == '+'.toNat) = false := by simpa using h43
    rw [this, Bool.false_or]
  have hpd : plusAndDigits (pre ++ (t ++ v)) = pre ++ (t ++ v).filter isDig := by
    rw [← hf _ hb]
    unfold plusAndDigits
    rw [List.filter_append]
    congr 1
    rcases hp with rfl | rfl
    · rfl
    · decide
  have h3d : 3 ≤ ((t ++ v).filter isDig).length := by rw [List.filter_append, List.length_append]; omega
  have hsp : Spaced ((t ++ v).filter isDig) := by
    have hall : ∀ u ∈ (t ++ v).filter isDig, isDig u = true := fun u hu => (List.mem_filter.1 hu).2
    generalize (t ++ v).filter isDig = d at hall h3d
    have hne : d ≠ [] := by rintro rfl; simp at h3d
    refine ⟨fun u hu => .inl (hall u hu), ?_, ⟨d.dropLast, d.getLast hne, (List.dropLast_concat_getLast hne).symm, hall _ (List.getLast_mem hne)⟩⟩
    cases d with
    | nil => exact absurd rfl hne
    | cons w d => exact ⟨w, d, rfl, hall w (by simp)⟩
  have hff : ((t ++ v).filter isDig).filter isDig = (t ++ v).filter isDig := List.filter_eq_self.2 (fun u hu => (List.mem_filter.1 hu).2)
  rw [hpd]
  apply parse_of_core_eq
  refine parseCore_van C hvan (hsp.van hp (by rw [hff]; exact h3d) ?_) ?_ r true
  · have := List.length_filter_le isDig (t ++ v)
    simp only [List.length_append] at hlen this ⊢; omega
  · rw [normalize_few hb hl, hsp.normalize, hff]

/-- IsAlphaNumber of such a text tells whether it has three letters or more. -/
theorem C70_isAlpha (s : Str) (h : LetterNumber s) : isAlphaNumber s = true ↔ 3 ≤ letterCount s := by
  obtain ⟨pre, t, v, rfl, hp, ht, hd, hv, hend, hlen, hvan⟩ := letterNumber_parts h
  unfold isAlphaNumber
  rw [hvan.viable, hvan.noExt]
  simp only [Bool.not_true, Bool.false_eq_true, if_false]
  exact alphaPattern_iff (viable_line hvan.viable)

/-- Whatever IsAlphaNumber accepts has three ASCII letters or more. -/
theorem C70_isAlpha_only (s : Str) (h : isAlphaNumber s = true) : 3 ≤ letterCount s := by
  unfold isAlphaNumber at h
  split at h
  · cases h
  · rename_i hv
    have hv : isViable s = true := by simpa using hv
    obtain ⟨e, he⟩ := stripExtension_prefix s
    have hl := viable_line hv
    have h2 := (alphaPattern_iff (fun u hu => hl u (by rw [he]; exact List.mem_append_left _ hu))).1 h
    unfold letterCount
    rw [he, List.filter_append, List.length_append]
    omega

/-- A text without ASCII letters is not an alpha number. -/
theorem C70_digits (s : Str) (h : ∀ u ∈ s, isLetter u = false) : isAlphaNumber s = false := by
  rw [Bool.eq_false_iff]
  intro ha
  have := C70_isAlpha_only s ha
  unfold letterCount at this
  rw [List.filter_eq_nil_iff.2 (fun u hu => by rw [h u hu]; simp)] at this
  simp at this

/-- That the text ends in a letter is needed: the X of `800-FLOWERSX5` is taken for the label of an extension. -/
theorem C70_end_needed :
    (∃ n, parse Data.container (str!"800-FLOWERSX5") (str!"US") = .ok (none, n) ∧ n.ext = str!"5" ∧ n.nn = 8003569377) ∧
    (∃ n, parse Data.container (convertAlpha (str!"800-FLOWERSX5")) (str!"US") = .ok (none, n) ∧ n.ext = [] ∧ n.nn = 800356937795) := by
  refine ⟨⟨{ countryCode := some 1, nationalNumber := some 8003569377, extension := some (str!"5") }, ?_, rfl, rfl⟩,
    ⟨{ countryCode := some 1, nationalNumber := some 800356937795 }, ?_, rfl, rfl⟩⟩ <;> kernel_rfl

example : LetterNumber (str!"+1 (800) FLOWERS") ∧ 3 ≤ letterCount (str!"+1 (800) FLOWERS") :=
  ⟨.mk (str!"+") (str!"1 (800") (str!") FLOWERS") (.inr rfl) (by unfold IsSeparator; decide) ⟨49, str!" (800", rfl, rfl⟩ ⟨str!"1 (80", 48, rfl, rfl⟩
    (by decide) (by unfold IsSeparator; decide) ⟨str!") FLOWER", 83, rfl, rfl⟩ (by decide), by decide⟩
example : LetterNumber (str!"044 668 18 00 AB") ∧ letterCount (str!"044 668 18 00 AB") < 3 :=
  ⟨.mk [] (str!"044 668 18 00") (str!" AB") (.inl rfl) (by unfold IsSeparator; decide) ⟨48, str!"44 668 18 00", rfl, rfl⟩ ⟨str!"044 668 18 0", 48, rfl, rfl⟩
    (by decide) (by unfold IsSeparator; decide) ⟨str!" A", 66, rfl, rfl⟩ (by decide), by decide⟩
example : parse Data.container (str!"+1 (800) FLOWERS") (str!"GB") = .ok (none, { countryCode := some 1, nationalNumber := some 8003569377 }) := by
  kernel_rfl

end Props
end Verif
