import Verif.Model.Normalize
import Verif.Spec.Chars
import Verif.Lemmas.Dec
/-!
# Lemmas on character-level normalisation
-/
namespace Verif
open Spec

/-- Ranges in increasing order, each non-empty. -/
def sortedRanges : List (Nat × Nat) → Bool
  | [] => true
  | [(lo, hi)] => decide (lo ≤ hi)
  | (lo, hi) :: (lo', hi') :: t => decide (lo ≤ hi) && decide (hi < lo') && sortedRanges ((lo', hi') :: t)

theorem sortedRanges_lo {lo hi : Nat} {t : List (Nat × Nat)} (h : sortedRanges ((lo, hi) :: t) = true) :
    ∀ r ∈ t, hi < r.1 := by
  induction t generalizing lo hi with
  | nil => simp
  | cons p t ih =>
    obtain ⟨lo', hi'⟩ := p
    simp [sortedRanges] at h
    intro r hr
    rcases List.mem_cons.mp hr with rfl | hr
    · exact h.1.2
    · have := ih h.2 r hr
      have h3 : lo' ≤ hi' := by
        have := h.2
        cases t with
        | nil => simpa [sortedRanges] using this
        | cons q t => obtain ⟨a, b⟩ := q; simp [sortedRanges] at this; exact this.1.1
      omega

theorem sortedRanges_tail {p : Nat × Nat} {t : List (Nat × Nat)} (h : sortedRanges (p :: t) = true) :
    sortedRanges t = true := by
  obtain ⟨lo, hi⟩ := p
  cases t with
  | nil => rfl
  | cons q t => obtain ⟨a, b⟩ := q; simp [sortedRanges] at h; exact h.2

theorem charDigit_go_iff (t : List (Nat × Nat)) (h : sortedRanges t = true) (c w : Nat) :
    charDigit.go t c = some w ↔ ∃ r ∈ t, r.1 ≤ c ∧ c ≤ r.2 ∧ w = 48 + (c - r.1) % 10 := by
  induction t with
  | nil => simp [charDigit.go]
  | cons p t ih =>
    obtain ⟨lo, hi⟩ := p
    have hlo := sortedRanges_lo h
    have hle : lo ≤ hi := by
      cases t with
      | nil => simpa [sortedRanges] using h
      | cons q t => obtain ⟨a, b⟩ := q; simp [sortedRanges] at h; exact h.1.1
    simp only [charDigit.go]
    split
    · rename_i hc
      simp only [reduceCtorEq, false_iff, not_exists, not_and]
      intro r hr h1
      rcases List.mem_cons.mp hr with rfl | hr
      · simp at h1; omega
      · have := hlo r hr; omega
    · split
      · rename_i h1 h2
        constructor
        · intro hw
          simp only [Option.some.injEq] at hw
          exact ⟨(lo, hi), by simp, by simp; omega, by simpa using h2, hw.symm⟩
        · rintro ⟨r, hr, h3, h4, h5⟩
          rcases List.mem_cons.mp hr with rfl | hr
          · simp [h5]
          · have := hlo r hr; omega
      · rename_i h1 h2
        rw [ih (sortedRanges_tail h)]
        constructor
        · rintro ⟨r, hr, hh⟩; exact ⟨r, by simp [hr], hh⟩
        · rintro ⟨r, hr, h3, h4, h5⟩
          rcases List.mem_cons.mp hr with rfl | hr
          · simp at h4; omega
          · exact ⟨r, hr, h3, h4, h5⟩

theorem ndTable_sorted : sortedRanges ndTable = true := by decide +kernel

theorem ascii_in_ndTable : (48, 57) ∈ ndTable := by decide +kernel

theorem charDigit_iff (c w : Nat) : charDigit c = some w ↔ ∃ v, UnicodeDigit c v ∧ w = 48 + v := by
  have key := charDigit_go_iff ndTable ndTable_sorted c
  have go2 : charDigit.go ndTable c = some w ↔ ∃ v, UnicodeDigit c v ∧ w = 48 + v := by
    rw [key]
    constructor
    · rintro ⟨r, hr, h1, h2, h3⟩; exact ⟨_, ⟨r, hr, h1, h2, rfl⟩, h3⟩
    · rintro ⟨v, ⟨r, hr, h1, h2, rfl⟩, h3⟩; exact ⟨r, hr, h1, h2, h3⟩
  unfold charDigit
  split
  · rename_i h
    rw [← go2]
    have : charDigit.go ndTable c = some c := (key c).2 ⟨(48, 57), ascii_in_ndTable, h.1, h.2, by simp; omega⟩
    rw [this]
  · exact go2

theorem charDigit_none_iff (c : Nat) : charDigit c = none ↔ ∀ v, ¬ UnicodeDigit c v := by
  constructor
  · intro h v hv
    have := (charDigit_iff c (48 + v)).2 ⟨v, hv, rfl⟩
    rw [h] at this; cases this
  · intro h
    cases hc : charDigit c with
    | none => rfl
    | some w => obtain ⟨v, hv, _⟩ := (charDigit_iff c w).1 hc; exact absurd hv (h v)

theorem unicodeDigit_lt {c v : Nat} (h : UnicodeDigit c v) : v < 10 := by
  obtain ⟨r, _, _, _, rfl⟩ := h; omega

theorem charDigit_isDig {c w : Nat} (h : charDigit c = some w) : isDig w = true := by
  obtain ⟨v, hv, rfl⟩ := (charDigit_iff c w).1 h
  have := unicodeDigit_lt hv
  simp [isDig]; omega

theorem charDigit_of_isDig {c : Nat} (h : isDig c = true) : charDigit c = some c := by
  simp [isDig] at h; simp [charDigit, h]

theorem rune_of_isDig {c : Nat} (h : isDig c = true) : rune c = c := by
  simp [isDig] at h; unfold rune badBase; split <;> omega

theorem normalizeDigitsOnly_digits (s : Str) : ∀ u ∈ normalizeDigitsOnly s, isDig u = true := by
  intro u hu
  simp only [normalizeDigitsOnly, normalizeDigits, List.mem_flatMap] at hu
  obtain ⟨a, _, ha⟩ := hu
  split at ha
  · rename_i v hv; simp at ha; subst ha; exact charDigit_isDig hv
  · simp at ha

theorem normalizeDigitsOnly_of_digits {s : Str} (h : ∀ u ∈ s, isDig u = true) : normalizeDigitsOnly s = s := by
  induction s with
  | nil => rfl
  | cons u s ih =>
    have hu := h u (by simp)
    have ih' := ih (fun v hv => h v (by simp [hv]))
    simp only [normalizeDigitsOnly, normalizeDigits, List.flatMap_cons] at ih' ⊢
    rw [rune_of_isDig hu, charDigit_of_isDig hu, ih']; rfl

theorem normalizeDigitsOnly_append (a b : Str) :
    normalizeDigitsOnly (a ++ b) = normalizeDigitsOnly a ++ normalizeDigitsOnly b := by
  simp [normalizeDigitsOnly, normalizeDigits]

theorem normalizeDigitsOnly_length_le (s : Str) : (normalizeDigitsOnly s).length ≤ s.length := by
  induction s with
  | nil => simp [normalizeDigitsOnly, normalizeDigits]
  | cons u s ih =>
    simp only [normalizeDigitsOnly, normalizeDigits, List.flatMap_cons, List.length_append, List.length_cons] at ih ⊢
    split <;> simp at ih ⊢ <;> omega

/-! ## The keypad map -/

theorem normalizeHelper_append (f : Nat → Option Nat) (rm : Bool) (a b : Str) :
    normalizeHelper f rm (a ++ b) = normalizeHelper f rm a ++ normalizeHelper f rm b := by
  simp [normalizeHelper]

theorem alphaMap_digit {c w : Nat} (h : alphaMap c = some w) : isDig w = true := by
  unfold alphaMap at h
  split at h
  · rename_i hd; cases h; exact hd
  · split at h
    · have : ∀ w ∈ keypad, isDig w = true := by decide +kernel
      exact this w (List.mem_of_getElem? h)
    · cases h

theorem normalizeAlpha_digits (s : Str) : ∀ u ∈ normalizeHelper alphaMap true s, isDig u = true := by
  intro u hu
  simp only [normalizeHelper, List.mem_flatMap] at hu
  obtain ⟨a, _, ha⟩ := hu
  split at ha
  · rename_i v hv; simp at ha; subst ha; exact alphaMap_digit hv
  · simp at ha

theorem normalize_digits (s : Str) : ∀ u ∈ normalize s, isDig u = true := by
  unfold normalize
  split
  · exact normalizeAlpha_digits s
  · exact normalizeDigitsOnly_digits s

end Verif
