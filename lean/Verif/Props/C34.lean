import Verif.Lemmas.ShortNumber
import Verif.Lemmas.Extract
import Verif.Lemmas.Viable
import Verif.Props.C01
/-!
# C34: emergency number checks are consistent

`Spec.candidate` (Verif/Spec/Extract.lean) is the candidate number in the text, `Spec.DigitTranscript` (Verif/Spec/Chars.lean) the
sequence of its digits.
-/
namespace Verif.Spec

/-- The regions in which extra digits after an emergency number do not connect. -/
def exactOnly : List Str := [str!"BR", str!"CL", str!"NI"]

/-- The candidate number of a text has no plus sign, `t` are its digits, and `d` describes the emergency numbers of region `r`. -/
structure EmergencyQuery (S : ShortMap) (s r t : Str) (d : Desc) : Prop where
  noPlus : ∀ u ∈ candidate s, isPlus u = false
  digits : DigitTranscript (candidate s) t
  entry : ∃ m, mapGet S r = some m ∧ m.emergency = some d

end Verif.Spec

namespace Verif.Props
open Spec

theorem plus_candidate (s : Str) : plusCharsPattern.isMatch (extractPossibleNumber s) = true ↔ ∃ u ∈ candidate s, isPlus u = true := by
  rw [plus_isMatch_iff, extractPossibleNumber_eq]
  simp [plusL, isPlus]

theorem matchesEmergency_iff (S : ShortMap) (s r : Str) (allow : Bool) :
    matchesEmergency S s r allow = true ↔
      ∃ t d, EmergencyQuery S s r t d ∧ (ShortWhole t d ∨ (allow = true ∧ r ∉ exactOnly ∧ ShortPrefix t d)) := by
  unfold matchesEmergency
  simp only
  by_cases hp : plusCharsPattern.isMatch (extractPossibleNumber s) = true
  · rw [if_pos hp]
    simp only [Bool.false_eq_true, false_iff]
    rintro ⟨t, d, hq, _⟩
    obtain ⟨u, hu, h⟩ := (plus_candidate s).1 hp
    rw [hq.noPlus u hu] at h; cases h
  · rw [if_neg hp]
    have hno : ∀ u ∈ candidate s, isPlus u = false := fun u hu => by
      cases h : isPlus u with
      | false => rfl
      | true => exact absurd ((plus_candidate s).2 ⟨u, hu, h⟩) hp
    cases hm : shortMeta S r with
    | none =>
      simp only [Bool.false_eq_true, false_iff]
      rintro ⟨t, d, ⟨_, _, m, h, _⟩, _⟩
      rw [shortMeta] at hm
      rw [hm] at h; cases h
    | some m =>
      cases he : m.emergency with
      | none =>
        simp only [he, Bool.false_eq_true, false_iff]
        rintro ⟨t, d, ⟨_, _, m', h, h2⟩, _⟩
        rw [shortMeta] at hm
        rw [hm] at h; cases h
        rw [he] at h2; cases h2
      | some d =>
        simp only [he, matchNational_iff]
        have hx : exactEmergencyRegions = exactOnly := rfl
        rw [hx, extractPossibleNumber_eq]
        simp only [Bool.and_eq_true, Bool.not_eq_true', decide_eq_false_iff_not, and_assoc]
        constructor
        · intro h
          exact ⟨_, d, ⟨hno, C01_transcript _, m, hm, he⟩, h⟩
        · rintro ⟨t, d', ⟨_, ht, m', h, h2⟩, h3⟩
          rw [shortMeta] at hm
          rw [hm] at h; cases h
          rw [he] at h2; cases h2
          rw [← C01_unique _ _ ht]; exact h3

/-- `IsEmergencyNumber` holds exactly when the candidate number has no plus sign and all of its digits, together, are an emergency
number of the region. -/
theorem C34_is_iff (S : ShortMap) (s r : Str) :
    isEmergency S s r = true ↔ ∃ t d, EmergencyQuery S s r t d ∧ ShortWhole t d := by
  unfold isEmergency
  rw [matchesEmergency_iff]
  simp

/-- `ConnectsToEmergencyNumber` holds exactly when the candidate number has no plus sign and its digits are an emergency number of
the region or, outside BR, CL and NI, begin with one. -/
theorem C34_connects_iff (S : ShortMap) (s r : Str) :
    connectsToEmergency S s r = true ↔ ∃ t d, EmergencyQuery S s r t d ∧ (ShortWhole t d ∨ (r ∉ exactOnly ∧ ShortPrefix t d)) := by
  unfold connectsToEmergency
  rw [matchesEmergency_iff]
  simp

/-- An emergency number connects to an emergency service. -/
theorem C34_implies (S : ShortMap) (s r : Str) (h : isEmergency S s r = true) : connectsToEmergency S s r = true := by
  rw [C34_is_iff] at h
  rw [C34_connects_iff]
  obtain ⟨t, d, h1, h2⟩ := h
  exact ⟨t, d, h1, .inl h2⟩

/-- Neither check is true of a text whose candidate number contains a plus sign. -/
theorem C34_plus (S : ShortMap) (s r : Str) (h : ∃ u ∈ candidate s, isPlus u = true) :
    isEmergency S s r = false ∧ connectsToEmergency S s r = false := by
  obtain ⟨u, hu, hp⟩ := h
  have key : ∀ t d, ¬ EmergencyQuery S s r t d := fun t d hq => by rw [hq.noPlus u hu] at hp; cases hp
  constructor
  · rw [Bool.eq_false_iff, ne_eq, C34_is_iff]
    rintro ⟨t, d, h1, _⟩; exact key t d h1
  · rw [Bool.eq_false_iff, ne_eq, C34_connects_iff]
    rintro ⟨t, d, h1, _⟩; exact key t d h1

/-- In Brazil, Chile and Nicaragua the two checks coincide. -/
theorem C34_exact (S : ShortMap) (s r : Str) (h : r = str!"BR" ∨ r = str!"CL" ∨ r = str!"NI") :
    isEmergency S s r = connectsToEmergency S s r := by
  have hr : r ∈ exactOnly := by rcases h with h | h | h <;> simp [h, exactOnly]
  rw [Bool.eq_iff_iff, C34_is_iff, C34_connects_iff]
  simp [hr]

/-- Elsewhere an emergency number followed by any further digits still connects, for metadata whose emergency patterns have no
anchors (all of the shipped ones, `C34_shipped_noAnchor`). -/
theorem C34_append (S : ShortMap) (hS : S.all (fun e => ((e.2.emergency.bind (·.pattern)).getD ⟨[], .eps⟩).re.noAnchor) = true)
    (s t r : Str) (hs : AllDigits s) (ht : AllDigits t) (hr : r ∉ exactOnly) (h : isEmergency S s r = true) :
    connectsToEmergency S (s ++ t) r = true := by
  have dig : ∀ {x : Str}, AllDigits x → ∀ u ∈ x, isDig u = true := fun hx u hu => (isDig_iff u).2 (hx u hu)
  have hst : AllDigits (s ++ t) := fun u hu => by
    rcases List.mem_append.1 hu with h | h
    · exact hs u h
    · exact ht u h
  rw [C34_is_iff] at h
  rw [C34_connects_iff]
  obtain ⟨x, d, hq, hw⟩ := h
  obtain ⟨m, hm, he⟩ := hq.entry
  obtain ⟨p, hp, hsrc, ha⟩ := hw
  have hna : p.re.noAnchor = true := by
    have := List.all_eq_true.1 hS _ (mapGet_mem hm)
    simpa [he, hp] using this
  have hx : x = s := by
    rw [C01_unique _ _ hq.digits, candidate_digits (dig hs), normalizeDigitsOnly_of_digits (dig hs)]
  subst hx
  have hd := C01_transcript (x ++ t)
  rw [normalizeDigitsOnly_of_digits (dig hst)] at hd
  refine ⟨x ++ t, d, ⟨?_, ?_, m, hm, he⟩, .inr ⟨hr, p, hp, hsrc, x, t, rfl, noAnchor_acc hna ha⟩⟩
  · rw [candidate_digits (dig hst)]
    intro u hu
    have := hst u hu
    simp only [IsDigit] at this
    have hru : rune u = u := by unfold rune; rw [if_pos (by simp [badBase] at *; omega)]
    simp [isPlus, hru] at *; omega
  · rw [candidate_digits (dig hst)]; exact hd

theorem C34_shipped_noAnchor :
    Data.shortMap.all (fun e => ((e.2.emergency.bind (·.pattern)).getD ⟨[], .eps⟩).re.noAnchor) = true := by kernel_rfl

example : isEmergency Data.shortMap (str!"9-1-1") (str!"US") = true := by kernel_rfl
example : isEmergency Data.shortMap (str!"9116666") (str!"US") = false := by kernel_rfl
example : connectsToEmergency Data.shortMap (str!"9116666") (str!"US") = true := by kernel_rfl
example : isEmergency Data.shortMap (str!"190") (str!"BR") = true := by kernel_rfl
example : connectsToEmergency Data.shortMap (str!"1900") (str!"BR") = false := by kernel_rfl
example : ∃ u ∈ candidate (str!"tel: +1 911"), isPlus u = true := by decide +kernel
example : str!"US" ∉ exactOnly ∧ isEmergency Data.shortMap (str!"911") (str!"US") = true := ⟨by decide +kernel, by kernel_rfl⟩

end Verif.Props
