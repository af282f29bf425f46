import Verif.Lemmas.ShortNumber
import Verif.Data.Shipped
import Verif.Props.C04
/-!
# C36: a valid short number is a possible short number
-/
namespace Verif.Props
open Spec

/-- `IsValidShortNumberForRegion`: the region has the number's country code, and the number is described by both the general
description and the short code description of the region's short-number metadata. -/
theorem C36_valid_region_iff (C : Container) (S : ShortMap) (n : PhoneNumber) (r : Str) :
    isValidShortForRegion C S n r = true ↔
      r ∈ C.regionCodes n.cc ∧ ∃ m, mapGet S r = some m ∧ ShortMatches (nsnOf n) m.general ∧ ShortMatches (nsnOf n) m.shortCode := by
  have hn : ∀ u ∈ nsnOf n, isDig u = true := fun u hu => nsnOf_isDig n u hu
  unfold isValidShortForRegion
  by_cases hr : r ∈ C.regionCodes n.cc
  · simp only [dialingFromMatches, hr, decide_true, Bool.not_true, Bool.false_eq_true, if_false, true_and, shortMeta]
    cases hm : mapGet S r with
    | none => simp
    | some m =>
      simp only [Option.some.injEq, exists_eq_left', ← matchesPossible_iff _ hn]
      cases matchesPossibleAndNational (nsnOf n) m.general <;> simp
  · simp [dialingFromMatches, hr]

/-- `IsPossibleShortNumberForRegion`: the region has the number's country code, and the general description of the region's
short-number metadata lists the length. -/
theorem C36_possible_region_iff (C : Container) (S : ShortMap) (hS : S.all (fun e => shortGeneralOk e.2) = true) (n : PhoneNumber)
    (r : Str) : ∃ b, isPossibleShortForRegion C S n r = .ok b ∧
      (b = true ↔ r ∈ C.regionCodes n.cc ∧ ∃ m g, mapGet S r = some m ∧ m.general = some g ∧ ((nsnOf n).length : Int) ∈ g.lengths) := by
  have hn : ∀ u ∈ nsnOf n, isDig u = true := fun u hu => nsnOf_isDig n u hu
  unfold isPossibleShortForRegion
  by_cases hr : r ∈ C.regionCodes n.cc
  · simp only [dialingFromMatches, hr, decide_true, Bool.not_true, Bool.false_eq_true, if_false, true_and, shortMeta]
    cases hm : mapGet S r with
    | none => simp
    | some m =>
      obtain ⟨g, hg1, hg2⟩ := hasPossibleLength_ok (List.all_eq_true.1 hS _ (mapGet_mem hm)) (blen (nsnOf n))
      simp only at hg1 hg2
      refine ⟨_, hg2, ?_⟩
      rw [blen_digits hn]
      simp [hg1]
  · simp [dialingFromMatches, hr]

theorem possibleShortLoop_spec (S : ShortMap) (hS : S.all (fun e => shortGeneralOk e.2) = true) (len : Nat) (rs : List Str) :
    ∃ b, possibleShortLoop S len rs = .ok b ∧
      (b = true ↔ ∃ r ∈ rs, ∃ m g, mapGet S r = some m ∧ m.general = some g ∧ (len : Int) ∈ g.lengths) := by
  induction rs with
  | nil => exact ⟨false, rfl, by simp⟩
  | cons r rs ih =>
    obtain ⟨b, hb, hb2⟩ := ih
    simp only [possibleShortLoop, shortMeta]
    cases hm : mapGet S r with
    | none => exact ⟨b, hb, by rw [hb2]; simp [hm]⟩
    | some m =>
      obtain ⟨g, hg1, hg2⟩ := hasPossibleLength_ok (List.all_eq_true.1 hS _ (mapGet_mem hm)) len
      simp only at hg1 hg2
      simp only [hg2, bind, Except.bind, pure, Except.pure]
      by_cases hl : (len : Int) ∈ g.lengths
      · exact ⟨true, by simp [hl], by simp; exact .inl ⟨m, hm, g, hg1, hl⟩⟩
      · refine ⟨b, by simp [hl, hb], ?_⟩
        rw [hb2]
        simp [hm, hg1, hl]

/-- `IsPossibleShortNumber`: possible in some region of the country code. -/
theorem C36_possible_iff (C : Container) (S : ShortMap) (hS : S.all (fun e => shortGeneralOk e.2) = true) (n : PhoneNumber) :
    ∃ b, isPossibleShort C S n = .ok b ∧ (b = true ↔ ∃ r, isPossibleShortForRegion C S n r = .ok true) := by
  have hn : ∀ u ∈ nsnOf n, isDig u = true := fun u hu => nsnOf_isDig n u hu
  obtain ⟨b, hb, hb2⟩ := possibleShortLoop_spec S hS (blen (nsnOf n)) (C.regionCodes n.cc)
  refine ⟨b, hb, ?_⟩
  rw [hb2, blen_digits hn]
  constructor
  · rintro ⟨r, hr, m, g, h1, h2, h3⟩
    obtain ⟨b', h, h'⟩ := C36_possible_region_iff C S hS n r
    exact ⟨r, by rw [h, h'.2 ⟨hr, m, g, h1, h2, h3⟩]⟩
  · rintro ⟨r, h⟩
    obtain ⟨b', h1, h'⟩ := C36_possible_region_iff C S hS n r
    rw [h] at h1; cases h1
    obtain ⟨hr, m, g, h1, h2, h3⟩ := h'.1 rfl
    exact ⟨r, hr, m, g, h1, h2, h3⟩

theorem shortRegionLoop_iff (S : ShortMap) (nsn : Str) (hn : ∀ u ∈ nsn, isDig u = true) (rs : List Str) (h0 : [] ∉ rs) :
    shortRegionLoop S nsn rs ≠ [] ↔ ∃ r ∈ rs, ∃ m, mapGet S r = some m ∧ ShortMatches nsn m.shortCode := by
  induction rs with
  | nil => simp [shortRegionLoop]
  | cons r rs ih =>
    have ih := ih (fun h => h0 (List.mem_cons_of_mem _ h))
    simp only [shortRegionLoop, shortMeta]
    cases hm : mapGet S r with
    | none => rw [ih]; simp [hm]
    | some m =>
      simp only
      by_cases hs : ShortMatches nsn m.shortCode
      · rw [if_pos ((matchesPossible_iff _ hn _).2 hs)]
        constructor
        · intro _; exact ⟨r, by simp, m, hm, hs⟩
        · intro _ h; exact h0 (by simp [h])
      · rw [if_neg (fun h => hs ((matchesPossible_iff _ hn _).1 h)), ih]
        simp [hm, hs]

/-- `IsValidShortNumber`: with one region, valid for that region; with several, the number is a short code of one of them. -/
theorem C36_valid_iff (C : Container) (S : ShortMap) (n : PhoneNumber) (h0 : [] ∉ C.regionCodes n.cc) :
    isValidShort C S n = true ↔
      (∃ r, C.regionCodes n.cc = [r] ∧ isValidShortForRegion C S n r = true) ∨
      ((C.regionCodes n.cc).length > 1 ∧ ∃ r ∈ C.regionCodes n.cc, ∃ m, mapGet S r = some m ∧ ShortMatches (nsnOf n) m.shortCode) := by
  have hn : ∀ u ∈ nsnOf n, isDig u = true := fun u hu => nsnOf_isDig n u hu
  have hnil : isValidShortForRegion C S n [] = false := by simp [isValidShortForRegion, dialingFromMatches, h0]
  unfold isValidShort
  simp only
  match hrs : C.regionCodes n.cc with
  | [] => simp [shortRegionFromList, hnil]
  | [r] => simp [shortRegionFromList]
  | r :: r' :: rs =>
    rw [hrs] at h0
    have hl := shortRegionLoop_iff S (nsnOf n) hn (r :: r' :: rs) h0
    have hfl : shortRegionFromList S n (r :: r' :: rs) = shortRegionLoop S (nsnOf n) (r :: r' :: rs) := rfl
    generalize shortRegionFromList S n (r :: r' :: rs) = y at hfl ⊢
    subst hfl
    by_cases hx : shortRegionLoop S (nsnOf n) (r :: r' :: rs) = []
    · rw [if_neg (fun h => h.2 hx), hx, hnil]
      simp only [Bool.false_eq_true, false_iff]
      rintro (⟨_, h, _⟩ | ⟨_, h⟩)
      · cases h
      · exact hl.2 h hx
    · rw [if_pos ⟨by simp, hx⟩]
      simp only [true_iff]
      exact .inr ⟨by simp, hl.1 hx⟩

/-- Valid for a region implies possible for the region. -/
theorem C36_region (C : Container) (S : ShortMap) (hS : S.all (fun e => shortGeneralOk e.2) = true) (n : PhoneNumber) (r : Str)
    (h : isValidShortForRegion C S n r = true) : isPossibleShortForRegion C S n r = .ok true := by
  obtain ⟨hr, m, hm, ⟨g, p, hg, hl, _⟩, _⟩ := (C36_valid_region_iff C S n r).1 h
  obtain ⟨b, hb, hb2⟩ := C36_possible_region_iff C S hS n r
  rw [hb, hb2.2 ⟨hr, m, g, hm, hg, ?_⟩]
  rcases hl with hl | hl
  · have := List.all_eq_true.1 hS _ (mapGet_mem hm)
    simp [shortGeneralOk, hg, hl] at this
  · exact hl

/-- Valid implies possible, whatever the number of regions of the country code. -/
theorem C36_general (C : Container) (S : ShortMap) (hS : S.all (fun e => shortGeneralOk e.2) = true)
    (hL : S.all (fun e => shortCodeLengthsOk e.2) = true) (n : PhoneNumber) (h0 : [] ∉ C.regionCodes n.cc)
    (h : isValidShort C S n = true) : isPossibleShort C S n = .ok true := by
  obtain ⟨b, hb, hb2⟩ := C36_possible_iff C S hS n
  rw [hb, hb2.2 ?_]
  rcases (C36_valid_iff C S n h0).1 h with ⟨r, _, hv⟩ | ⟨_, r, hr, m, hm, hs⟩
  · exact ⟨r, C36_region C S hS n r hv⟩
  · obtain ⟨b', h1, h2⟩ := C36_possible_region_iff C S hS n r
    obtain ⟨g, hg, hl⟩ := shortCode_length (List.all_eq_true.1 hS _ (mapGet_mem hm)) (List.all_eq_true.1 hL _ (mapGet_mem hm)) hs
    exact ⟨r, by rw [h1, h2.2 ⟨hr, m, g, hm, hg, hl⟩]⟩

/-- No region code of the shipped tables is empty. -/
theorem C36_no_empty_region (cc : Int) : [] ∉ Data.container.regionCodes cc := by
  unfold Container.regionCodes Container.regionsOf
  cases h : mapGet Data.container.ccToRegion cc with
  | none => simp
  | some rs =>
    have key : Data.container.ccToRegion.all (fun e => e.2.all (fun r => match r with | [] => false | _ :: _ => true)) = true := by kernel_rfl
    have := List.all_eq_true.1 (List.all_eq_true.1 key _ (mapGet_mem h))
    intro hm
    cases this [] hm

/-- The property for the shipped metadata. -/
theorem C36_shipped (n : PhoneNumber) :
    (isValidShort Data.container Data.shortMap n = true → isPossibleShort Data.container Data.shortMap n = .ok true) ∧
    ∀ r, isValidShortForRegion Data.container Data.shortMap n r = true →
      isPossibleShortForRegion Data.container Data.shortMap n r = .ok true :=
  ⟨C36_general _ _ Data.wf_shortGeneral Data.wf_shortCodeLengths n (C36_no_empty_region _),
   fun r => C36_region _ _ Data.wf_shortGeneral n r⟩

example : isValidShort Data.container Data.shortMap { countryCode := some 33, nationalNumber := some 1010 } = true := by kernel_rfl
example : isValidShortForRegion Data.container Data.shortMap { countryCode := some 33, nationalNumber := some 1010 } (str!"FR") = true := by
  kernel_rfl
example : isValidShort Data.container Data.shortMap { countryCode := some 44, nationalNumber := some 18001 } = true := by kernel_rfl
example : isValidShort Data.container Data.shortMap { countryCode := some 33, nationalNumber := some 123456 } = false := by kernel_rfl

end Verif.Props
