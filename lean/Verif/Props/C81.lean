import Verif.Props.C80
/-!
# C81: whether a text is a possible number in a region
-/
namespace Verif.Props
open Spec

theorem general_src_shipped : (Data.container.allMeta.all fun m => !(descPat m.general).src.isEmpty) = true := by kernel_rfl

/-- The length of the national significant number is one of those listed for the country code, or one of those listed for calls within an
area. -/
def LengthListed (n : PhoneNumber) : Prop :=
  ∃ m, Data.container.metaFor n.cc (Data.container.mainRegion n.cc) = some m ∧
    (((nsnOf n).length : Int) ∈ possibleLens m .unknown ∨ ((nsnOf n).length : Int) ∈ localLens m .unknown ∧ possibleLens m .unknown ≠ [])

theorem possible_iff (n : PhoneNumber) (hcc : Data.container.hasCC n.cc = true) :
    ∃ b, isPossibleNumber Data.container n = .ok b ∧ (b = true ↔ LengthListed n) := by
  obtain ⟨m, hm, -⟩ := main_meta built_shipped Data.wf_tables hcc
  have hmm := Container.metaFor_mem hm
  have hl := List.all_eq_true.1 Data.wf_lengthTables m hmm
  have hp : (descPat m.general).src ≠ [] := by
    have := List.all_eq_true.1 general_src_shipped m hmm
    simpa using this
  have key := C24_number Data.container n m hcc hm hl hp
  obtain ⟨v, hv1, hv2⟩ := C24_length m hl (nsnOf n) .unknown
  rw [blen_digits (nsnOf_isDig n)] at hv2
  have hv := (key v).2 hv2
  refine ⟨v = .isPossible || v = .isPossibleLocalOnly, by simp [isPossibleNumber, hv, bind, Except.bind, pure, Except.pure], ?_⟩
  have hiff : LengthListed n ↔ (((nsnOf n).length : Int) ∈ possibleLens m .unknown ∨
      ((nsnOf n).length : Int) ∈ localLens m .unknown ∧ possibleLens m .unknown ≠ []) := by
    constructor
    · rintro ⟨m', hm', h⟩
      rw [hm] at hm'
      cases hm'
      exact h
    · exact fun h => ⟨m, hm, h⟩
  rw [hiff]
  cases hv2 with
  | noNumbers h => simp [h]
  | localOnly h hl => simp [h, hl]
  | possible hl h => simp [h]
  | tooShort hne hl h =>
    have : ((nsnOf n).length : Int) ∉ possibleLens m .unknown := fun hx => by have := h _ hx; omega
    simp [this, hl]
  | tooLong hne hl h =>
    have : ((nsnOf n).length : Int) ∉ possibleLens m .unknown := fun hx => by have := h _ hx; omega
    simp [this, hl]
  | between hl h _ _ => simp [hl, h]

/-- `IsPossibleNumberFromRegion` always answers, and says yes exactly to the texts that are parsed in the region as a number whose length is
listed. -/
theorem C81_iff (s r : Str) : ∃ b, isPossibleFromRegion Data.container s r = .ok b ∧
    (b = true ↔ ∃ n, parse Data.container s r = .ok (none, n) ∧ LengthListed n) := by
  obtain ⟨⟨e, n, h⟩, -⟩ := C06_shipped s r
  cases e with
  | some e =>
    refine ⟨false, by simp [isPossibleFromRegion, h, bind, Except.bind, pure, Except.pure], ?_⟩
    simp [h]
  | none =>
    have hcc : Data.container.hasCC n.cc = true := by
      obtain ⟨⟨cc, h1, h2⟩, -⟩ := C08_parsed _ Data.wf_regions Data.wf_transform s r n (.inl h)
      rw [PhoneNumber.cc, h1]; exact h2
    obtain ⟨b, hb, hi⟩ := possible_iff n hcc
    refine ⟨b, by simp [isPossibleFromRegion, h, bind, Except.bind, hb], hi.trans ?_⟩
    constructor
    · exact fun hx => ⟨n, h, hx⟩
    · rintro ⟨n', hn', hx⟩
      rw [h] at hn'
      cases hn'
      exact hx

/-- A text that is read as a valid number is possible. -/
theorem C81_valid (n pn : PhoneNumber) (s r : Str) (hv : isValidNumber Data.container n = .ok true)
    (h : parse Data.container s r = .ok (none, pn)) (h1 : pn.cc = n.cc) (h2 : nsnOf pn = nsnOf n) :
    isPossibleFromRegion Data.container s r = .ok true := by
  have hp := C25_shipped n hv
  simp only [isPossibleFromRegion, h, bind, Except.bind]
  simp only [isPossibleNumber, possibleWithReason, h1, h2] at hp ⊢
  exact hp

/-- So whatever the library writes for a valid number, and its digits as they are typed in its region, is possible: the E164,
INTERNATIONAL and RFC3966 forms everywhere. -/
theorem C81_written (n : PhoneNumber) (hv : isValidNumber Data.container n = .ok true) (hraw : ¬ (n.nn = 0 ∧ n.raw ≠ []))
    (hex : ¬ Ambiguous n) (hext : ShortExt n 9) (r : Str) :
    isPossibleFromRegion Data.container (format Data.container n .e164) r = .ok true ∧
    isPossibleFromRegion Data.container (format Data.container n .international) r = .ok true ∧
    isPossibleFromRegion Data.container (format Data.container n .rfc3966) r = .ok true := by
  refine ⟨?_, ?_, ?_⟩
  · obtain ⟨pn, h, h1, h2, -⟩ := C10_valid n hv hraw hex r
    exact C81_valid n pn _ r hv h h1 h2
  · obtain ⟨pn, h, h1, h2, -⟩ := C65_international_valid n hv hraw hex hext r
    exact C81_valid n pn _ r hv h h1 h2
  · obtain ⟨pn, h, h1, h2, -⟩ := C65_rfc3966_valid n hv hraw hex ⟨Nat.le_trans hext.1 (by decide), hext.2⟩ r
    exact C81_valid n pn _ r hv h h1 h2

/-- The digits typed in the region of the number, alone or after the national prefix. -/
theorem C81_typed (n : PhoneNumber) (r : Str) (hv : isValidForRegion Data.container n r = .ok true) (hr : r ≠ str!"001") (s ext : Str) :
    (¬ BeginsAsListed bareAmbiguous n → Typed s (nsnOf n) ext → isPossibleFromRegion Data.container s r = .ok true) ∧
    (r ∉ prefixUnsettled → n.cc ≠ 1 → Data.container.nddPrefix r true ≠ [] → ¬ BeginsAsListed prefixAmbiguous n →
      Typed s (Data.container.nddPrefix r true ++ nsnOf n) ext → isPossibleFromRegion Data.container s r = .ok true) := by
  have hv' := (C74_shipped n).2.2 ⟨r, hv⟩
  constructor
  · intro hex hs
    obtain ⟨pn, h, h1, h2, -⟩ := C80_bare n r hv hr hex s ext hs
    exact C81_valid n pn s r hv' h h1 h2
  · intro hu h1 hnp hex hs
    obtain ⟨pn, h, h1, h2, -⟩ := C80_prefix n r hv hr hu h1 hnp hex s ext hs
    exact C81_valid n pn s r hv' h h1 h2

-- a local number of seven digits is possible in the United States
example : isPossibleFromRegion Data.container (str!"253-0000") (str!"US") = .ok true ∧
    isPossibleFromRegion Data.container (str!"2530-000-0000000") (str!"US") = .ok false ∧
    isPossibleFromRegion Data.container (str!"dial me") (str!"US") = .ok false ∧
    isPossibleFromRegion Data.container (str!"+1 650 253 0000") (str!"ZZ") = .ok true := by
  refine ⟨?_, ?_, ?_, ?_⟩ <;> kernel_rfl
example : ∃ n, parse Data.container (str!"253-0000") (str!"US") = .ok (none, n) ∧ LengthListed n := by
  obtain ⟨b, h, hi⟩ := C81_iff (str!"253-0000") (str!"US")
  have hx : isPossibleFromRegion Data.container (str!"253-0000") (str!"US") = .ok true := by kernel_rfl
  rw [hx] at h
  cases h
  exact hi.1 rfl
example : isValidForRegion Data.container londonTyped (str!"GB") = .ok true ∧ isValidNumber Data.container londonTyped = .ok true ∧
    ¬ Ambiguous londonTyped ∧ ShortExt londonTyped 9 ∧ ¬ (londonTyped.nn = 0 ∧ londonTyped.raw ≠ []) := by
  refine ⟨?_, ?_, by decide +kernel, by unfold ShortExt; decide, by decide⟩ <;> kernel_rfl

end Verif.Props
