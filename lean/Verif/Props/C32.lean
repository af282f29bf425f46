import Verif.Props.C33
import Verif.Props.C06
/-!
# C32: matching is symmetric
-/
namespace Verif.Props

/-- Matching two numbers is symmetric. -/
theorem C32_numbers (a b : PhoneNumber) : numberMatch a b = numberMatch b a := by
  have s1 : SameIdentity a b ↔ SameIdentity b a := ⟨SameIdentity.symm, SameIdentity.symm⟩
  have s2 : SameIdentity { a with countryCode := none } { b with countryCode := none } ↔
      SameIdentity { b with countryCode := none } { a with countryCode := none } := ⟨SameIdentity.symm, SameIdentity.symm⟩
  have e1 : (a.ext ≠ [] ∧ b.ext ≠ [] ∧ a.ext ≠ b.ext) ↔ (b.ext ≠ [] ∧ a.ext ≠ [] ∧ b.ext ≠ a.ext) := by
    constructor <;> exact fun h => ⟨h.2.1, h.1, h.2.2.symm⟩
  have c1 : (a.cc ≠ 0 ∧ b.cc ≠ 0) ↔ (b.cc ≠ 0 ∧ a.cc ≠ 0) := And.comm
  have o1 : (dec b.nn <:+ dec a.nn ∨ dec a.nn <:+ dec b.nn) ↔ (dec a.nn <:+ dec b.nn ∨ dec b.nn <:+ dec a.nn) := Or.comm
  rw [numberMatch_eq, numberMatch_eq]
  simp only [s1, s2, e1, c1, o1, eq_comm (a := a.cc)]

/-- A number matches itself exactly when it has a country code, and otherwise up to the country code. -/
theorem C32_refl (n : PhoneNumber) : numberMatch n n = if n.countryCode.getD 0 ≠ 0 then .exactMatch else .nsnMatch := by
  have hs : ∀ n : PhoneNumber, SameIdentity n n := fun n => ⟨rfl, rfl, rfl, rfl, fun _ => rfl⟩
  split
  · exact (C33_iff n n).2 ⟨hs n, ‹_›⟩
  · refine (C33_nsn_iff n n).2 ⟨?_, hs _⟩
    unfold PhoneNumber.cc; omega

/-- Matching two strings is symmetric, whenever parsing does not panic (C06). -/
theorem C32_strings (C : Container) (hC : C.allMeta.all Spec.hasGeneralLengths = true) (s t : Str) :
    numberMatchStrings C s t = numberMatchStrings C t s := by
  have ok : ∀ s region check, ∃ r, parseHelper C s region false check {} = .ok r := fun s region check =>
    parseHelper_ok hC s region false check {}
  obtain ⟨⟨es, ns⟩, hs⟩ := ok s unknownRegion true
  obtain ⟨⟨et, nt⟩, ht⟩ := ok t unknownRegion true
  obtain ⟨⟨es', ns'⟩, hs'⟩ := ok s [] false
  obtain ⟨⟨et', nt'⟩, ht'⟩ := ok t [] false
  have hs : parse C s unknownRegion = .ok (es, ns) := hs
  have ht : parse C t unknownRegion = .ok (et, nt) := ht
  unfold numberMatchStrings
  simp only [hs, ht, bind, Except.bind, hs', ht', pure, Except.pure]
  cases es with
  | none =>
    cases et with
    | none => simp only [numberMatchOne, hs, ht, bind, Except.bind, C32_numbers ns nt]
    | some e =>
      by_cases he : e = .invalidCountryCode
      · subst he; simp
      · simp only [numberMatchOne, ht, bind, Except.bind, pure, Except.pure]
  | some e =>
    by_cases he : e = .invalidCountryCode
    · subst he
      cases et with
      | none => simp
      | some e2 =>
        by_cases he2 : e2 = .invalidCountryCode
        · subst he2
          simp only
          cases es' <;> cases et' <;> simp only [C32_numbers ns' nt']
        · cases e2 <;> first | rfl | exact absurd rfl he2
    · cases et with
      | none =>
        simp only [numberMatchOne, hs, bind, Except.bind, pure, Except.pure]
      | some e2 => cases e <;> cases e2 <;> first | rfl | exact absurd rfl he

/-- The shipped metadata: unconditional. -/
theorem C32_shipped (s t : Str) : numberMatchStrings Data.container s t = numberMatchStrings Data.container t s :=
  C32_strings _ Data.wf_generalLengths s t

example : numberMatchStrings Data.container (str!"+64 3 331-6005") (str!"03 331 6005") = .ok .nsnMatch := by kernel_rfl
example : numberMatchStrings Data.container (str!"3 331-6005") (str!"331 6005") = .ok .shortNsnMatch := by kernel_rfl
example : numberMatchStrings Data.container (str!"+64 3 331-6005") (str!"+64 3 331-6005#123") = .ok .shortNsnMatch := by kernel_rfl

end Verif.Props
