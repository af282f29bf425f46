import Verif.Props.C42
import Verif.Props.C25
import Verif.Data.Wf
/-!
# C62: how the leniency levels are ordered
-/
namespace Verif.Props

theorem verifyCommon_cases {C : Container} {n : PhoneNumber} {s : Str} (h : verifyCommon C n s = .ok true) :
    isValidNumber C n = .ok true ∧ onlyValidX C n s = .ok true ∧ nationalPrefixPresent C n = true := by
  obtain ⟨v, hv, h⟩ := Builder.bind_ok.1 h
  cases v with
  | false => cases Except.ok.inj h
  | true =>
    obtain ⟨x, hx, h⟩ := Builder.bind_ok.1 h
    cases x with
    | false => cases Except.ok.inj h
    | true =>
      refine ⟨hv, hx, ?_⟩
      simp only [Bool.not_true, Bool.false_eq_true, if_false] at h
      split at h
      · cases Except.ok.inj h
      · exact Except.ok.inj h

/-- What STRICT_GROUPING or EXACT_GROUPING accepts, VALID accepts, for every metadata, number and text. -/
theorem C62_grouping_valid (C : Container) (alt : List Metadata) (n : PhoneNumber) (s : Str) (l : Leniency) (hl : l ≠ .possible)
    (h : l.verify C alt n s = .ok true) : Leniency.valid.verify C alt n s = .ok true := by
  have key : ∀ {checker : Go Bool}, (verifyCommon C n s >>= fun b => if (!b) = true then pure false else checker) = Except.ok true →
      Leniency.valid.verify C alt n s = .ok true := by
    intro checker h
    obtain ⟨v, hv, h⟩ := Builder.bind_ok.1 h
    cases v with
    | false => cases Except.ok.inj h
    | true =>
      obtain ⟨h1, h2, h3⟩ := verifyCommon_cases hv
      unfold Leniency.verify
      simp only [h1, h2, h3, bind, Except.bind, pure, Except.pure]
      rfl
  cases l with
  | possible => exact absurd rfl hl
  | valid => exact h
  | strictGrouping => exact key h
  | exactGrouping => exact key h

/-- What any level accepts POSSIBLE accepts, with the shipped metadata. -/
theorem C62_possible (alt : List Metadata) (n : PhoneNumber) (s : Str) (l : Leniency)
    (h : l.verify Data.container alt n s = .ok true) : Leniency.possible.verify Data.container alt n s = .ok true := by
  by_cases hl : l = .possible
  · rw [← hl]; exact h
  · exact C25_shipped n (verify_valid hl h)

/-- So everything that a search at any level finds is accepted by VALID and POSSIBLE as well, except that POSSIBLE finds may not be
valid. -/
theorem C62_found (alt : List Metadata) (text region : Str) (l : Leniency) (maxTries : Int) (ms : List FoundNumber) (c : Cursor)
    (h : Finder.findNumbers ⟨Data.container, alt, text, region, l⟩ maxTries = .ok (ms, c)) (m : FoundNumber) (hm : m ∈ ms) :
    ∃ n, parseKeepRaw Data.container m.raw region = .ok (none, n) ∧ m.number = Spec.Plain n ∧
      Leniency.possible.verify Data.container alt n m.raw = .ok true ∧
      (l ≠ .possible → Leniency.valid.verify Data.container alt n m.raw = .ok true) := by
  obtain ⟨_, _, _, _, _, n, hp, hv, he⟩ := Finder.parseAndVerify_some ((Finder.iterate_spec h).1 m hm).verified
  exact ⟨n, hp, he, C62_possible alt n m.raw l hv, fun hl => C62_grouping_valid _ alt n m.raw l hl hv⟩

/-- EXACT_GROUPING is not stricter than STRICT_GROUPING: a Brazilian number dialled with the carrier code 15 and the area code 15,
written together, is accepted by the former and refused by the latter, and so is found by a search at the former level only. -/
theorem C62_exact_not_strict : ∃ (n : PhoneNumber) (s : Str), parseKeepRaw Data.container s (str!"BR") = .ok (none, n) ∧
    Leniency.exactGrouping.verify Data.container Data.alt n s = .ok true ∧
    Leniency.strictGrouping.verify Data.container Data.alt n s = .ok false :=
  ⟨{ countryCode := some 55, nationalNumber := some 15912345678, rawInput := some (str!"01515 91234-5678"),
     countryCodeSource := some .defaultCountry, preferredCarrier := some (str!"15") }, (str!"01515 91234-5678"),
   by kernel_rfl, by kernel_rfl, by kernel_rfl⟩

/-- STRICT_GROUPING is not stricter than EXACT_GROUPING either. -/
theorem C62_strict_not_exact : ∃ (n : PhoneNumber) (s : Str), parseKeepRaw Data.container s (str!"US") = .ok (none, n) ∧
    Leniency.strictGrouping.verify Data.container Data.alt n s = .ok true ∧
    Leniency.exactGrouping.verify Data.container Data.alt n s = .ok false :=
  ⟨{ countryCode := some 1, nationalNumber := some 6502530000, rawInput := some (str!"650 2530000"),
     countryCodeSource := some .defaultCountry }, (str!"650 2530000"),
   by kernel_rfl, by kernel_rfl, by kernel_rfl⟩

/-- A number and a text that all levels accept. -/
example : ∀ l ∈ [Leniency.possible, .valid, .strictGrouping, .exactGrouping], (l.verify Data.container Data.alt
    { countryCode := some 1, nationalNumber := some 6502530000, rawInput := some (str!"650 253-0000"),
      countryCodeSource := some .defaultCountry } (str!"650 253-0000")).toOption = some true := by
  intro l hl
  simp only [List.mem_cons, List.not_mem_nil, or_false] at hl
  rcases hl with rfl | rfl | rfl | rfl <;> kernel_rfl

end Verif.Props
