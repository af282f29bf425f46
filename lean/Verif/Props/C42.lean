import Verif.Lemmas.Matcher
import Verif.Data.Shipped
import Verif.Data.Alt
/-!
# C42: the numbers found in a text respect the leniency asked for
-/
namespace Verif.Props
open Verif.Spec

theorem verify_possible {C : Container} {alt : List Metadata} {n : PhoneNumber} {s : Str}
    (h : Leniency.possible.verify C alt n s = .ok true) : isPossibleNumber C n = .ok true := h

theorem verifyCommon_valid {C : Container} {n : PhoneNumber} {s : Str} (h : verifyCommon C n s = .ok true) :
    isValidNumber C n = .ok true := by
  obtain ⟨v, hv, h⟩ := Builder.bind_ok.1 h
  cases v with
  | true => exact hv
  | false => cases Except.ok.inj h

theorem verify_valid {C : Container} {alt : List Metadata} {n : PhoneNumber} {s : Str} {l : Leniency} (hl : l ≠ .possible)
    (h : l.verify C alt n s = .ok true) : isValidNumber C n = .ok true := by
  cases l with
  | possible => exact absurd rfl hl
  | valid =>
    obtain ⟨v, hv, h⟩ := Builder.bind_ok.1 h
    cases v with
    | true => exact hv
    | false => cases Except.ok.inj h
  | strictGrouping =>
    obtain ⟨v, hv, h⟩ := Builder.bind_ok.1 h
    cases v with
    | true => exact verifyCommon_valid hv
    | false => cases Except.ok.inj h
  | exactGrouping =>
    obtain ⟨v, hv, h⟩ := Builder.bind_ok.1 h
    cases v with
    | true => exact verifyCommon_valid hv
    | false => cases Except.ok.inj h

/-- For every text, region and limit: what is found at leniency POSSIBLE is a possible number. -/
theorem C42_possible (F : Finder) (maxTries : Int) (ms : List FoundNumber) (c : Cursor)
    (h : F.findNumbers maxTries = .ok (ms, c)) (hl : F.leniency = .possible) (m : FoundNumber) (hm : m ∈ ms) :
    isPossibleNumber F.C m.number = .ok true := by
  obtain ⟨_, _, _, _, _, n, _, hv, he⟩ := Finder.parseAndVerify_some ((Finder.iterate_spec h).1 m hm).verified
  rw [hl] at hv
  rw [he]
  exact verify_possible (n := n) (alt := F.alt) (s := m.raw) hv

/-- For every text, region and limit: what is found at leniency VALID or stricter is a valid number. -/
theorem C42_valid (F : Finder) (maxTries : Int) (ms : List FoundNumber) (c : Cursor)
    (h : F.findNumbers maxTries = .ok (ms, c)) (hl : F.leniency ≠ .possible) (m : FoundNumber) (hm : m ∈ ms) :
    isValidNumber F.C m.number = .ok true := by
  obtain ⟨_, _, _, _, _, n, _, hv, he⟩ := Finder.parseAndVerify_some ((Finder.iterate_spec h).1 m hm).verified
  rw [he]
  exact verify_valid (n := n) (alt := F.alt) (s := m.raw) hl hv

/-- And at every leniency the number is the one that `ParseAndKeepRawInput` reads from the matched piece of text alone, without the
raw input, the source of the country code and the carrier code. -/
theorem C42_number (F : Finder) (maxTries : Int) (ms : List FoundNumber) (c : Cursor)
    (h : F.findNumbers maxTries = .ok (ms, c)) (m : FoundNumber) (hm : m ∈ ms) :
    ∃ n, parseKeepRaw F.C m.raw F.region = .ok (none, n) ∧ m.number = Plain n := by
  obtain ⟨_, hr, _, _, _, n, hp, _, he⟩ := Finder.parseAndVerify_some ((Finder.iterate_spec h).1 m hm).verified
  exact ⟨n, hp, he⟩

/-- The number 253-0000 is possible but not valid in the US; it is found at POSSIBLE only. -/
noncomputable def C42_case (l : Leniency) : Finder :=
  ⟨Data.container, Data.alt, (str!"Call 253-0000 or 650 253 0000"), (str!"US"), l⟩

example : (((C42_case .possible).findNumbers 10).toOption.map fun r => r.1.map fun m => (m.number.cc, m.number.nn)) =
    some [(1, 2530000), (1, 6502530000)] := by kernel_rfl

example : (((C42_case .valid).findNumbers 10).toOption.map fun r => r.1.map fun m => (m.number.cc, m.number.nn)) =
    some [(1, 6502530000)] := by kernel_rfl

end Verif.Props
