import Verif.Lemmas.MatcherTotal
import Verif.Data.Alt
/-!
# C61: searching a text never panics
-/
namespace Verif.Props

/-- With the shipped metadata, whatever alternate formats are given, the search of any text for any region code, at any leniency
and with any limit of tries, runs to its end without a panic. -/
theorem C61_no_panic (alt : List Metadata) (text region : Str) (l : Leniency) (maxTries : Int) :
    ∃ ms c, Finder.findNumbers ⟨Data.container, alt, text, region, l⟩ maxTries = .ok (ms, c) := by
  obtain ⟨⟨ms, c⟩, h⟩ := Finder.iterate_ok (F := ⟨Data.container, alt, text, region, l⟩) rfl (text.length + 1) 0
    ⟨if maxTries < 0 then 0 else maxTries, 0, 0⟩
  exact ⟨ms, c, h⟩

/-- A check at any leniency level of a number that parsing returned, against the text it was parsed from, does not panic either, if
that text has no hyphen after a semicolon. -/
theorem C61_verify (alt : List Metadata) (s region : Str) (n : PhoneNumber) (l : Leniency)
    (h : parseKeepRaw Data.container s region = .ok (none, n)) (hs : ∀ a b, s = a ++ 59 :: b → 45 ∉ b) :
    ∃ b, l.verify Data.container alt n s = .ok b := by
  have h1 := parsed_cc h
  have h2 := parsed_length h
  exact verify_ok (parsed_hyphenFirst h hs) (by omega)

/-- The last hypothesis is needed: the check is exported, and a caller who hands it a number of their own with a raw input in which
the first hyphen follows the first semicolon gets a panic. The number is a valid one of Tajikistan, nine zeros. -/
theorem C61_verify_panics : ∃ (n : PhoneNumber) (s : Str), isValidNumber Data.container n = .ok true ∧
    (Leniency.strictGrouping.verify Data.container Data.alt n s).toOption = none := by
  refine ⟨{ countryCode := some 992, nationalNumber := some 0, italianLeadingZero := some true, numberOfLeadingZeros := some 8,
            rawInput := some (str!";-") }, (str!"+992000000000"), by kernel_rfl, by kernel_rfl⟩

/-- The theorem is about searches that do find numbers. -/
noncomputable def C61_case : Finder := ⟨Data.container, Data.alt, (str!"call (650) 253-0000; or 12/34 +41 44 668 18 00!"), (str!"US"), .exactGrouping⟩

example : ((C61_case.findNumbers 9).toOption.map fun r => r.1.map (·.raw)) =
    some [(str!"(650) 253-0000"), (str!"+41 44 668 18 00")] := by kernel_rfl

end Verif.Props
