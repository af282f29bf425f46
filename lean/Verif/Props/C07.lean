import Verif.Lemmas.ParseCore
import Verif.Data.Shipped
/-!
# C07: keeping the raw input does not change the parsed number
-/
namespace Verif.Props

/-- Two parse outcomes agree: both panic alike, both fail with the same error, or both succeed with results related by `R`. -/
def SameOutcome (R : PhoneNumber → PhoneNumber → Prop) (a b : Go (Option ParseErr × PhoneNumber)) : Prop :=
  match a, b with
  | .ok (none, n), .ok (none, n') => R n n'
  | .ok (some e, _), .ok (some e', _) => e = e'
  | .error p, .error p' => p = p'
  | _, _ => False

/-- The parsed number proper: everything but the record of how it was written. -/
def SameNumber (n n' : PhoneNumber) : Prop :=
  n.countryCode = n'.countryCode ∧ n.nationalNumber = n'.nationalNumber ∧ n.extension = n'.extension ∧
  n.italianLeadingZero = n'.italianLeadingZero ∧ n.numberOfLeadingZeros = n'.numberOfLeadingZeros

theorem SameOutcome.of_core {C : Container} {s region : Str} {check : Bool} {k k' : Bool} {pn pn' : PhoneNumber}
    {R : PhoneNumber → PhoneNumber → Prop} (h : ∀ o : ParseOut, R (o.apply s k pn) (o.apply s k' pn')) :
    SameOutcome R (parseHelper C s region k check pn) (parseHelper C s region k' check pn') := by
  have h1 := parseHelper_core C s region k check pn
  have h2 := parseHelper_core C s region k' check pn'
  cases hc : parseCore C s region check with
  | error p => rw [hc] at h1 h2; simp only [Refines] at h1 h2; rw [h1, h2]; rfl
  | ok r =>
    rw [hc] at h1 h2
    cases r with
    | error e =>
      obtain ⟨n1, h1⟩ := h1
      obtain ⟨n2, h2⟩ := h2
      rw [h1, h2]; rfl
    | ok o => simp only [Refines] at h1 h2; rw [h1, h2]; exact h o

/-- `Parse` and `ParseAndKeepRawInput` succeed on the same inputs, fail with the same errors, agree on the number, and the
latter records exactly the input while the former records none. -/
theorem C07_same (C : Container) (s region : Str) :
    SameOutcome (fun n n' => SameNumber n n' ∧ n.rawInput = none ∧ n.countryCodeSource = none ∧ n'.rawInput = some s)
      (parse C s region) (parseKeepRaw C s region) := by
  refine SameOutcome.of_core fun o => ?_
  refine ⟨⟨rfl, rfl, rfl, ?_, ?_⟩, rfl, rfl, rfl⟩ <;> rfl

/-- The same when parsing into an existing message: the raw-keeping variant differs only in the record of the input. -/
theorem C07_reuse (C : Container) (s region : Str) (pn : PhoneNumber) :
    SameOutcome (fun n n' => SameNumber n n' ∧ n.rawInput = pn.rawInput ∧ n'.rawInput = some s)
      (parseToNumber C s region pn) (parseKeepRawToNumber C s region pn) := by
  refine SameOutcome.of_core fun o => ?_
  refine ⟨⟨rfl, rfl, rfl, ?_, ?_⟩, rfl, rfl⟩ <;> rfl

/-- Both succeed on a real number … -/
example : parse Data.container (str!"+41 44 668 1800") (str!"US") =
    .ok (none, { countryCode := some 41, nationalNumber := some 446681800 }) := by kernel_rfl
example : parseKeepRaw Data.container (str!"+41 44 668 1800") (str!"US") =
    .ok (none, { countryCode := some 41, nationalNumber := some 446681800
                 rawInput := some (str!"+41 44 668 1800"), countryCodeSource := some .withPlusSign }) := by kernel_rfl
/-- … and fail alike on another. -/
example : parseKeepRaw Data.container (str!"+00 123456") (str!"ZZ") =
    .ok (some .invalidCountryCode, { countryCode := some 0, rawInput := some (str!"+00 123456")
                                     countryCodeSource := some .defaultCountry }) := by kernel_rfl

end Verif.Props
