import Verif.Props.C07
/-!
# C11: re-using a message with `ParseToNumber` (false as stated)

Full statement: after a successful `ParseToNumber(s, r, n)` the message equals what a fresh `Parse(s, r)` produces, whatever
`n` held before.  It is **false**: extension, number of leading zeros, raw input, country code source and carrier code of the
old message survive.  `C11_false` gives a witness on the shipped metadata; `C11_exact_partial` says exactly which fields survive
and when, and `C11_clean_partial` is the full statement for messages without such leftovers.
-/
namespace Verif.Props

/-- A message that held an extension keeps it when a number without extension is parsed into it. -/
theorem C11_false : ¬ ∀ (s region : Str) (pn n : PhoneNumber),
    parseToNumber Data.container s region pn = .ok (none, n) → parse Data.container s region = .ok (none, n) := by
  intro h
  have h1 : parseToNumber Data.container (str!"+41446681800") (str!"US") { extension := some (str!"12") } =
      .ok (none, { countryCode := some 41, nationalNumber := some 446681800, extension := some (str!"12") }) := by kernel_rfl
  have h2 : parse Data.container (str!"+41446681800") (str!"US") =
      .ok (none, { countryCode := some 41, nationalNumber := some 446681800 }) := by kernel_rfl
  have h3 := h _ _ _ _ h1
  rw [h2] at h3
  cases h3

/-- The leftover that changes the number itself: a stale number of leading zeros turns NSN 0236618300 into 000236618300. -/
theorem C11_false_zeros : ∃ (s region : Str) (pn n fresh : PhoneNumber),
    parseToNumber Data.container s region pn = .ok (none, n) ∧ parse Data.container s region = .ok (none, fresh) ∧
    nsnOf n ≠ nsnOf fresh := by
  refine ⟨str!"+390236618300", str!"IT", { numberOfLeadingZeros := some 3 },
    { countryCode := some 39, nationalNumber := some 236618300, italianLeadingZero := some true, numberOfLeadingZeros := some 3 },
    { countryCode := some 39, nationalNumber := some 236618300, italianLeadingZero := some true }, ?_, ?_, ?_⟩
  · kernel_rfl
  · kernel_rfl
  · decide +kernel

/-- Exactly what survives from the old message `pn`: the extension and the number of leading zeros when the fresh parse sets
none, and always the raw input, its source and the carrier code. -/
theorem C11_exact_partial (C : Container) (s region : Str) (pn : PhoneNumber) :
    SameOutcome (fun n fresh =>
        n.countryCode = fresh.countryCode ∧ n.nationalNumber = fresh.nationalNumber ∧
        n.italianLeadingZero = fresh.italianLeadingZero ∧
        n.extension = fresh.extension.or pn.extension ∧
        n.numberOfLeadingZeros = fresh.numberOfLeadingZeros.or pn.numberOfLeadingZeros ∧
        n.rawInput = pn.rawInput ∧ n.countryCodeSource = pn.countryCodeSource ∧ n.preferredCarrier = pn.preferredCarrier)
      (parseToNumber C s region pn) (parse C s region) := by
  refine SameOutcome.of_core fun o => ?_
  unfold ParseOut.apply setItalianLeadingZeros
  refine ⟨rfl, rfl, ?_, ?_, ?_, rfl, rfl, ?_⟩
  · split
    · rfl
    · dsimp only; split <;> rfl
  · by_cases h : o.ext = [] <;> simp [h]
  · split
    · rfl
    · dsimp only; split <;> simp
  · simp

/-- The full statement for an old message without extension, leading-zero count, raw input, source and carrier code (whatever
country code, national number and leading-zero flag it holds). -/
theorem C11_clean_partial (C : Container) (s region : Str) (pn : PhoneNumber) (h1 : pn.extension = none)
    (h2 : pn.numberOfLeadingZeros = none) (h3 : pn.rawInput = none) (h4 : pn.countryCodeSource = none)
    (h5 : pn.preferredCarrier = none) :
    SameOutcome (fun n fresh => n = fresh) (parseToNumber C s region pn) (parse C s region) := by
  refine SameOutcome.of_core fun o => ?_
  unfold ParseOut.apply setItalianLeadingZeros
  cases pn
  simp only at h1 h2 h3 h4 h5
  subst h1 h2 h3 h4 h5
  split
  · rfl
  · by_cases h : countZeros o.nsn o.nsn.length 1 = 1 <;> simp only [h, ne_eq, not_true_eq_false, not_false_eq_true, if_true, if_false]

example : parseToNumber Data.container (str!"+41446681800") (str!"US")
      { countryCode := some 1, nationalNumber := some 5, italianLeadingZero := some true } =
    .ok (none, { countryCode := some 41, nationalNumber := some 446681800 }) := by kernel_rfl

end Verif.Props
