import Verif.Model.Nsn
import Verif.Lemmas.Dec
/-!
# C04: GetNationalSignificantNumber is total and has a fixed shape
-/
namespace Verif.Props
open Spec

/-- Number of zeros in front: none unless the Italian-leading-zero flag is set, then the recorded count, at least 0 and at
most 17. -/
def leadingZeros (n : PhoneNumber) : Nat :=
  if n.italianLeadingZero = some true then
    min 17 (match n.numberOfLeadingZeros with | some k => k.toNat | none => 1)
  else 0

theorem nsnOf_eq (n : PhoneNumber) : nsnOf n = List.replicate (leadingZeros n) 48 ++ dec n.nn := by
  unfold nsnOf leadingZeros PhoneNumber.ilz PhoneNumber.nlz
  cases h1 : n.italianLeadingZero with
  | none => simp
  | some b =>
    cases b with
    | false => simp
    | true =>
      cases h2 : n.numberOfLeadingZeros with
      | none => simp [maxLengthForNSN]
      | some k =>
        simp only [Option.getD_some]
        by_cases hk : k > 0
        · by_cases h3 : k > (maxLengthForNSN : Int)
          · have : min 17 k.toNat = 17 := by simp only [maxLengthForNSN] at h3; omega
            simp [hk, h3, this]; rfl
          · have : min 17 k.toNat = k.toNat := by simp only [maxLengthForNSN] at h3; omega
            simp [hk, h3, this]
        · have : k.toNat = 0 := by omega
          simp [hk, this]

/-- For every message, the result is at most 17 zeros followed by the decimal national number. -/
theorem C04_shape (n : PhoneNumber) :
    nsnOf n = List.replicate (leadingZeros n) '0'.toNat ++ decimal (n.nationalNumber.getD 0) ∧ leadingZeros n ≤ 17 := by
  refine ⟨by rw [nsnOf_eq, dec_eq_decimal]; rfl, ?_⟩
  unfold leadingZeros; split <;> omega

/-- For every message (the national number is a 64-bit value) the result has between 1 and 37 characters. -/
theorem C04_length (n : PhoneNumber) (h : n.nationalNumber.getD 0 < 2 ^ 64) :
    1 ≤ (nsnOf n).length ∧ (nsnOf n).length ≤ 37 := by
  have h1 := (C04_shape n).2
  have h2 : (dec n.nn).length ≤ 20 := (length_dec_le (by omega)).2 (by unfold PhoneNumber.nn; omega)
  have h3 : (dec n.nn).length ≠ 0 := fun h => dec_ne_nil n.nn (List.length_eq_zero_iff.mp h)
  rw [nsnOf_eq]; simp; omega

/-- All characters are ASCII digits. -/
theorem C04_digits (n : PhoneNumber) : AllDigits (nsnOf n) := by
  intro u hu
  rw [nsnOf_eq] at hu
  rcases List.mem_append.mp hu with h | h
  · have := List.eq_of_mem_replicate h; subst this; decide
  · exact (isDig_iff u).1 (dec_digits _ u h)

/-- The hostile count of upstream issue reports: a huge number of leading zeros is capped. -/
example : nsnOf { countryCode := some 39, nationalNumber := some 236618300, italianLeadingZero := some true,
                  numberOfLeadingZeros := some 1000000000 } = str!"00000000000000000236618300" := by decide +kernel
example : nsnOf { nationalNumber := some (2 ^ 64 - 1), italianLeadingZero := some true, numberOfLeadingZeros := some (-3) }
    = str!"18446744073709551615" := by decide +kernel

end Verif.Props
