import Verif.Model.PhoneParser
import Verif.Props.C97
import Verif.Props.C26
import Verif.Lemmas.MatcherTotal
/-!
# C98: the command `phoneparser` answers every call
-/
namespace Verif.Props
open Verif Spec

/-- A line of the output. -/
def line98 (label value : Str) : Str := label ++ value ++ [10]

/-- The command never panics, whatever the arguments; its status is 0 exactly if there are a number and a region, and the number parses. -/
theorem C98_total (args : List Str) : ∃ out st, phoneparser Data.container args = .ok (out, st) ∧
    (st = 0 ∨ st = 1) ∧ (st = 0 ↔ ∃ prog text region n, args = [prog, text, region] ∧ parse Data.container text region = .ok (none, n)) := by
  unfold phoneparser
  split
  · rename_i prog text region
    obtain ⟨e, n, hp⟩ := (C06_shipped text region).1
    simp only [hp, bind, Except.bind]
    cases e with
    | some e =>
      refine ⟨_, _, rfl, .inr rfl, ?_⟩
      constructor
      · intro h; cases h
      · rintro ⟨_, _, _, n', he, h⟩
        cases he
        rw [hp] at h
        cases h
    | none =>
      obtain ⟨o, h1, rfl⟩ := parse_core_of_ok hp
      obtain ⟨v, hv⟩ := isValidNumber_ok (o.apply text false {})
      simp only [show (o.apply text false {}).nationalNumber = some (parseUint o.nsn) from rfl, hv]
      exact ⟨_, _, rfl, .inl rfl, fun _ => ⟨prog, text, region, _, rfl, hp⟩, fun _ => rfl⟩
  · rename_i hne
    refine ⟨_, _, rfl, .inr rfl, ?_⟩
    constructor
    · intro h; cases h
    · rintro ⟨p, t, r, n, rfl, -⟩
      exact absurd rfl (hne p t r)

/-- What it prints for a number that parses: the E164 form, the NATIONAL form, the national number in decimal digits and whether the
number is valid. -/
theorem C98_output (prog text region : Str) (n : PhoneNumber) (h : parse Data.container text region = .ok (none, n)) :
    ∃ valid, isValidNumber Data.container n = .ok valid ∧ phoneparser Data.container [prog, text, region] =
      .ok (line98 (str!"            E164: ") ('+'.toNat :: (decimal n.cc.toNat ++ nsnOf n)) ++
        line98 (str!"National Dialing: ") (format Data.container n .national) ++
        line98 (str!"        National: ") (decimal n.nn) ++
        line98 (str!"         IsValid: ") (if valid then str!"true" else str!"false"), 0) := by
  obtain ⟨v, hv⟩ := isValidNumber_ok n
  refine ⟨v, hv, ?_⟩
  obtain ⟨k1, k2⟩ := parse_facts h
  have hc := (prefixFree_spec prefixFree_shipped k1).1
  have hnn : n.nationalNumber = some n.nn := by
    obtain ⟨o, h1, rfl⟩ := parse_core_of_ok h
    rfl
  unfold phoneparser
  simp only [h, bind, Except.bind, hnn, hv, pure, Except.pure, C15_shape Data.container n (by omega) k2, line98, formatBool, dec_eq_decimal, List.append_assoc]

/-- What it prints otherwise; every error has its own text. -/
theorem C98_error (prog text region : Str) (e : ParseErr) (n : PhoneNumber) (h : parse Data.container text region = .ok (some e, n)) :
    phoneparser Data.container [prog, text, region] = .ok (line98 (str!"Error parsing number: ") (errText e), 1) ∧
    ∀ e', errText e = errText e' → e = e' := by
  refine ⟨?_, by cases e <;> intro e' <;> cases e' <;> decide⟩
  unfold phoneparser
  simp only [h, bind, Except.bind, pure, Except.pure, line98]

/-- Calling it again with the E164 form it printed for a valid number, for any region, prints the same. -/
theorem C98_again (prog text region region' : Str) (n : PhoneNumber) (h : parse Data.container text region = .ok (none, n))
    (hv : isValidNumber Data.container n = .ok true) (hex : ¬ Ambiguous n) (hx : n.extension = none) :
    phoneparser Data.container [prog, format Data.container n .e164, region'] = phoneparser Data.container [prog, text, region] := by
  have := C97_fixed text region n h hv hex ⟨by rw [hx]; simp, by rw [hx]; simp⟩ .e164 (.inr (.inr ⟨rfl, by rw [hx]; rfl⟩)) region'
  unfold phoneparser
  simp only [h, this]

example : phoneparser Data.container [(str!"phoneparser"), (str!"044 668 18 00"), (str!"CH")] =
    .ok (str!"            E164: +41446681800\nNational Dialing: 044 668 18 00\n        National: 446681800\n         IsValid: true\n", 0) := by
  kernel_rfl
example : phoneparser Data.container [(str!"phoneparser"), (str!"12"), (str!"XX")] =
    .ok (str!"Error parsing number: invalid country code\n", 1) := by kernel_rfl
example : ∃ n, parse Data.container (str!"044 668 18 00") (str!"CH") = .ok (none, n) ∧ isValidNumber Data.container n = .ok true ∧
    ¬ Ambiguous n ∧ n.extension = none :=
  ⟨{ countryCode := some 41, nationalNumber := some 446681800 }, by kernel_rfl, by kernel_rfl, by decide +kernel, rfl⟩

end Verif.Props
