import Verif.Model.Parse
import Verif.Model.Format
/-!
# The command `phoneparser` (cmd/phoneparser/main.go)
-/
namespace Verif

/-- errors.go 14-17, phonenumberutil.go 2716-2718: the texts of the errors of parsing. -/
def errText : ParseErr → Str
  | .notANumber => str!"the phone number supplied is not a number"
  | .invalidCountryCode => str!"invalid country code"
  | .tooShortNsn => str!"the string supplied is too short to be a phone number"
  | .tooShortAfterIdd => str!"phone number had an IDD, but after this was not long enough to be a viable phone number"
  | .tooLong => str!"the string supplied is too long to be a phone number"

/-- `strconv.FormatBool`. -/
def formatBool (b : Bool) : Str := if b then str!"true" else str!"false"

/-- cmd/phoneparser/main.go 11-27: `main`.  `args` is `os.Args`; the result is what is written to the standard output, and the exit
status.  Dereferencing `num.NationalNumber` panics if it is not set. -/
def phoneparser (C : Container) (args : List Str) : Go (Str × Nat) :=
  match args with
  | [_, text, region] => do
    let (e, n) ← parse C text region
    match e with
    | some e => return (str!"Error parsing number: " ++ errText e ++ [10], 1)
    | none =>
      match n.nationalNumber with
      | none => .error .nilDeref
      | some v => do
        let valid ← isValidNumber C n
        return (str!"            E164: " ++ format C n .e164 ++ [10] ++ str!"National Dialing: " ++ format C n .national ++ [10] ++
          str!"        National: " ++ dec v ++ [10] ++ str!"         IsValid: " ++ formatBool valid ++ [10], 0)
  | _ => .ok (str!"usage: phoneparser [number] [two letter country]" ++ [10], 1)

end Verif
