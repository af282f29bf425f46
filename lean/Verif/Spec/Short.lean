import Verif.Model.ShortNumber
import Verif.Regex.Lens
/-!
# Specification vocabulary for short numbers
-/
namespace Verif.Spec

/-- A number is one of those a description describes: its length is listed (an empty list allows every length) and the whole number
is in the language of the description's pattern, which must not be empty. -/
def ShortMatches (nsn : Str) (d : Option Desc) : Prop :=
  ∃ x p, d = some x ∧ (x.lengths = [] ∨ (nsn.length : Int) ∈ x.lengths) ∧ x.pattern = some p ∧ p.src ≠ [] ∧ p.re.Acc 0 nsn []

/-- Some prefix of the text is in the language of the pattern of the description. -/
def ShortPrefix (t : Str) (d : Desc) : Prop := ∃ p, d.pattern = some p ∧ p.src ≠ [] ∧ ∃ w e, t = w ++ e ∧ p.re.Acc 0 w e

/-- The whole text is in the language of the pattern of the description. -/
def ShortWhole (t : Str) (d : Desc) : Prop := ∃ p, d.pattern = some p ∧ p.src ≠ [] ∧ p.re.Acc 0 t []

/-- The general description exists and lists at least one length. -/
def shortGeneralOk (m : Metadata) : Bool :=
  match m.general with
  | some g => match g.lengths with | [] => false | _ :: _ => true
  | none => false

/-- Membership of an integer in a list, by `Nat.beq`. -/
def memInt (x : Nat) : List Int → Bool
  | [] => false
  | .ofNat y :: t => match Nat.beq x y with | true => true | false => memInt x t
  | .negSucc _ :: t => memInt x t

/-- Every length a short code of the entry can have is a length of the general description. -/
def shortCodeLengthsOk (m : Metadata) : Bool :=
  match m.general, m.shortCode with
  | some g, some c =>
    match (c.pattern.getD ⟨[], .eps⟩).re.lens with
    | some l => l.all fun x => memInt x g.lengths || (match c.lengths with | [] => false | _ :: _ => !memInt x c.lengths)
    | none => false
  | _, _ => true

end Verif.Spec
