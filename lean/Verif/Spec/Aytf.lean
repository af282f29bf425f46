import Verif.Spec.Chars
import Verif.Model.Aytf
/-!
# What a user of the as-you-type formatter does and sees
-/
namespace Verif.Spec

/-- The plus signs: `+` and the full-width `＋`. -/
def IsPlus (u : Nat) : Prop := u = '+'.toNat ∨ u = '＋'.toNat

instance : DecidablePred IsPlus := fun u => by unfold IsPlus; infer_instance

/-- The keys `*` and `#`. -/
def IsStarHash (u : Nat) : Prop := u = '*'.toNat ∨ u = '#'.toNat

instance : DecidablePred IsStarHash := fun u => by unfold IsStarHash; infer_instance

/-- `DialTranscript s t`: `t` lists, in order, what a phone would dial for the text `s`: its decimal digits (of any script, as ASCII
digits), plus signs (as `+`), stars and hashes, and nothing else. -/
inductive DialTranscript : Str → Str → Prop
  | nil : DialTranscript [] []
  | digit {u v : Nat} {s t : Str} (h : UnicodeDigit (rune u) v) (r : DialTranscript s t) :
      DialTranscript (u :: s) (('0'.toNat + v) :: t)
  | plus {u : Nat} {s t : Str} (h : IsPlus u) (r : DialTranscript s t) : DialTranscript (u :: s) ('+'.toNat :: t)
  | key {u : Nat} {s t : Str} (h : IsStarHash u) (r : DialTranscript s t) : DialTranscript (u :: s) (u :: t)
  | other {u : Nat} {s t : Str} (h1 : ∀ v, ¬ UnicodeDigit (rune u) v) (h2 : ¬ IsPlus u) (h3 : ¬ IsStarHash u)
      (r : DialTranscript s t) : DialTranscript (u :: s) t

/-- The character written for a Go rune argument: U+FFFD for an `int32` that is not a Unicode scalar value. -/
def typedChar (c : Int) : Nat :=
  if 0 ≤ c ∧ c < 0x110000 ∧ ¬ (0xD800 ≤ c ∧ c ≤ 0xDFFF) then c.toNat else 0xFFFD

/-- The `i`-th typed character does not force formatting off: it is a decimal digit of any script, or a plus sign typed
first. -/
def Phoneish (first : Bool) (u : Nat) : Prop := (∃ v, UnicodeDigit u v) ∨ (first = true ∧ IsPlus u)

/-- Everything typed is a digit, except that the first character may be a plus sign. -/
def PhoneInput (s : Str) : Prop := ∀ i u, s[i]? = some u → Phoneish (i == 0) u

/-- One call on a formatter: `InputDigit`, `InputDigitAndRememberPosition`, or `Clear`. -/
inductive Call
  | input (c : Int)
  | remember (c : Int)
  | clear
  deriving DecidableEq, Repr

/-- The formatter after a call; `none` if the call panics. -/
def call (C : Container) (a : Aytf) : Call → Go Aytf
  | .input c => do return (← a.input C c false).1
  | .remember c => do return (← a.input C c true).1
  | .clear => .ok (a.clear C)

/-- A sequence of calls. -/
def calls (C : Container) : Aytf → List Call → Go Aytf
  | a, [] => .ok a
  | a, k :: ks => do calls C (← call C a k) ks

/-- What the program sees of a sequence of calls: the value returned by every call (`""` for `Clear`), and after every call what
`GetRememberedPosition` returns. -/
def seen (C : Container) : Aytf → List Call → Go (List (Str × Go Nat))
  | _, [] => .ok []
  | a, k :: ks => do
    let b ← call C a k
    return (b.currentOutput, b.position) :: (← seen C b ks)

/-- What was typed since the last `Clear`. -/
def typedFrom : Str → List Call → Str
  | s, [] => s
  | s, .input c :: ks => typedFrom (s ++ [typedChar c]) ks
  | s, .remember c :: ks => typedFrom (s ++ [typedChar c]) ks
  | _, .clear :: ks => typedFrom [] ks

/-- What was typed since the last `Clear`, from a fresh formatter. -/
def typed (ks : List Call) : Str := typedFrom [] ks

/-- The calls that type a string, one `InputDigit` per character. -/
def typeAll (s : Str) : List Call := s.map fun (u : Nat) => .input (u : Int)

/-- The output after a sequence of calls on a fresh formatter; `none` if a call panics. -/
def outputOf (C : Container) (region : Str) (ks : List Call) : Option Str :=
  (calls C (Aytf.new C region) ks).toOption.map (·.currentOutput)

end Verif.Spec
