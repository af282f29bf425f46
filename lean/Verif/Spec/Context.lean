import Verif.Unicode
import Verif.Spec.Basic
import Verif.Spec.Extract
/-!
# Specification: the phone-context parameter of a tel URI (RFC 3966)

The code allows decimal digits of any script where RFC 3966 has ASCII digits.
-/
namespace Verif.Spec

/-- A decimal digit of any script. -/
def isAnyDigit (u : Nat) : Bool := inRanges ndTable (rune u)

/-- An ASCII letter. -/
def isLetter (u : Nat) : Bool := decide ('a'.toNat ≤ u ∧ u ≤ 'z'.toNat) || decide ('A'.toNat ≤ u ∧ u ≤ 'Z'.toNat)

/-- A letter or a digit. -/
def isAlnum (u : Nat) : Bool := isLetter u || isAnyDigit u

/-- One of `-`, `.`, `(`, `)`. -/
def isVisual (u : Nat) : Bool := decide (u ∈ str!"-.()")

/-- global-number-digits: a plus sign, then digits and visual separators with at least one digit. -/
def GlobalDigits (s : Str) : Prop :=
  ∃ b, s = '+'.toNat :: b ∧ (∀ u ∈ b, isAnyDigit u = true ∨ isVisual u = true) ∧ ∃ u ∈ b, isAnyDigit u = true

/-- A label of a domain name: letters, digits and hyphens, with no hyphen at the beginning or at the end; `first` is what it may
begin with. -/
def Label (first : Nat → Bool) (s : Str) : Prop :=
  (∀ u ∈ s, isAlnum u = true ∨ u = '-'.toNat) ∧ (∃ u t, s = u :: t ∧ first u = true) ∧ (∃ t u, s = t ++ [u] ∧ isAlnum u = true)

/-- domainname: labels separated by full stops, the last of which begins with a letter, and possibly a full stop at the end. -/
def Domain (s : Str) : Prop :=
  ∃ (ls : List Str) (top dot : Str), s = (ls.map (· ++ ['.'.toNat])).flatten ++ top ++ dot ∧ (∀ l ∈ ls, Label isAlnum l) ∧
    Label isLetter top ∧ (dot = [] ∨ dot = ['.'.toNat])

/-- What precedes the first `c`. -/
def upTo (c : Nat) : Str → Str
  | [] => []
  | u :: t => if u = c then [] else u :: upTo c t

/-- `p` does not occur in `s`. -/
def NotIn (p s : Str) : Prop := ¬ ∃ a b, s = a ++ p ++ b

/-- What follows the first `p`, everything if there is none. -/
inductive After (p : Str) : Str → Str → Prop
  | none {s : Str} (h : NotIn p s) : After p s s
  | some {a b : Str} (h : NotIn p a) : After p (a ++ p ++ b) b

/-- What precedes the first `p` when that is not at the very beginning, otherwise everything. -/
inductive Upto (p : Str) : Str → Str → Prop
  | none {s : Str} (h : NotIn p s) : Upto p s s
  | start {b : Str} : Upto p (p ++ b) (p ++ b)
  | some {a b : Str} (h : NotIn p a) (h0 : a ≠ []) : Upto p (a ++ p ++ b) a

/-- The syntax of a context. -/
def ValidContext (ctx : Str) : Prop := GlobalDigits ctx ∨ Domain ctx

/-- `Analysed s t`: the text of `s` that is read as a phone number is `t`.  With a phone-context that is not at the very beginning it
is what stands between `tel:` and the context, preceded by the context if that begins with a plus sign; without a context it is
the candidate number; in both cases without `;isub=` and what follows. -/
inductive Analysed : Str → Str → Prop
  | plus {pre rest ctx body t : Str} (h : NotIn (str!";phone-context=") pre) (h0 : pre ≠ []) (hc : upTo ';'.toNat rest = ctx)
      (hg : GlobalDigits ctx) (hb : After (str!"tel:") pre body) (ht : Upto (str!";isub=") (ctx ++ body) t) :
      Analysed (pre ++ str!";phone-context=" ++ rest) t
  | domain {pre rest body t : Str} (h : NotIn (str!";phone-context=") pre) (h0 : pre ≠ []) (hd : Domain (upTo ';'.toNat rest))
      (hb : After (str!"tel:") pre body) (ht : Upto (str!";isub=") body t) : Analysed (pre ++ str!";phone-context=" ++ rest) t
  | plain {s t : Str} (h : NotIn (str!";phone-context=") s) (ht : Upto (str!";isub=") (candidate s) t) : Analysed s t

end Verif.Spec
