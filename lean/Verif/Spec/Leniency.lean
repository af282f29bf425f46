import Verif.Spec.Find
import Verif.Spec.Layout
import Verif.Spec.Area
import Verif.Spec.NationalPrefix
/-!
# What the leniency levels of a search ask of a piece of text

`n` is the number read from the text `s`, with the way it was written (`countryCodeSource`, raw input).
-/
namespace Verif.Spec

/-- The letter x, in either case. -/
def Ex (u : Nat) : Prop := u = 'x'.toNat ∨ u = 'X'.toNat

instance (u : Nat) : Decidable (Ex u) := by unfold Ex; infer_instance

/-- How many letters x the text ends with. -/
def exesAtEnd (a : Str) : Nat := (a.reverse.takeWhile fun u => decide (Ex u)).length

/-- Every letter x is there for a reason.  Read from the left, two letters x in a row stand for a carrier code in front of the
number (`same`: the text after the first of them is the same number), and a single one that is not the last character stands before
the extension. -/
def ExesOk (same : Str → Prop) (ext s : Str) : Prop :=
  ∀ a u b, s = a ++ u :: b → Ex u → exesAtEnd a % 2 = 0 → b ≠ [] →
    (∀ v t, b = v :: t → Ex v → same b) ∧ ((∀ v t, b = v :: t → ¬ Ex v) → DigitTranscript b ext)

/-- The number was written with its country code, with or without plus sign, but not with an international prefix. -/
def CodeWritten (n : PhoneNumber) : Prop := n.src = .withPlusSign ∨ n.src = .withoutPlusSign

/-- There is at most one slash, not counting one right after the country code. -/
def SlashesOk (n : PhoneNumber) (s : Str) : Prop :=
  s.count '/'.toNat ≤ 1 ∨
    (s.count '/'.toNat = 2 ∧ CodeWritten n ∧ ∃ a b, s = a ++ '/'.toNat :: b ∧ '/'.toNat ∉ a ∧ DigitTranscript a (decInt n.cc))

/-- A prefix rule that adds nothing but parentheses to the first group. -/
def AddsNothing (rule : Str) : Prop := rule ∈ [str!"$1", str!"($1", str!"$1)", str!"($1)"]

/-- The digits `d` begin with something that is taken off as a national prefix: the pattern for prefixes matches their beginning, and
it is not the case that the number belongs to the country with the prefix and not without it. -/
def PrefixTakenOff (m : Metadata) (d : Str) : Prop :=
  d ≠ [] ∧ m.npParsing.src ≠ [] ∧ ∃ x, m.npParsing.re.atStart.find d = some x ∧
    ¬ (InGeneral m d ∧ (LeftOut m x → ¬ InGeneral m (d.drop x.stop)) ∧
      (¬ LeftOut m x → ¬ InGeneral m (m.npParsing.re.atStart.replaceAll d m.npTransform)))

/-- If the number was written without country code, and the rule that lays out such numbers adds a national prefix, not only by
choice, then the text begins with one. -/
def PrefixOk (C : Container) (n : PhoneNumber) : Prop :=
  n.src = .defaultCountry → ∀ m, C.metaForRegion (C.mainRegion n.cc) = some m → ∀ f, Chosen m.formats (nsnOf n) (some f) →
    f.npRule ≠ [] → ¬ AddsNothing f.npRule → f.npOptional = false → ∀ d, DigitTranscript n.raw d → PrefixTakenOff m d

/-- `t` is the text `s` with its digits, of any script, written 0 to 9. -/
inductive AsciiDigits : Str → Str → Prop
  | nil : AsciiDigits [] []
  | digit {u v : Nat} {s t : Str} : UnicodeDigit (rune u) v → AsciiDigits s t → AsciiDigits (u :: s) (('0'.toNat + v) :: t)
  | other {u : Nat} {s t : Str} : (∀ v, ¬ UnicodeDigit (rune u) v) → AsciiDigits s t → AsciiDigits (u :: s) (rune u :: t)

/-- The groups of digits of the number: those of its RFC 3966 form, or those of one of the alternate formats of its country code, the
first leading-digits pattern of which, if there is one, fits the number. -/
inductive Grouping (C : Container) (alt : List Metadata) (n : PhoneNumber) : List Str → Prop
  | usual {gs : List Str} {ext : Str} : gs ≠ [] → (∀ g ∈ gs, '-'.toNat ∉ g ∧ ';'.toNat ∉ g) →
      format C n .rfc3966 = str!"tel:+" ++ decInt n.cc ++ str!"-" ++ List.intercalate (str!"-") gs ++ ext →
      ext = [] ∨ ext = str!";ext=" ++ n.ext → Grouping C alt n gs
  | alternate {gs : List Str} {m : Metadata} {f : NumberFormat} : (∃ a b, alt = a ++ m :: b ∧ m.countryCode = n.cc ∧
        ∀ m' ∈ b, m'.countryCode ≠ n.cc) → f ∈ m.formats →
      (∀ ld, f.leadingDigits.head? = some ld → ∃ w e, nsnOf n = w ++ e ∧ ld.re.Acc 0 w e) → gs ≠ [] → (∀ g ∈ gs, '-'.toNat ∉ g) →
      tidy .rfc3966 (f.pattern.re.replaceAll (nsnOf n) f.format) = List.intercalate (str!"-") gs → Grouping C alt n gs

/-- The groups occur in the text one after the other, and after them the extension. -/
def InOrder (ext : Str) : List Str → Str → Prop
  | [], s => ∃ a b, s = a ++ (ext ++ b)
  | g :: gs, s => ∃ a b, s = a ++ (g ++ b) ∧ InOrder ext gs b

/-- `s = a ++ (g ++ b)` shows the first occurrence of `g` in `s`. -/
def FirstAt (s g a b : Str) : Prop := s = a ++ (g ++ b) ∧ ∀ a' b', s = a' ++ (g ++ b') → a.length ≤ a'.length

/-- The part of the text that the groups are looked for in: the whole text if the number was written without country code, else what
comes after the first occurrence of the code.  (If the code does not occur, because its digits do not stand together, only as many
bytes as it has digits, less one, are left out.) -/
def AfterCode (n : PhoneNumber) (s t : Str) : Prop :=
  if n.src = .defaultCountry then t = s
  else (∃ a, FirstAt s (decInt n.cc) a t) ∨
    ((∀ a b, s ≠ a ++ (decInt n.cc ++ b)) ∧ dropBytes ((decInt n.cc).length - 1) s = .ok t)

/-- No group is split by formatting characters.  In a country with a national prefix the first group may be followed directly by a
digit, but then the whole national significant number must be there in one piece. -/
def KeptTogether (C : Container) (n : PhoneNumber) (gs : List Str) (t : Str) : Prop :=
  ∃ g rest a b, gs = g :: rest ∧ FirstAt t g a b ∧
    ((C.nddPrefix (C.mainRegion n.cc) true ≠ [] ∧ ∃ u b' v, b = u :: b' ∧ UnicodeDigit (rune u) v) → nsnOf n <+: g ++ b) ∧
    (¬ (C.nddPrefix (C.mainRegion n.cc) true ≠ [] ∧ ∃ u b' v, b = u :: b' ∧ UnicodeDigit (rune u) v) → InOrder n.ext rest b)

/-- The blocks of digits of a text; an empty one comes first if the text begins with something else, and is all there is if the text
has no digit. -/
def blocks (s : Str) : List Str :=
  if digitGroups s = [] then [[]] else (if s.head?.any isDig then [] else [[]]) ++ digitGroups s

/-- The text has one block only, or its last block of digits, before that of the extension if there is one, has the whole
national significant number in it, or its last blocks are the groups, where the block for the first one may begin with other digits,
such as a national prefix. -/
def ExactlyGrouped (n : PhoneNumber) (gs : List Str) (s : Str) : Prop :=
  (∃ b, blocks s = [b]) ∨
  ∃ bs x, blocks s = bs ++ x ∧ x.length = (if n.ext = [] then 0 else 1) ∧
    ((∃ pre c, bs = pre ++ [c] ∧ nsnOf n <:+: c) ∨ (∃ g rest pre c, gs = g :: rest ∧ bs = pre ++ c :: rest ∧ g <:+ c))

end Verif.Spec
