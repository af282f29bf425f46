import Verif.Regex.Uni
import Verif.Spec.WellFormed
import Verif.Model.Format
/-!
# Well-formed international formatting rules
-/
namespace Verif.Spec

/-- A template `…$k…$(k+1)…$n…`: it mentions the groups from `k` to `n` once each, in order; all other characters are not digits
and not `$`; a variable is followed by the end, by another variable or by a space, `-`, `.` or `)`. -/
def inOrder (n : Nat) : Str → Nat → Bool
  | [], k => decide (k = n + 1)
  | [u], k => decide (u ≠ 36) && !isDig u && decide (k = n + 1)
  | u :: d :: t, k =>
    if u = 36 then decide (d = 48 + k) && decide (0 < k) && decide (k ≤ n) && decide (k ≤ 9) &&
      (match t with | [] => true | v :: _ => decide (v ∈ [36, 32, 45, 46, 41])) && inOrder n t (k + 1)
    else !isDig u && inOrder n (d :: t) k

/-- A formatting rule whose pattern is a sequence of digit groups 1 to n and whose format mentions them once each in order. -/
def formatInOrder (f : NumberFormat) : Bool :=
  f.pattern.re.uni && decide (0 < f.pattern.re.minLen) && f.pattern.re.maxLen.isSome &&
    (match f.pattern.re.tops with
     | some ns => decide (ns = List.range' 1 ns.length) && inOrder ns.length f.format 1
     | none => false)

/-- The formatting rules used for the formats other than NATIONAL. -/
def intlRules (m : Metadata) : List NumberFormat := if m.intlFormats = [] then m.formats else m.intlFormats

/-- The international formats of a metadata entry keep all digits in order, and its extension prefix has no digits. -/
def intlFormatsOk (m : Metadata) : Bool := (intlRules m).all formatInOrder && m.preferredExtnPrefix.all (fun u => !isDig u)

/-- The literal characters of the international formats are spaces, hyphens, full stops and parentheses. -/
def intlLiteralsOk (m : Metadata) : Bool :=
  (intlRules m).all fun f => (templateLiterals f.format).all fun u => decide (u ∈ [32, 45, 46, 40, 41])

/-- A rule, with the given template, never produces the empty string: the template has literal characters or keeps all digits. -/
def templateNonEmpty (f : NumberFormat) (t : Str) : Bool :=
  decide (templateLiterals t ≠ []) || formatInOrder { f with format := t }

/-- The national formats of a metadata entry, with and without national prefix, never produce the empty string. -/
def natFormatsOk (m : Metadata) : Bool :=
  m.formats.all fun f => templateNonEmpty f f.format &&
    (decide (f.npRule = []) || templateNonEmpty f (replaceFirstToken f.format f.npRule))

end Verif.Spec

