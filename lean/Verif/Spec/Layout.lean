import Verif.Regex.Uni
import Verif.Model.Types
import Verif.Spec.Basic
import Verif.Spec.Chars
import Verif.Spec.Fields
/-!
# How a formatting rule lays out a number

The digits are cut into groups of given sizes; a template such as `($1) $2-$3` says where the groups go.
-/
namespace Verif.Spec

/-- The smallest and the largest number of digits of `\d{a,b}`. -/
def groupSize : Re → Option (Nat × Nat)
  | .cls c => if c.hasDigits then some (1, 1) else none
  | .rep (.cls c) a (some b) true => if c.hasDigits && Nat.ble a b then some (a, b) else none
  | _ => none

/-- The sizes of the groups of a pattern `(\d{a,b})(\d{c,d})…` whose groups are numbered from `k` on. -/
def groupSizes : Re → Nat → Option (List (Nat × Nat))
  | .grp n r, k => if Nat.beq n k then (groupSize r).map ([·]) else none
  | .cat a b, k => (groupSizes a k).bind fun x => (groupSizes b (k + x.length)).map fun y => x ++ y
  | _, _ => none

/-- The fewest and the most digits that fit in groups of these sizes. -/
def least (gs : List (Nat × Nat)) : Nat := (gs.map (·.1)).sum
@[inherit_doc least] def most (gs : List (Nat × Nat)) : Nat := (gs.map (·.2)).sum

/-- Cutting digits into groups: each takes as many as it can while enough are left for the others. -/
def cut : List (Nat × Nat) → Str → List Str
  | [], _ => []
  | g :: gs, s => s.take (min g.2 (s.length - least gs)) :: cut gs (s.drop (min g.2 (s.length - least gs)))

/-- A template with its `$1`, `$2`, … replaced by the groups. -/
def fill (groups : List Str) : Str → Str
  | [] => []
  | [u] => [u]
  | u :: d :: t => if u = 36 then groups.getD (d - 49) [] ++ fill groups t else u :: fill groups (d :: t)

/-- A template in which every `$` is followed by one of the digits 1 to `n`, and that by the end, another `$`, a space, `-`, `.`
or a parenthesis. -/
def templateOk (n : Nat) : Str → Bool
  | [] => true
  | [u] => !Nat.beq u 36
  | u :: d :: t =>
    if Nat.beq u 36 then Nat.ble 49 d && Nat.ble d (48 + n) && Nat.ble d 57 && (match t with | [] => true | v :: _ => [36, 32, 45, 46, 40, 41].any fun x => Nat.beq v x) &&
      templateOk n t
    else templateOk n (d :: t)

/-- A template with a rule such as `0$1` put in the place of its first group; in the rule `$1` is that group. -/
def putRule (rule : Str) : Str → Str
  | [] => []
  | [u] => [u]
  | u :: d :: t => if u = 36 then fill [[u, d]] rule ++ t else u :: putRule rule (d :: t)

/-- A carrier rule such as `0 $CC $1` with the carrier code in the place of `$CC`. -/
def putCarrier (carrier : Str) : Str → Str
  | [] => []
  | u :: t => if [36, 67, 67].isPrefixOf (u :: t) then carrier ++ t.drop 2 else u :: putCarrier carrier t

/-- The rule can be used for these digits: they fit in its groups, and they begin as its last leading-digits pattern says. -/
def Applies (p : NumberFormat) (s : Str) : Prop :=
  (∃ gs, groupSizes p.pattern.re 1 = some gs ∧ least gs ≤ s.length ∧ s.length ≤ most gs) ∧
    ∀ ld, p.leadingDigits.getLast? = some ld → ∃ w e, s = w ++ e ∧ ld.re.Acc 0 w e

/-- The first rule of the list that can be used, if there is one. -/
inductive Chosen (rules : List NumberFormat) (s : Str) : Option NumberFormat → Prop
  | none : (∀ q ∈ rules, ¬ Applies q s) → Chosen rules s none
  | some {pre post p} : rules = pre ++ p :: post → Applies p s → (∀ q ∈ pre, ¬ Applies q s) → Chosen rules s (some p)

/-- The template of a rule: for NATIONAL with the carrier rule if a carrier is given and there is such a rule, else with the
national prefix rule if there is one. -/
def template (p : NumberFormat) (f : Fmt) (carrier : Str) : Str :=
  if f = .national ∧ carrier ≠ [] ∧ p.ccRule ≠ [] then putRule (putCarrier carrier p.ccRule) p.format
  else if f = .national ∧ p.npRule ≠ [] then putRule p.npRule p.format
  else p.format

/-- RFC3966 has single hyphens instead of punctuation. -/
def tidy (f : Fmt) (s : Str) : Str :=
  if f = .rfc3966 then List.intercalate (str!"-") (fields (fun u => !isPunct (rune u)) s) else s

/-- The digits `s` laid out by the first of the rules that can be used, or unchanged. -/
inductive LaidOut (rules : List NumberFormat) (s : Str) (f : Fmt) (carrier : Str) : Str → Prop
  | plain : Chosen rules s none → LaidOut rules s f carrier s
  | rule {p gs} : Chosen rules s (some p) → groupSizes p.pattern.re 1 = some gs →
      LaidOut rules s f carrier (tidy f (fill (cut gs s) (template p f carrier)))

/-- The rules used for a format: the international ones, if there are any, for all formats but NATIONAL. -/
def rulesFor (m : Metadata) (f : Fmt) : List NumberFormat :=
  if f = .national ∨ m.intlFormats = [] then m.formats else m.intlFormats

/-- The extension, after the label of the format or of the region. -/
def extensionText (m : Metadata) (f : Fmt) (ext : Str) : Str :=
  if ext = [] then []
  else (if f = .rfc3966 then str!";ext=" else if m.preferredExtnPrefix = [] then str!" ext. " else m.preferredExtnPrefix) ++ ext

/-- What stands before the national part. -/
def leadText (f : Fmt) (cc : Nat) : Str :=
  match f with
  | .e164 => str!"+" ++ decimal cc
  | .international => str!"+" ++ decimal cc ++ str!" "
  | .rfc3966 => str!"tel:+" ++ decimal cc ++ str!"-"
  | .national => []

/-- A rule of the shape described above, with a template that mentions only its groups. -/
def layoutRuleOk (p : NumberFormat) : Bool :=
  match groupSizes p.pattern.re 1 with
  | none => false
  | some gs => Nat.blt 0 (least gs) && templateOk gs.length p.format && templateOk 1 p.npRule && templateOk 1 (putCarrier [48] p.ccRule)

/-- All rules of a metadata entry are of that shape. -/
def layoutOk (m : Metadata) : Bool := m.formats.all layoutRuleOk && m.intlFormats.all layoutRuleOk

end Verif.Spec
