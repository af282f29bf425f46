import Verif.Regex.Excl
import Verif.Spec.Layout
import Verif.Spec.Formats
import Verif.Model.Aytf
/-!
# Layout rules that can be followed while a number is being typed

While a number is being typed only its first digits are known.  The conditions below, on the list of the layout rules of a region,
make sure that by the time the number is complete the first rule of the list that can be used has not been lost and that no rule
that stands before it is taken instead.
-/
namespace Verif.Spec

/-- The leading-digits patterns of a rule. -/
def leads (f : NumberFormat) : List Re := f.leadingDigits.map (·.re)

/-- No digit string begins as both patterns say. -/
def begApart (a b : Re) : Bool := excl 16 [[a.andMore], [b.andMore]] []

/-- Every digit string that begins as `a` says begins as `b` says. -/
def begWithin (a b : Re) : Bool := excl 16 [[a.andMore]] [[b.andMore]]

/-- The `j`-th pattern looks at no more than `i + j` digits, and what begins as the last pattern says begins as each says. -/
def leadsOk (last : Re) : List Re → Nat → Bool
  | [], _ => true
  | r :: rs, i => (match r.maxLen with | some n => Nat.ble n i | none => false) && r.noAnchor && (r.same last || begWithin last r) && leadsOk last rs (i + 1)

/-- The template made for the rule has room for `n` digits. -/
def sampleOk (f : NumberFormat) (n : Nat) : Bool :=
  let a := f.pattern.re.findString (List.replicate 15 57)
  Nat.ble n (blen a) && !(f.pattern.re.replaceAll a f.format).isEmpty

/-- A rule that stays on the list while a number it can be used for is being typed. -/
def staysOk (f : NumberFormat) : Bool :=
  match groupSizes f.pattern.re 1 with
  | none => false
  | some gs => Nat.ble 3 (least gs) && sampleOk f (most gs) && templateOk gs.length f.format && formatInOrder f && !f.pattern.src.isEmpty &&
      (templateLiterals f.format).all (fun u => [32, 45, 46, 40, 41].any fun v => Nat.beq u v) &&
      eligibleFormatPattern.isMatch f.format &&
      (match (leads f).getLast? with | none => true | some r => leadsOk r (leads f) 3)

/-- The fewest and the most digits a rule can be used for. -/
def bounds (f : NumberFormat) : Nat × Nat :=
  match groupSizes f.pattern.re 1 with
  | none => (0, 0)
  | some gs => (least gs, most gs)

/-- Which of its leading-digits patterns are certainly looked at before a number the rule fits is complete. -/
def lookedAt (e : NumberFormat) : Nat := min ((leads e).length - 1) ((bounds e).1 - 4)

/-- When `3 + j` digits have been typed, no rule of the list fits them, other than rules that cannot be on the list together
with `e`. -/
def quietAt (e : NumberFormat) (j : Nat) (rules : List NumberFormat) : Bool :=
  rules.all fun g => Nat.blt (3 + j) (bounds g).1 || Nat.blt (bounds g).2 (3 + j) ||
    (match leads g with | [r] => (leads e).all (begApart r) | _ => false)

/-- No number that begins as `r` says fits both `e` and a later rule that can be used for it. -/
def laterApart (e : NumberFormat) (r : Re) (later : List NumberFormat) : Bool :=
  later.all fun f => Nat.blt (bounds f).2 (bounds e).1 || Nat.blt (bounds e).2 (bounds f).1 ||
    (match (leads f).getLast? with | some q => begApart r q | none => false)

/-- A rule that is not taken in the place of a later one. -/
def yieldsOk (all : List NumberFormat) (e : NumberFormat) (later : List NumberFormat) : Bool :=
  match leads e with
  | [] => true
  | [_] => true
  | ls => Nat.ble 4 (bounds e).1 && quietAt e (lookedAt e) all && (ls.drop (lookedAt e)).dropLast.all fun r => laterApart e r later

/-- All rules of the list yield to the later ones. -/
def yieldAll (all : List NumberFormat) : List NumberFormat → Bool
  | [] => true
  | e :: later => yieldsOk all e later && yieldAll all later

/-- The rules of a region can be followed while a number is being typed. -/
def shownOk (m : Metadata) : Bool :=
  (rulesFor m .international).all staysOk && yieldAll (rulesFor m .international) (rulesFor m .international)

end Verif.Spec
