import Verif.Unicode
import Lean.ToExpr
import Lean.Elab.Deriving.ToExpr
/-!
# Regular expressions: syntax

The subset of Go's `regexp/syntax` that occurs in `/repo`: literals, classes with ranges, `\d \D \s \p{…} \P{…}`,
groups, alternation, greedy and lazy repetition, `^` and `$` (without the `m` flag), and the `(?i)` flag.
-/
namespace Verif

/-- Unicode properties used in patterns of `/repo`. -/
inductive UProp where
  | nd | n | l | z
  deriving DecidableEq, Repr, Lean.ToExpr

/-- Membership of a code point in a Unicode property. -/
def UProp.mem : UProp → Nat → Bool
  | .nd, c => inRanges ndTable c
  | .n, c => inRanges nTable c
  | .l, c => inRanges lTable c
  | .z, c => inRanges zTable c

/-- A character class: a union of ranges and properties, possibly negated. -/
structure Cls where
  neg : Bool
  ranges : List (Nat × Nat)
  props : List UProp
  deriving DecidableEq, Repr, Lean.ToExpr

/-- Does the class contain code point `c`? -/
def Cls.has (k : Cls) (c : Nat) : Bool :=
  (inRanges k.ranges c || k.props.any (·.mem c)) != k.neg

/-- Does the class match the unit `u` (an invalid byte is seen as U+FFFD)? -/
def Cls.mem (k : Cls) (u : Nat) : Bool := k.has (rune u)

/-- Abstract syntax of regular expressions.  `rep r m n g` is `r{m,n}` (`n = none`: unbounded), greedy iff `g`. -/
inductive Re where
  | eps
  | cls (c : Cls)
  | cat (a b : Re)
  | alt (a b : Re)
  | rep (r : Re) (min : Nat) (max : Option Nat) (greedy : Bool)
  | grp (n : Nat) (r : Re)
  | bos
  | eos
  deriving DecidableEq, Repr, Lean.ToExpr

/-- Number of capture groups. -/
def Re.groups : Re → Nat
  | .cat a b | .alt a b => a.groups + b.groups
  | .rep r _ _ _ => r.groups
  | .grp _ r => r.groups + 1
  | _ => 0

/-- `^(?:r)$` -/
def Re.full (r : Re) : Re := .cat .bos (.cat r .eos)

/-- `^(?:r)` -/
def Re.atStart (r : Re) : Re := .cat .bos r

end Verif
