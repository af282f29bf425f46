import Verif.Regex.Syntax
import Lean.Elab.Term
import Lean.Meta.Reduce
/-!
# Parser for the pattern syntax

`parseRe` reads the subset of Go's regular expression syntax that `/repo` uses.  It is used to write patterns
in the model as the very strings that occur in the repository and its metadata; the terms `re! "…"` and `re_of% s` run it at
elaboration time and leave the explicit `Re` in the definition.
-/
namespace Verif

namespace ReParser

/-- Reads a decimal number. -/
def num : Str → Option (Nat × Str)
  | u :: s => if isDig u then go (u - 48) s else none
  | [] => none
where
  go (acc : Nat) : Str → Option (Nat × Str)
    | u :: s => if isDig u then go (acc * 10 + (u - 48)) s else some (acc, u :: s)
    | [] => some (acc, [])

/-- Property names after `\p`/`\P`; returns the property and the rest. -/
def prop : Str → Option (UProp × Str)
  | 123 :: 78 :: 100 :: 125 :: s => some (.nd, s)  -- {Nd}
  | 123 :: 78 :: 125 :: s => some (.n, s)          -- {N}
  | 123 :: 76 :: 125 :: s => some (.l, s)          -- {L}
  | 123 :: 90 :: 125 :: s => some (.z, s)          -- {Z}
  | _ => none

/-- ASCII letter or digit: a backslash before one of these is a special escape, before anything else a literal. -/
def isAlnum (u : Nat) : Bool := isDig u || (65 ≤ u && u ≤ 90) || (97 ≤ u && u ≤ 122)

/-- An escape sequence (after the backslash) outside brackets. -/
def escape : Str → Option (Cls × Str)
  | 100 :: s => some (⟨false, [(48, 57)], []⟩, s)                                   -- \d
  | 68 :: s => some (⟨true, [(48, 57)], []⟩, s)                                     -- \D
  | 115 :: s => some (⟨false, [(9, 10), (12, 13), (32, 32)], []⟩, s)                -- \s
  | 116 :: s => some (⟨false, [(9, 9)], []⟩, s)                                     -- \t
  | 112 :: s => (prop s).map fun (p, s) => (⟨false, [], [p]⟩, s)                     -- \p{..}
  | 80 :: s => (prop s).map fun (p, s) => (⟨true, [], [p]⟩, s)                       -- \P{..}
  | u :: s => if isAlnum u then none else some (⟨false, [(u, u)], []⟩, s)
  | [] => none

/-- One literal character inside brackets. -/
def clsChar : Str → Option (Nat × Str)
  | 92 :: 116 :: s => some (9, s)
  | 92 :: u :: s => if isAlnum u then none else some (u, s)
  | u :: s => some (u, s)
  | [] => none

/-- Body of a bracket expression, up to the closing bracket. -/
def clsBody : Nat → Cls → Str → Option (Cls × Str)
  | 0, _, _ => none
  | f + 1, k, s =>
    match s with
    | 93 :: s => some (k, s)
    | 92 :: 100 :: s => clsBody f { k with ranges := k.ranges ++ [(48, 57)] } s
    | 92 :: 112 :: s => (prop s).bind fun (p, s) => clsBody f { k with props := k.props ++ [p] } s
    | s => (clsChar s).bind fun (lo, s) =>
      match s with
      | 45 :: 93 :: s => some ({ k with ranges := k.ranges ++ [(lo, lo), (45, 45)] }, s)
      | 45 :: s => (clsChar s).bind fun (hi, s) =>
          if hi < lo then none else clsBody f { k with ranges := k.ranges ++ [(lo, hi)] } s
      | s => clsBody f { k with ranges := k.ranges ++ [(lo, lo)] } s

/-- A bracket expression after `[`.  A `]` directly after `[` or `[^` would be literal; the patterns of `/repo` do not use that. -/
def bracket (s : Str) : Option (Cls × Str) :=
  match s with
  | 94 :: s => clsBody (s.length + 1) ⟨true, [], []⟩ s
  | s => clsBody (s.length + 1) ⟨false, [], []⟩ s

/-- A trailing `?` makes the repetition lazy. -/
def lazyMark : Str → Bool × Str
  | 63 :: s => (false, s)
  | s => (true, s)

/-- Postfix repetition operator, if any. -/
def post (r : Re) (s : Str) : Option (Re × Str) :=
  match s with
  | 42 :: s => let (g, s) := lazyMark s; some (.rep r 0 none g, s)
  | 43 :: s => let (g, s) := lazyMark s; some (.rep r 1 none g, s)
  | 63 :: s => let (g, s) := lazyMark s; some (.rep r 0 (some 1) g, s)
  | 123 :: s => (num s).bind fun (m, s) =>
      match s with
      | 125 :: s => let (g, s) := lazyMark s; some (.rep r m (some m) g, s)
      | 44 :: 125 :: s => let (g, s) := lazyMark s; some (.rep r m none g, s)
      | 44 :: s => (num s).bind fun (n, s) =>
          match s with
          | 125 :: s => if n < m then none else let (g, s) := lazyMark s; some (.rep r m (some n) g, s)
          | _ => none
      | _ => none
  | s => some (r, s)

mutual
/-- Alternation: stops at `)` or the end. `c` is the number of groups opened so far. -/
def alts : Nat → Nat → Str → Option (Re × Nat × Str)
  | 0, _, _ => none
  | f + 1, c, s => (seq f c s).bind fun (r, c, s) =>
      match s with
      | 124 :: s => (alts f c s).map fun (r', c, s) => (.alt r r', c, s)
      | s => some (r, c, s)
/-- Concatenation: stops at `|`, `)` or the end. -/
def seq : Nat → Nat → Str → Option (Re × Nat × Str)
  | 0, _, _ => none
  | f + 1, c, s =>
      match s with
      | [] => some (.eps, c, [])
      | 124 :: s => some (.eps, c, 124 :: s)
      | 41 :: s => some (.eps, c, 41 :: s)
      | s => (atom f c s).bind fun (r, c, s) => (post r s).bind fun (r, s) =>
          (seq f c s).map fun (r', c, s) => (if r' = .eps then r else .cat r r', c, s)
/-- One atom. -/
def atom : Nat → Nat → Str → Option (Re × Nat × Str)
  | 0, _, _ => none
  | f + 1, c, s =>
      match s with
      | 40 :: 63 :: 58 :: s => (alts f c s).bind fun (r, c, s) =>   -- (?:
          match s with
          | 41 :: s => some (r, c, s)
          | _ => none
      | 40 :: s => (alts f (c + 1) s).bind fun (r, c', s) =>
          match s with
          | 41 :: s => some (.grp (c + 1) r, c', s)
          | _ => none
      | 91 :: s => (bracket s).map fun (k, s) => (.cls k, c, s)
      | 92 :: s => (escape s).map fun (k, s) => (.cls k, c, s)
      | 46 :: s => some (.cls ⟨true, [(10, 10)], []⟩, c, s)          -- `.`
      | 94 :: s => some (.bos, c, s)
      | 36 :: s => some (.eos, c, s)
      | 42 :: _ => none
      | 43 :: _ => none
      | 63 :: _ => none
      | u :: s => some (.cls ⟨false, [(u, u)], []⟩, c, s)
      | [] => none
end

/-- Simple case folding orbit (`unicode.SimpleFold`) of the code points that occur as letters under `(?i)` in
`/repo`: ASCII letters (with U+017F and U+212A), `ó`, Cyrillic letters, full-width letters. -/
def orbit (c : Nat) : List Nat :=
  if c = 107 ∨ c = 75 ∨ c = 0x212A then [75, 107, 0x212A]
  else if c = 115 ∨ c = 83 ∨ c = 0x17F then [83, 115, 0x17F]
  else if 97 ≤ c ∧ c ≤ 122 then [c - 32, c]
  else if 65 ≤ c ∧ c ≤ 90 then [c, c + 32]
  else if c = 0xF3 ∨ c = 0xD3 then [0xD3, 0xF3]
  else if 0x430 ≤ c ∧ c ≤ 0x44F then [c - 32, c]
  else if 0x410 ≤ c ∧ c ≤ 0x42F then [c, c + 32]
  else if 0xFF41 ≤ c ∧ c ≤ 0xFF5A then [c - 32, c]
  else if 0xFF21 ≤ c ∧ c ≤ 0xFF3A then [c, c + 32]
  else [c]

/-- Case folding of one range of a class: single characters by their orbit, the two ASCII letter ranges explicitly; other
ranges contain no cased letters in the patterns of `/repo`. -/
def foldRange : Nat × Nat → List (Nat × Nat)
  | (lo, hi) =>
    if lo = hi then (orbit lo).map fun c => (c, c)
    else if (lo = 97 ∧ hi = 122) ∨ (lo = 65 ∧ hi = 90) then [(65, 90), (97, 122), (0x17F, 0x17F), (0x212A, 0x212A)]
    else [(lo, hi)]

/-- The effect of the `(?i)` flag. -/
def fold : Re → Re
  | .cls k => .cls { k with ranges := k.ranges.flatMap foldRange }
  | .cat a b => .cat (fold a) (fold b)
  | .alt a b => .alt (fold a) (fold b)
  | .rep r m n g => .rep (fold r) m n g
  | .grp n r => .grp n (fold r)
  | r => r

end ReParser

open ReParser in
/-- Parses a whole pattern; `none` models a pattern that does not compile (or is outside the subset). -/
def parseRe (s : Str) : Option Re :=
  match s with
  | 40 :: 63 :: 105 :: 41 :: s => (run s).map fold   -- (?i)
  | s => run s
where
  run (s : Str) : Option Re :=
    match alts (4 * s.length + 8) 0 s with
    | some (r, _, []) => some r
    | _ => none

open Lean Elab Term Meta in
/-- `re! "…"`: the `Re` of a literal pattern, computed at elaboration time. -/
elab "re!" s:str : term => do
  match parseRe (ofString s.getString) with
  | some r => return toExpr r
  | none => throwError "pattern does not parse"

open Lean Meta in
/-- Reads a reduced `List Nat` expression. -/
def strOfExpr (e : Expr) : MetaM (List Nat) := do
  let mut e ← whnf e
  let mut acc : Array Nat := #[]
  while e.isAppOfArity ``List.cons 3 do
    let a ← whnf e.appFn!.appArg!
    match a with
    | .lit (.natVal n) => acc := acc.push n
    | _ => match (← Lean.Meta.evalNat a) with
      | some n => acc := acc.push n
      | none => throwError "not a literal: {a}"
    e ← whnf e.appArg!
  return acc.toList

open Lean Elab Term Meta in
/-- `re_of% t`: the `Re` of the closed string term `t : Str`, computed at elaboration time. -/
elab "re_of%" t:term:max : term => do
  let e ← elabTermEnsuringType t (mkApp (mkConst ``List [0]) (mkConst ``Nat))
  let s ← strOfExpr (← instantiateMVars e)
  match parseRe s with
  | some r => return toExpr r
  | none => throwError "pattern does not parse: {toStringLossy s}"

end Verif
