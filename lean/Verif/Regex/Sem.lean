import Verif.Regex.Syntax
/-!
# Regular expressions: matching

Go documents the result of a match as the one "that a backtracking engine would have found": leftmost match, and
among those the first in priority order.  `Re.m` is that backtracking search in continuation passing style.
-/
namespace Verif

/-- Matcher state: index of the next unit, the units not consumed yet, the captures (newest first) as
`(group, start, end)` in units. -/
structure MSt where
  pos : Nat
  rest : Str
  caps : List (Nat × Nat × Nat)
  deriving DecidableEq, Repr

/-- `n` mandatory iterations. -/
def iterM {β : Type} (body : MSt → (MSt → Option β) → Option β) : Nat → MSt → (MSt → Option β) → Option β
  | 0, st, k => k st
  | n + 1, st, k => body st fun st' => iterM body n st' k

/-- Up to `n` optional iterations.  An iteration that consumes nothing is not taken (Go's engine likewise never loops on
empty iterations; the patterns of `/repo` have no capture under a nullable loop body, so captures are not affected). -/
def optM {β : Type} (body : MSt → (MSt → Option β) → Option β) (greedy : Bool) :
    Nat → MSt → (MSt → Option β) → Option β
  | 0, st, k => k st
  | n + 1, st, k =>
    match greedy with
    | true =>
      match body st (fun st' => if st'.rest.length < st.rest.length then optM body greedy n st' k else none) with
      | some b => some b
      | none => k st
    | false =>
      match k st with
      | some b => some b
      | none => body st (fun st' => if st'.rest.length < st.rest.length then optM body greedy n st' k else none)

/-- Prioritised backtracking search: the result of the first (in priority order) way for `r` to match at `st` for which the
continuation succeeds. -/
def Re.m {β : Type} : Re → MSt → (MSt → Option β) → Option β
  | .eps, st, k => k st
  | .cls c, st, k =>
    match st.rest with
    | [] => none
    | u :: t => if c.mem u then k ⟨st.pos + 1, t, st.caps⟩ else none
  | .cat a b, st, k => a.m st fun st' => b.m st' k
  | .alt a b, st, k =>
    match a.m st k with
    | some x => some x
    | none => b.m st k
  | .rep r mn mx g, st, k =>
    iterM r.m mn st fun st' =>
      optM r.m g (match mx with | some x => x - mn | none => st'.rest.length) st' k
  | .grp n r, st, k => r.m st fun st' => k { st' with caps := (n, st.pos, st'.pos) :: st'.caps }
  | .bos, st, k => if st.pos = 0 then k st else none
  | .eos, st, k => if st.rest = [] then k st else none

/-- A successful match: span in units and captures. -/
structure Match where
  start : Nat
  stop : Nat
  caps : List (Nat × Nat × Nat)
  deriving DecidableEq, Repr

/-- Match attempt at a fixed position. -/
def Re.matchAt (r : Re) (pos : Nat) (rest : Str) : Option Match :=
  r.m ⟨pos, rest, []⟩ fun st => some ⟨pos, st.pos, st.caps⟩

/-- Leftmost match at or after `pos`. -/
def Re.findFrom (r : Re) : Nat → Str → Option Match
  | pos, [] => r.matchAt pos []
  | pos, u :: t =>
    match r.matchAt pos (u :: t) with
    | some x => some x
    | none => r.findFrom (pos + 1) t

/-- Go's `FindStringSubmatchIndex` (offsets in units). -/
def Re.find (r : Re) (s : Str) : Option Match := r.findFrom 0 s

/-- Go's `MatchString`. -/
def Re.isMatch (r : Re) (s : Str) : Bool := (r.find s).isSome

/-- The slice `s[a:b]` in units. -/
def slice (s : Str) (a b : Nat) : Str := (s.drop a).take (b - a)

/-- Span of capture group `n` (the latest iteration wins); group 0 is the whole match. -/
def Match.span (x : Match) (n : Nat) : Option (Nat × Nat) :=
  if n = 0 then some (x.start, x.stop) else (x.caps.find? (·.1 == n)).map (·.2)

/-- Text of capture group `n`, empty if the group did not participate (as in Go's `FindStringSubmatch`). -/
def Match.group (x : Match) (s : Str) (n : Nat) : Str :=
  match x.span n with
  | some (a, b) => slice s a b
  | none => []

/-- Go's `FindString` (empty if there is no match). -/
def Re.findString (r : Re) (s : Str) : Str :=
  match r.find s with
  | some x => slice s x.start x.stop
  | none => []

/-- Does the leftmost match start at index 0 (the idiom `ind := re.FindStringIndex(s); len(ind) > 0 && ind[0] == 0`)? -/
def Re.matchesAtStart (r : Re) (s : Str) : Bool :=
  match r.find s with
  | some x => x.start == 0
  | none => false

/-- Loop of `(*Regexp).allMatches` (regexp/regexp.go): `prevEnd` is `none` for -1. -/
def findAllLoop (r : Re) (s : Str) : Nat → Nat → Option Nat → List Match
  | 0, _, _ => []
  | f + 1, pos, prevEnd =>
    if pos > s.length then [] else
    match r.findFrom pos (s.drop pos) with
    | none => []
    | some x =>
      if x.stop = pos then
        if some x.start = prevEnd then findAllLoop r s f (pos + 1) (some x.stop)
        else x :: findAllLoop r s f (pos + 1) (some x.stop)
      else x :: findAllLoop r s f x.stop (some x.stop)

/-- Go's `FindAllStringSubmatchIndex(s, -1)`. -/
def Re.findAll (r : Re) (s : Str) : List Match := findAllLoop r s (s.length + 2) 0 none

/-- Go's `(*Regexp).Split(s, -1)`: pieces between matches. -/
def splitLoop (s : Str) : List Match → Nat → Nat → List Str
  | [], beg, fin => if fin ≠ s.length then [s.drop beg] else []
  | x :: xs, beg, _ =>
    if x.stop ≠ 0 then slice s beg x.start :: splitLoop s xs x.stop x.start
    else splitLoop s xs x.stop x.start

/-- Go's `(*Regexp).Split(s, -1)` for a non-empty pattern. -/
def Re.split (r : Re) (s : Str) : List Str :=
  if s = [] then [[]] else splitLoop s (r.findAll s) 0 0

/-- Characters allowed in a template variable name (`regexp.extract`): letters, digits, underscore. -/
def isNameChar (u : Nat) : Bool := u == 95 || lTable.any (fun p => p.1 ≤ u && u ≤ p.2) || inRanges ndTable u

/-- Value of a template variable: numeric names (without leading zero) select a group, other names are unknown groups,
hence empty. -/
def templateVar (x : Match) (s : Str) (name : Str) : Str :=
  if name.all isDig && name ≠ [] && !(name.head? = some 48 && name.length > 1) then x.group s (digVal name) else []

/-- Go's `regexp.Expand` on a template.  Fuel is the template length. -/
def expandLoop (x : Match) (s : Str) : Nat → Str → Str
  | 0, _ => []
  | _ + 1, [] => []
  | f + 1, 36 :: 36 :: t => 36 :: expandLoop x s f t                       -- `$$`
  | f + 1, 36 :: 123 :: t =>                                               -- `${name}`
    let name := t.takeWhile isNameChar
    match t.drop name.length with
    | 125 :: t' => if name = [] then 36 :: expandLoop x s f (123 :: t) else templateVar x s name ++ expandLoop x s f t'
    | _ => 36 :: expandLoop x s f (123 :: t)
  | f + 1, 36 :: t =>                                                      -- `$name`
    let name := t.takeWhile isNameChar
    if name = [] then 36 :: expandLoop x s f t
    else templateVar x s name ++ expandLoop x s f (t.drop name.length)
  | f + 1, u :: t => u :: expandLoop x s f t

/-- Go's `(*Regexp).Expand`. -/
def expand (x : Match) (s : Str) (template : Str) : Str := expandLoop x s (template.length + 1) template

/-- Loop of Go's `(*Regexp).replaceAll`. -/
def replaceLoop (r : Re) (s : Str) (repl : Match → Str) : Nat → Nat → Nat → Str
  | 0, _, lastEnd => s.drop lastEnd
  | f + 1, searchPos, lastEnd =>
    if searchPos > s.length then s.drop lastEnd else
    match r.findFrom searchPos (s.drop searchPos) with
    | none => s.drop lastEnd
    | some x =>
      slice s lastEnd x.start ++ (if x.stop > lastEnd ∨ x.start = 0 then repl x else []) ++
        replaceLoop r s repl f (if searchPos + 1 > x.stop then searchPos + 1 else x.stop) x.stop

/-- Go's `ReplaceAllString(s, template)`. -/
def Re.replaceAll (r : Re) (s template : Str) : Str :=
  replaceLoop r s (fun x => expand x s template) (s.length + 2) 0 0

/-- Go's `ReplaceAllLiteralString`/`ReplaceAllString` with a `$`-free replacement. -/
def Re.replaceAllLit (r : Re) (s lit : Str) : Str := replaceLoop r s (fun _ => lit) (s.length + 2) 0 0

end Verif
