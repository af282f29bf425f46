import Lean.Elab.Term
/-!
# Go strings

A Go string is an arbitrary byte sequence.  Everything in `/repo` that looks inside a string either
ranges over it (`for _, c := range s`), runs a `regexp` over it, or searches for ASCII text.  All of these see
the string through `utf8.DecodeRune`: the sequence of *units*, where a unit is either a valid rune or a
single byte that does not start a valid encoding (and is then seen as U+FFFD of width one).

The model represents a Go string by that sequence of units:

* a valid rune `r` is the number `r` (`< 0x110000`),
* an invalid byte `b` is the number `0x110000 + b`.

`Verif/Utf8.lean` contains the decoder from bytes and the proof that no byte is lost by this view.
-/
namespace Verif

/-- A Go string as its list of units (see the module comment). -/
abbrev Str := List Nat

/-- First number that is not a Unicode code point; invalid bytes are offset by it. -/
def badBase : Nat := 0x110000

/-- The rune value Go code sees for a unit: `utf8.RuneError` for an invalid byte. -/
def rune (u : Nat) : Nat := if u < badBase then u else 0xFFFD

/-- Number of bytes of a unit in the Go string. -/
def width (u : Nat) : Nat :=
  if u < 0x80 then 1 else if u < 0x800 then 2 else if u < 0x10000 then 3 else if u < badBase then 4 else 1

/-- Go's `len(s)`: the length in bytes. -/
def blen (s : Str) : Nat := (s.map width).sum

/-- `str!"abc"` is the `Str` of an ASCII or Unicode literal. -/
elab "str!" s:str : term => do
  return Lean.toExpr (s.getString.toList.map Char.toNat)

/-- For `#eval`/tests only: a Lean string as a `Str`. -/
def ofString (s : String) : Str := s.toList.map Char.toNat

/-- For `#eval`/tests only. -/
def toStringLossy (s : Str) : String := String.ofList (s.map (fun u => Char.ofNat (rune u)))

@[simp] theorem blen_nil : blen [] = 0 := rfl
@[simp] theorem blen_cons (u : Nat) (s : Str) : blen (u :: s) = width u + blen s := by simp [blen]
@[simp] theorem blen_append (a b : Str) : blen (a ++ b) = blen a + blen b := by simp [blen]

theorem width_pos (u : Nat) : 0 < width u := by unfold width; split <;> (try split) <;> (try split) <;> (try split) <;> omega

theorem length_le_blen (s : Str) : s.length ≤ blen s := by
  induction s with
  | nil => simp
  | cons u s ih => simp; have := width_pos u; omega

/-- ASCII digit test on units. -/
def isDig (u : Nat) : Bool := 48 ≤ u && u ≤ 57

theorem width_isDig {u : Nat} (h : isDig u = true) : width u = 1 := by
  simp [isDig] at h; simp [width]; omega

theorem blen_digits {s : Str} (h : ∀ u ∈ s, isDig u = true) : blen s = s.length := by
  induction s with
  | nil => simp
  | cons u s ih =>
    simp only [blen_cons, List.length_cons]
    rw [width_isDig (h u (by simp)), ih (fun v hv => h v (by simp [hv]))]; omega

/-- Go's `strings.HasPrefix`, on units. -/
def hasPrefix (s p : Str) : Bool := p.isPrefixOf s

/-- Go's `strings.HasSuffix`, on units. -/
def hasSuffix (s p : Str) : Bool := p.isSuffixOf s

/-- Index of the first occurrence of `p` in `s`, counted in units (`strings.Index`; `none` for -1). -/
def indexOf (s p : Str) : Option Nat :=
  if p.isPrefixOf s then some 0
  else match s with
    | [] => none
    | _ :: t => (indexOf t p).map (· + 1)

/-- Go's `strings.Contains`. -/
def contains (s p : Str) : Bool := (indexOf s p).isSome

/-- Decimal digits of a natural number, most significant first, as ASCII (`strconv.Itoa`, `FormatUint`). -/
def decFuel : Nat → Nat → Str
  | 0, _ => []
  | f + 1, n => if n < 10 then [48 + n] else decFuel f (n / 10) ++ [48 + n % 10]

/-- `strconv.FormatUint(n, 10)`. -/
def dec (n : Nat) : Str := decFuel (n + 1) n

/-- `strconv.Itoa` for a possibly negative integer. -/
def decInt (i : Int) : Str := if i < 0 then 45 :: dec i.natAbs else dec i.natAbs

/-- Value of a string of ASCII digits (`strconv.ParseUint` on a string known to be digits, without the 64-bit
overflow check, which callers bound separately). -/
def digVal (s : Str) : Nat := s.foldl (fun a u => a * 10 + (u - 48)) 0

end Verif
