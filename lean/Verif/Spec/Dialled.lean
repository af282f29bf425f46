import Verif.Spec.National
/-!
# When an international prefix is recognised before a number

A static check on the metadata of the calling region.
-/
namespace Verif.Spec

/-- The international prefix that is written before a number for a call from a region: the preferred one, or the only one.  Empty
when there is none. -/
def dialledPrefix (m : Metadata) : Str :=
  match m.preferredInternationalPrefix with
  | [] => if uniqueInternationalPrefix.isMatch m.internationalPrefix.src then m.internationalPrefix.src else []
  | p => p

/-- A number with its country code: digits, the first not zero. -/
def codeFirst : Re := .cat (.cls ⟨false, [(49, 57)], []⟩) (.rep (.cls ⟨false, [(48, 57)], []⟩) 0 none true)

/-- The beginnings with a tilde, for waiting for a tone. -/
def toneLeads : List Str := [(str!"8~10 "), (str!"0~0 ")]

/-- The digits of the prefix written for calls from the region are a match of its international prefix, and before a number with
its country code nothing longer or shorter is. -/
def iddReadsBack (m : Metadata) : Bool :=
  let p := dialledPrefix m
  let d := p.filter isDig
  p.isEmpty || ((p.all isDig || decide (p ++ [32] ∈ toneLeads)) && Nat.ble p.length 10 && m.internationalPrefix.re.noAnchor &&
    m.internationalPrefix.re.full.isMatch d &&
    heads (fun k _ => Nat.beq k d.length) 16 0 [m.internationalPrefix.re] [[afterLit d codeFirst]])

/-- No number of ten digits with the first digit 2 to 9 begins with a match of this alternative of a national prefix pattern. -/
def tenSafe (a : Re) : Bool :=
  Nat.blt 0 a.minLen && ((a.endsEos && match a.lens with | none => false | some ls => !ls.any (Nat.beq 10)) ||
    [50, 51, 52, 53, 54, 55, 56, 57].all fun u => !a.canStart u)

/-- A region of the North American plan: numbers begin with 2 to 9, the ten-digit ones are the longest and do not begin like a
national prefix, and calls abroad do not begin with 1. -/
def nanpaOk (m : Metadata) : Bool :=
  (match m.general with
    | none => false
    | some g => !g.lengths.isEmpty && g.lengths.all (fun x => Nat.ble x.toNat 10) && g.localLengths.all (fun x => Nat.ble x.toNat 10) &&
        !(descPat m.general).re.canStart 48 && !(descPat m.general).re.canStart 49) &&
    decide (m.countryCode = 1) && !m.internationalPrefix.re.canStart 49 && Nat.blt 0 m.internationalPrefix.re.minLen &&
    m.npParsing.re.alts.all tenSafe

/-- The rules write nothing but separators between the digits of the number. -/
def plainRules (m : Metadata) : Bool := m.formats.all fun p => natTextOk p && (natDigits p).isEmpty

end Verif.Spec
