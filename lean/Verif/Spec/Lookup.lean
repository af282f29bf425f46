import Verif.Spec.Basic
/-!
# Specification: longest-prefix lookup in a map keyed by numbers
-/
namespace Verif.Spec

/-- The number a string of ASCII digits denotes. -/
inductive Denotes : Str → Nat → Prop
  | nil : Denotes [] 0
  | snoc {p : Str} {n d : Nat} : Denotes p n → IsDigit d → Denotes (p ++ [d]) (10 * n + (d - '0'.toNat))

/-- The prefix `p` of `s` is the longest one, of at most `limit` digits, whose number is a key of `m`; `v` is the value. -/
structure LongestPrefix {ν : Type} (m : List (Int × ν)) (s : Str) (limit : Nat) (p : Str) (k : Nat) (v : ν) : Prop where
  isPrefix : p <+: s
  nonEmpty : p ≠ []
  within : p.length ≤ limit
  denotes : Denotes p k
  value : ((k : Int), v) ∈ m
  longest : ∀ q j w, q <+: s → p.length < q.length → q.length ≤ limit → Denotes q j → ((j : Int), w) ∉ m

/-- No prefix of at most `limit` digits is a key. -/
def NoPrefix {ν : Type} (m : List (Int × ν)) (s : Str) (limit : Nat) : Prop :=
  ∀ q j w, q <+: s → q ≠ [] → q.length ≤ limit → Denotes q j → ((j : Int), w) ∉ m

/-- `zs` is what the map `m` says about the digits `ds`: the zones of the longest prefix, or "Etc/Unknown" alone. -/
def ZonesOf (m : List (Int × List (List Nat))) (ds : Str) (limit : Nat) (zs : List (List Nat)) : Prop :=
  (∃ p k, LongestPrefix m ds limit p k zs) ∨ (NoPrefix m ds limit ∧ zs = [str!"Etc/Unknown"])

/-- What is assumed about `int(math.Floor(math.Log10(float64(k)))) + 1` for keys of at most nine digits: the number of decimal
digits, except that for a power of ten the result may be one less (`math.Log10(1000)` is slightly below 3 in Go). -/
def LogLike (dc : Int → Nat) : Prop :=
  ∀ k : Nat, k < 10 ^ 9 → dc k = (decimal k).length ∨ ∃ e, k = 10 ^ e ∧ dc k = e

end Verif.Spec
