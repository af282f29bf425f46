import Verif.Spec.Lookup
import Verif.Utf8
/-!
# Specification: text files with one prefix and its value per line

Files and lines are lists of bytes.
-/
namespace Verif.Spec

/-- `ps` are the pieces of `s` between the separators `sep`. -/
def Pieces (sep : Nat) (s : List Nat) (ps : List (List Nat)) : Prop :=
  ps ≠ [] ∧ (∀ p ∈ ps, sep ∉ p) ∧ s = [sep].intercalate ps

/-- The lines of a sequence of files. -/
inductive Lines : List (List Nat) → List (List Nat) → Prop
  | nil : Lines [] []
  | cons {f : List Nat} {fs ps ls : List (List Nat)} : Pieces '\n'.toNat f ps → Lines fs ls → Lines (f :: fs) (ps ++ ls)

/-- Unicode white space. -/
def White (u : Nat) : Prop :=
  (9 ≤ u ∧ u ≤ 13) ∨ u ∈ [0x20, 0x85, 0xA0, 0x1680, 0x2028, 0x2029, 0x202F, 0x205F, 0x3000] ∨ (0x2000 ≤ u ∧ u ≤ 0x200A)

/-- Nothing but white space, in UTF-8. -/
def Blank (s : List Nat) : Prop := ∃ t : Str, (∀ u ∈ t, White u) ∧ s = Utf8.encode t

/-- Lines without content: comments and blank lines. -/
def Skipped (line : List Nat) : Prop := (∃ t, line = '#'.toNat :: t) ∨ Blank line

/-- The text `p` is the integer `k`: decimal digits, perhaps with a sign, within 64 bits. -/
def IntText (p : List Nat) (k : Int) : Prop :=
  ∃ d n, d ≠ [] ∧ Denotes d n ∧
    (((p = d ∨ p = '+'.toNat :: d) ∧ n < 2 ^ 63 ∧ k = n) ∨ (p = '-'.toNat :: d ∧ n ≤ 2 ^ 63 ∧ k = -n))

/-- A line with content that has exactly the two fields `p` and `v`. -/
def Fields (line p v : List Nat) : Prop := ¬ Skipped line ∧ Pieces '|'.toNat line [p, v]

/-- The line gives the prefix `k` the value `v`. -/
def Row (line : List Nat) (k : Int) (v : List Nat) : Prop := ∃ p, Fields line p v ∧ IntText p k

/-- The line gives the prefix `k` a value that is not blank. -/
def Entry (line : List Nat) (k : Int) (v : List Nat) : Prop := Row line k v ∧ ¬ Blank v

/-- The last of the lines for the prefix `k` has the zones `zs`. -/
def LastZones (ls : List (List Nat)) (k : Int) (zs : List (List Nat)) : Prop :=
  ∃ before line after v, ls = before ++ line :: after ∧ Row line k v ∧ Pieces '&'.toNat v zs ∧ ∀ l ∈ after, ∀ w, ¬ Row l k w

/-- Among the lines `ls`, the one for the longest prefix of `ds`, of at most `limit` digits, has the value `v`; the prefix is the
number `k`. -/
def LongestEntry (ls : List (List Nat)) (ds : Str) (limit : Nat) (k : Nat) (v : List Nat) : Prop :=
  ∃ p, p <+: ds ∧ p ≠ [] ∧ p.length ≤ limit ∧ Denotes p k ∧ (∃ l ∈ ls, Entry l k v) ∧
    ∀ q j w, q <+: ds → p.length < q.length → q.length ≤ limit → Denotes q j → ∀ l ∈ ls, ¬ Entry l j w

/-- No prefix of `ds` of at most `limit` digits has a line. -/
def NoEntry (ls : List (List Nat)) (ds : Str) (limit : Nat) : Prop :=
  ∀ q j w, q <+: ds → q ≠ [] → q.length ≤ limit → Denotes q j → ∀ l ∈ ls, ¬ Entry l j w

end Verif.Spec
