import Verif.Model.Serialize
/-!
# Specification: prefix maps that fit the binary format
-/
namespace Verif.Spec

/-- A finite map given by its entries: every key once, keys small enough for the six-byte buffer of the writer. -/
structure KeysFit {ν : Type} (m : List (Int × ν)) : Prop where
  once : (m.map (·.1)).Nodup
  range : ∀ e ∈ m, 0 ≤ e.1 ∧ e.1 < 2 ^ 42
  count : m.length < 2 ^ 32

/-- The limits of the format for the values: no newline inside a value, at most 65535 different values, total size below 4 GB. -/
structure ValuesFit (vs : List Bytes) : Prop where
  newline : ∀ v ∈ vs, 10 ∉ v
  distinct : ∃ ds : List Bytes, ds.length ≤ 65535 ∧ ∀ v ∈ vs, v ∈ ds
  size : (vs.map (fun v => v.length + 1)).sum < 2 ^ 32

/-- `big` is the largest of the numbers `f k` (0 if there is none). -/
def IsMax (f : Int → Nat) (ks : List Int) (big : Nat) : Prop :=
  (∀ k ∈ ks, f k ≤ big) ∧ (big = 0 ∨ ∃ k ∈ ks, f k = big)

end Verif.Spec
