import Verif.Model.Container
/-!
# Binary prefix maps: writer (`cmd/buildmetadata`) and loader (`internal/serialize`)

Bytes are natural numbers below 256.  Compression (gzip) is not modelled: the loaders start after `DecodeUnzip`, the writers
end before `gzip.NewWriter`.  Values are byte strings.  Machine integers are 64 bits wide.
-/
namespace Verif

abbrev Bytes := List Nat

/-- Go's conversion of an integer to `int` (64-bit two's complement). -/
def wrap64 (x : Int) : Int := (x + 2 ^ 63) % 2 ^ 64 - 2 ^ 63

/-- Go's conversion of an `int` to `uint64`. -/
def toUint64 (x : Int) : Nat := (x % 2 ^ 64).toNat

/-- encoding/binary little-endian bytes of an unsigned integer of `k` bytes (the conversion to that width drops high bits). -/
def le : Nat → Nat → Bytes
  | 0, _ => []
  | k + 1, x => x % 256 :: le k (x / 256)

/-- The inverse of `le`. -/
def unle : Bytes → Nat
  | [] => 0
  | b :: t => b + 256 * unle t

/-! ## Writer -/

/-- encoding/binary `PutUvarint`, without the bounds check. -/
def uvarint (x : Nat) : Bytes :=
  if x < 128 then [x] else (x % 128 + 128) :: uvarint (x / 128)
termination_by x
decreasing_by omega

/-- cmd/buildmetadata/main.go 374, 379, 448, 452: `binary.PutUvarint(intBuf, uint64(diff))` with a buffer of six bytes: an index
out of range panic if the number needs more. -/
def putUvarint6 (x : Nat) : Go Bytes := if (uvarint x).length ≤ 6 then .ok (uvarint x) else .error .index

/-- Lexicographic order of byte strings, the order of `sort.Strings`. -/
def bytesLe : Bytes → Bytes → Bool
  | [], _ => true
  | _ :: _, [] => false
  | a :: s, b :: t => if a < b then true else if b < a then false else bytesLe s t

/-- `strings.Join(values, "\n")`. -/
def joinNL : List Bytes → Bytes
  | [] => []
  | [v] => v
  | v :: vs => v ++ 10 :: joinNL vs

/-- `strings.Split(s, "\n")`. -/
def splitNL : Bytes → List Bytes
  | [] => [[]]
  | b :: t =>
    if b = 10 then [] :: splitNL t
    else match splitNL t with
      | v :: vs => (b :: v) :: vs
      | [] => [[b]]

/-- Position of a value in the list of values: `internMappings[value]` after the loop at 349-352 (0 for a missing value). -/
def internOf (values : List Bytes) (v : Bytes) : Nat :=
  match values.findIdx? (· == v) with
  | some i => i
  | none => 0

/-- The loop of cmd/buildmetadata/main.go 373-388 and 447-474 over the sorted keys; `wr` writes the value part of an entry. -/
def writeEntries {ν : Type} (wr : ν → Bytes) (m : List (Int × ν)) : List Int → Int → Go Bytes
  | [], _ => .ok []
  | k :: ks, last => do
    let uv ← putUvarint6 (toUint64 (k - last))
    let rest ← writeEntries wr m ks k
    return uv ++ (match mapGet m k with | some v => wr v | none => []) ++ rest

/-- The distinct values in order of first occurrence (`seenValues`), then sorted. -/
def sortedValues (vs : List Bytes) : List Bytes := vs.eraseDups.mergeSort bytesLe

/-- The part common to both writers: the joined values with their length, the number of keys, the entries. -/
def renderWith {ν : Type} (values : List Bytes) (wr : ν → Bytes) (m : List (Int × ν)) : Go Bytes := do
  let keys := (m.map (·.1)).mergeSort (fun a b => decide (a ≤ b))
  let entries ← writeEntries wr m keys 0
  return le 4 (joinNL values).length ++ joinNL values ++ le 4 keys.length ++ entries

/-- cmd/buildmetadata/main.go 322-388: the body of `buildPrefixMetadata` for one language, up to the compression.  `m` lists the
map in the order in which the iteration at 328 visits it.  `none` is the error for too many values. -/
def renderPrefixMap (m : List (Int × Bytes)) : Go (Option Bytes) :=
  let values := sortedValues (m.map (·.2))
  if values.length > 65535 then .ok none
  else do return some (← renderWith values (fun v => le 2 (internOf values v)) m)

/-- cmd/buildmetadata/main.go 405-477: `renderMap`. -/
def renderMap (m : List (Int × List Bytes)) : Go Bytes :=
  let values := sortedValues (m.flatMap (·.2))
  renderWith values (fun vs => le 1 vs.length ++ vs.flatMap (fun v => le 2 (internOf values v))) m

/-! ## Loader -/

/-- The errors of the loaders (their texts are not modelled). -/
inductive LoadErr where
  /-- `io.EOF` or `io.ErrUnexpectedEOF` -/
  | eof
  /-- "unable to read all values" -/
  | values
  /-- "unable to read interned value" -/
  | intern
  /-- overflow in `binary.ReadUvarint` -/
  | varint
  deriving DecidableEq, Repr

/-- A reader: what is left of the input is passed on. -/
abbrev Rd (α : Type) := Bytes → Except LoadErr (α × Bytes)

/-- encoding/binary `binary.Read(reader, binary.LittleEndian, &x)` for an unsigned `x` of `k` bytes. -/
def rdLE (k : Nat) : Rd Nat := fun b => if b.length < k then .error .eof else .ok (unle (b.take k), b.drop k)

/-- `reader.Read(valueBytes)` with the check that all bytes were read. -/
def rdBytes (k : Nat) : Rd Bytes := fun b => if b.length < k then .error .values else .ok (b.take k, b.drop k)

/-- encoding/binary `ReadUvarint`, from byte number `i` on; the bitwise or with a shifted byte is an addition, since the bits do
not overlap. -/
def rdUvarintFrom : Nat → Nat → Nat → Rd Nat
  | 0, _, _, _ => .error .varint
  | fuel + 1, i, x, b =>
    match b with
    | [] => .error .eof
    | c :: t =>
      if c < 128 then
        if i = 9 ∧ c > 1 then .error .varint else .ok (x + c * 2 ^ (7 * i), t)
      else rdUvarintFrom fuel (i + 1) (x + (c % 128) * 2 ^ (7 * i)) t

/-- `binary.ReadUvarint(reader)`: at most ten bytes. -/
def rdUvarint : Rd Nat := rdUvarintFrom 10 0 0

/-- A loaded map: internal/serialize/serialize.go 17-20, 101-104: `IntStringMap`, `IntStringArrayMap`. -/
structure Loaded (ν : Type) where
  map : List (Int × ν)
  maxLength : Nat

/-- The loop of internal/serialize/serialize.go 53-78 and 137-170; `rv` reads the value part of an entry.  `dc` is `digitCount`
(87-97), which goes through `math.Log10` in floating point and is a parameter here. -/
def loadEntries {ν : Type} (dc : Int → Nat) (rv : Rd ν) : Nat → Int → Loaded ν → Rd (Loaded ν)
  | 0, _, acc, b => .ok (acc, b)
  | n + 1, key, acc, b => do
    let (diff, b) ← rdUvarint b
    let key := wrap64 (key + wrap64 diff)
    let (v, b) ← rv b
    loadEntries dc rv n key ⟨mapSet acc.map key v, max acc.maxLength (dc key)⟩ b

/-- The part common to both loaders. -/
def loadWith {ν : Type} (dc : Int → Nat) (rv : List Bytes → Rd ν) : Rd (Loaded ν) := fun b => do
  let (size, b) ← rdLE 4 b
  let (vb, b) ← rdBytes size b
  let (count, b) ← rdLE 4 b
  loadEntries dc (rv (splitNL vb)) count 0 ⟨[], 0⟩ b

/-- One interned value: internal/serialize/serialize.go 65-72, 157-162. -/
def rdIntern (values : List Bytes) : Rd Bytes := fun b =>
  match rdLE 2 b with
  | .error _ => .error .intern
  | .ok (i, b) => match values[i]? with
    | some v => .ok (v, b)
    | none => .error .intern

/-- internal/serialize/serialize.go 155-163: the values of one key. -/
def rdInterns (values : List Bytes) : Nat → Rd (List Bytes)
  | 0, b => .ok ([], b)
  | n + 1, b => do
    let (v, b) ← rdIntern values b
    let (vs, b) ← rdInterns values n b
    return (v :: vs, b)

/-- internal/serialize/serialize.go 149-163: the count and the values of one key. -/
def rdInternList (values : List Bytes) : Rd (List Bytes) := fun b => do
  let (n, b) ← rdLE 1 b
  rdInterns values n b

/-- internal/serialize/serialize.go 23-85: `LoadPrefixMap` after decompression.  Bytes after the last entry are ignored. -/
def loadPrefixMap (dc : Int → Nat) (raw : Bytes) : Except LoadErr (Loaded Bytes) := do
  return (← loadWith dc rdIntern raw).1

/-- internal/serialize/serialize.go 107-177: `LoadIntArrayMap` after decompression. -/
def loadIntArrayMap (dc : Int → Nat) (raw : Bytes) : Except LoadErr (Loaded (List Bytes)) := do
  return (← loadWith dc rdInternList raw).1

end Verif
