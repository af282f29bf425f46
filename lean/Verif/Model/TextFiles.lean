import Verif.Model.Serialize
import Verif.Model.Mapper
import Verif.Utf8
/-!
# Reading the text files of prefixes: `cmd/buildmetadata`

Carrier and geocoding files (`readMappingsForDir`) and the time zone file (`buildTimezoneMetadata`).  A file is its list of bytes;
finding and opening files is not modelled, so the files of a directory are given as a list, in the order of `filepath.Glob`.
-/
namespace Verif

/-- `strings.Split(s, sep)` and `strings.SplitSeq(s, sep)` for a separator of one byte. -/
def splitByte (sep : Nat) : Bytes → List Bytes
  | [] => [[]]
  | b :: t =>
    if b = sep then [] :: splitByte sep t
    else match splitByte sep t with
      | v :: vs => (b :: v) :: vs
      | [] => [[b]]

/-- unicode `IsSpace` (Unicode's White_Space property), used by `strings.TrimSpace`. -/
def isWhite (u : Nat) : Bool :=
  decide (9 ≤ u ∧ u ≤ 13) || u == 32 || u == 0x85 || u == 0xA0 || u == 0x1680 || decide (0x2000 ≤ u ∧ u ≤ 0x200A) ||
    u == 0x2028 || u == 0x2029 || u == 0x202F || u == 0x205F || u == 0x3000

/-- `strings.TrimSpace(s) == ""`: every character is white space (an invalid byte is not). -/
def isBlank (s : Bytes) : Bool := (Utf8.decode s).all isWhite

/-- cmd/buildmetadata/main.go 250-256, 504-509: the lines passed over, `strings.HasPrefix(line, "#")` or blank. -/
def skipLine (line : Bytes) : Bool := line.head? == some 35 || isBlank line

/-- The errors of the readers (their texts are not modelled). -/
inductive TextErr where
  /-- "error parsing line", "invalid prefix in line" -/
  | badPrefix (line : Bytes)
  /-- "found repeated prefix on line" -/
  | repeated (line : Bytes)
  /-- "invalid format in timezone file" -/
  | badFormat (line : Bytes)
  deriving DecidableEq, Repr

/-- cmd/buildmetadata/main.go 503-530: the loop over the lines of `readMappingsForDir`, with the map read so far.  The two loops
over files and lines are one loop here. -/
def readMappingLines : List Bytes → List (Int × Bytes) → Except TextErr (List (Int × Bytes))
  | [], m => .ok m
  | line :: ls, m =>
    if skipLine line then readMappingLines ls m
    else match splitByte 124 line with
      | [p, v] =>
        match atoi p with
        | none => .error (.badPrefix line)
        | some k =>
          if k < 0 then .error (.badPrefix line)
          else if isBlank v then readMappingLines ls m
          else if (mapGet m k).isSome then .error (.repeated line)
          else readMappingLines ls (mapSet m k v)
      | _ => readMappingLines ls m

/-- cmd/buildmetadata/main.go 489-536: `readMappingsForDir` for the files of a directory. -/
def readMappings (files : List Bytes) : Except TextErr (List (Int × Bytes)) := readMappingLines (files.flatMap (splitByte 10)) []

/-- cmd/buildmetadata/main.go 249-274: the loop over the lines of `buildTimezoneMetadata`.  The test `len(zones) < 1` never holds
and is left out.  An entry overwrites an earlier one for the same prefix. -/
def readZoneLines : List Bytes → List (Int × List Bytes) → Except TextErr (List (Int × List Bytes))
  | [], m => .ok m
  | line :: ls, m =>
    if skipLine line then readZoneLines ls m
    else match splitByte 124 line with
      | [p, z] =>
        match atoi p with
        | none => .error (.badPrefix line)
        | some k => readZoneLines ls ((k, splitByte 38 z) :: m.filter (fun e => decide (e.1 ≠ k)))
      | _ => .error (.badFormat line)

/-- cmd/buildmetadata/main.go 241-274: `buildTimezoneMetadata` up to the map it renders. -/
def readZones (file : Bytes) : Except TextErr (List (Int × List Bytes)) := readZoneLines (splitByte 10 file) []

end Verif
