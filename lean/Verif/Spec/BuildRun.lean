import Verif.Model.BuildRun
/-!
# Specification: the disk while the build command runs
-/
namespace Verif.Spec
open Builder

/-- The files of the working directory. -/
abbrev Disk := Bytes → Option Bytes

/-- The disk after a file is written. -/
def Disk.set (d : Disk) (path content : Bytes) : Disk := fun q => if q = path then some content else d q

/-- The disk after all of the files are written, one after the other. -/
def Disk.after : Disk → List (Bytes × Bytes) → Disk
  | d, [] => d
  | d, (p, b) :: ws => (d.set p b).after ws

/-- The states of the disk that can be found when a program that writes the files `ws` is stopped at some moment: `os.WriteFile` empties the
file and then writes it, so that the file being written can hold any first part of its content. -/
inductive Seen : Disk → List (Bytes × Bytes) → Disk → Prop
  | stop (d ws) : Seen d ws d
  | during (d p b ws part) : part <+: b → Seen d ((p, b) :: ws) (d.set p part)
  | next (d p b ws d') : Seen (d.set p b) ws d' → Seen d ((p, b) :: ws) d'

/-- The files that the build command is for. -/
def outputs (src : Sources) : List Bytes :=
  [str!"metadata/data/metadata.xml.gz", str!"data/shortnumber_metadata.xml.gz", str!"data/alternateformats_metadata.xml.gz",
    str!"metadata/data/countrycode_to_region.xml.gz", str!"timezone/data/prefix_to_timezone.xml.gz"] ++
  src.carrier.map (fun l => str!"carrier/data/" ++ l.1 ++ str!".txt.gz") ++
  src.geocoding.map (fun l => str!"geocoding/data/" ++ l.1 ++ str!".txt.gz") ++ [str!"metadata/version.go"]

/-- The directories of a language appear once each. -/
structure Listed (src : Sources) : Prop where
  carrier : (src.carrier.map (·.1)).Nodup
  geocoding : (src.geocoding.map (·.1)).Nodup

/-- A line of `git ls-remote --tags`: the hash, a tab and the name of the tag. -/
def tagLine (hash tag : Bytes) : Bytes := hash ++ str!"\trefs/tags/" ++ tag ++ str!"\n"

/-- A hash in hexadecimal digits. -/
def IsHash (h : Bytes) : Prop := h ≠ [] ∧ ∀ b ∈ h, (48 ≤ b ∧ b ≤ 57) ∨ (97 ≤ b ∧ b ≤ 102)

/-- The name of a tag: not empty, no white space or control characters. -/
def IsTag (t : Bytes) : Prop := t ≠ [] ∧ ∀ b ∈ t, 32 < b

end Verif.Spec
