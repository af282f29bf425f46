import Verif.Model.BuildFiles
import Verif.Model.TextFiles
/-!
# A run of the build command (cmd/buildmetadata/main.go)

What the command reads is given as `Sources`: the decoded XML files and the text files of the cloned repository.  What it does to the disk
outside `_build` is the list of files it writes, in order.  `gz` is the compression (`generateBinFile`, 480-487, and 390-395).  The messages
on the terminal, `os.MkdirAll` and failing reads and writes of the file system are not modelled, except that a run can stop at any point.
-/
namespace Verif
namespace Builder
open Wire

/-- The files of the cloned repository that the command uses.  A language is a directory name with the text files in it. -/
structure Sources where
  main : List TerritoryE
  short : List TerritoryE
  alternate : List TerritoryE
  zones : Bytes
  carrier : List (Bytes × List Bytes)
  geocoding : List (Bytes × List Bytes)

/-- What a part of the command does: the files written, and whether it came to its end without an error or a panic. -/
structure Job where
  writes : List (Bytes × Bytes)
  done : Bool

/-- One part after the other; an error ends the command. -/
def Job.andThen (a b : Job) : Job := if a.done then ⟨a.writes ++ b.writes, b.done⟩ else a

/-- A part that makes one file, or fails. -/
def Job.file (path : Bytes) : Option Bytes → Job
  | some b => ⟨[(path, b)], true⟩
  | none => ⟨[], false⟩

/-- cmd/buildmetadata/main.go 27 and 61: the file of the main metadata. -/
def mainPath : Bytes := str!"metadata/data/metadata.xml.gz"
/-- cmd/buildmetadata/main.go 23 and 68: the file of the short numbers. -/
def shortPath : Bytes := str!"data/shortnumber_metadata.xml.gz"
/-- cmd/buildmetadata/main.go 23 and 75: the file of the alternate formats. -/
def alternatePath : Bytes := str!"data/alternateformats_metadata.xml.gz"
/-- cmd/buildmetadata/main.go 27 and 81: the file of the region map. -/
def regionPath : Bytes := str!"metadata/data/countrycode_to_region.xml.gz"
/-- cmd/buildmetadata/main.go 35 and 87: the file of the time zones. -/
def zonePath : Bytes := str!"timezone/data/prefix_to_timezone.xml.gz"
/-- cmd/buildmetadata/main.go 172: the file with the version. -/
def versionPath : Bytes := str!"metadata/version.go"

/-- cmd/buildmetadata/main.go 397: the file of a language. -/
def languagePath (dir lang : Bytes) : Bytes := dir ++ str!"/" ++ lang ++ str!".txt.gz"

/-- cmd/buildmetadata/main.go 162-176: the text of `metadata/version.go`.  Simplification: `%q` is taken to put quotes around the version, as
it does for printable text without quotes and backslashes. -/
def versionText (version : Bytes) : Bytes :=
  str!"// Code generated by cmd/buildmetadata. DO NOT EDIT.\n\npackage metadata\n\n// Version is the upstream libphonenumber release tag that the embedded metadata\n// was built from.\nconst Version = \"" ++
    version ++ str!"\"\n"

/-- A Go map (an association list in which an earlier entry hides a later one) as a list of its entries. -/
def entries {ν : Type} (m : List (Int × ν)) : List (Int × ν) := (m.map (·.1)).eraseDups.filterMap fun k => (mapGet m k).map fun v => (k, v)

/-- The result of a writer, with panics and errors as `none`. -/
def okBytes : Go Bytes → Option Bytes
  | .ok b => some b
  | .error _ => none

/-- The built collection and the uncompressed file, with panics and errors as `none`. -/
def okFile : Go (Option (List Metadata × Bytes)) → Option (List Metadata × Bytes)
  | .ok r => r
  | .error _ => none

/-- The table of a language before compression: cmd/buildmetadata/main.go 322-388; `none` for a panic or an error. -/
def languageBytes (m : List (Int × Bytes)) : Option Bytes :=
  match renderPrefixMap m with
  | .ok r => r
  | .error _ => none

/-- cmd/buildmetadata/main.go 320-400: the loop of `buildPrefixMetadata` over the languages. -/
def languageJobs (gz : Bytes → Bytes) (dir : Bytes) : List (Bytes × List (Int × Bytes)) → Job
  | [] => ⟨[], true⟩
  | (lang, m) :: ls => (Job.file (languagePath dir lang) ((languageBytes m).map gz)).andThen (languageJobs gz dir ls)

/-- The maps of all languages (301-317); `none` if some directory cannot be read as a table. -/
def languageMaps : List (Bytes × List Bytes) → Option (List (Bytes × List (Int × Bytes)))
  | [] => some []
  | (lang, files) :: ls =>
    match readMappings files with
    | .error _ => none
    | .ok m => (languageMaps ls).map fun r => (lang, m) :: r

/-- cmd/buildmetadata/main.go 289-403: `buildPrefixMetadata`.  The languages are written in the order of their names. -/
def prefixJob (gz : Bytes → Bytes) (dir : Bytes) (langs : List (Bytes × List Bytes)) : Job :=
  match languageMaps langs with
  | none => ⟨[], false⟩
  | some l => languageJobs gz dir (l.mergeSort fun a b => bytesLe a.1 b.1)

/-- cmd/buildmetadata/main.go 241-287: `buildTimezoneMetadata`. -/
def zoneBytes (file : Bytes) : Option Bytes :=
  match readZones file with
  | .error _ => none
  | .ok m => okBytes (renderMap m)

/-- cmd/buildmetadata/main.go 47-110: `buildMetadata` after the clone.  The maps are rendered in the order of `entries`; the result does not
depend on it (C44). -/
def buildRun (compile : Str → Option Re) (o : Order) (order : List Field → List Field) (gz : Bytes → Bytes) (src : Sources) (version : Bytes) : Job :=
  match okFile (metadataFile compile o order false false src.main) with
  | none => ⟨[], false⟩
  | some (coll, nb) =>
    (Job.file mainPath (some (gz nb))).andThen <|
    (Job.file shortPath ((okFile (metadataFile compile o order true false src.short)).map fun r => gz r.2)).andThen <|
    (Job.file alternatePath ((okFile (metadataFile compile o order false true src.alternate)).map fun r => gz r.2)).andThen <|
    (Job.file regionPath ((okBytes (regionFile (entries (regionMap coll)))).map gz)).andThen <|
    (Job.file zonePath ((zoneBytes src.zones).map gz)).andThen <|
    (prefixJob gz (str!"carrier/data") src.carrier).andThen <|
    (prefixJob gz (str!"geocoding/data") src.geocoding).andThen <|
    Job.file versionPath (some (versionText version))

/-- What follows the first `sep`, as `strings.Cut` gives it. -/
def cutAfter (sep : Bytes) : Bytes → Option Bytes
  | [] => if sep = [] then some [] else none
  | b :: s => if sep.isPrefixOf (b :: s) then some ((b :: s).drop sep.length) else cutAfter sep s

/-- ASCII white space, which `strings.TrimSpace` removes. -/
def isAsciiSpace (b : Nat) : Bool := decide (9 ≤ b ∧ b ≤ 13) || b == 32

/-- cmd/buildmetadata/main.go 139-144: the loop of `latestUpstreamRelease`. -/
def firstTag : List Bytes → Option Bytes
  | [] => none
  | l :: ls =>
    match cutAfter (str!"refs/tags/") l with
    | some tag => if tag.head? == some 118 then some tag else firstTag ls
    | none => firstTag ls

/-- cmd/buildmetadata/main.go 134-147: `latestUpstreamRelease` on the output of `git ls-remote`; `none` is the error.  Simplification:
`strings.TrimSpace` also removes white space beyond ASCII. -/
def latestUpstreamRelease (out : Bytes) : Option Bytes :=
  firstTag (splitByte 10 ((out.dropWhile isAsciiSpace).reverse.dropWhile isAsciiSpace).reverse)

/-- cmd/buildmetadata/main.go 114-129: `resolveVersion`; `args` are the arguments of the command, `out` is what git prints. -/
def resolveVersion (args : List Bytes) (out : Bytes) : Option Bytes :=
  match args with
  | v :: _ => some v
  | [] => latestUpstreamRelease out

end Builder
end Verif
