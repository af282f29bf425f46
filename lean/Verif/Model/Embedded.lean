import Verif.Model.Wire
import Verif.Model.Serialize
import Verif.Model.Container
import Verif.Model.ShortNumber
/-!
# Loading the embedded files (metadata/source.go, shortnumberinfo.go, alternateformats.go)

The files are given uncompressed: `serialize.DecodeUnzip` (compress/gzip) is not modelled.
-/
namespace Verif

/-- metadata/source.go 208-225: `Collection`; also shortnumberinfo.go 37-51 (`ShortNumberMetadataCollection`) and alternateformats.go
24-36.  `none` models the error of `proto.Unmarshal`.  Simplification: patterns are compiled here, so a file with a pattern that does
not compile cannot be loaded; the library compiles a pattern when it is first used. -/
def collectionOf (raw : Bytes) : Option (List Metadata) :=
  (Wire.unmarshalCollection raw).bind fun c => c.mapM (Wire.toMetadata Utf8.decode)

/-- metadata/source.go 76-90: `Load` on the uncompressed files; `none` models an error, on which `init` (67-73) panics.  `dc` is the
parameter of `loadIntArrayMap`.  The names of the regions are texts. -/
def load (dc : Int → Nat) (regionRaw numberRaw : Bytes) : Option Container :=
  match loadIntArrayMap dc regionRaw with
  | .error _ => none
  | .ok r => (collectionOf numberRaw).bind fun c => newContainer c (r.map.map fun e => (e.1, e.2.map Utf8.decode))

/-- shortnumberinfo.go 53-75: `loadShortNumberMetadataFromFile` on the uncompressed file. -/
def loadShort (raw : Bytes) : Option ShortMap := (collectionOf raw).bind loadShortNumbers

end Verif
