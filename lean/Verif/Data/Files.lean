import Verif.Data.MainRead1
import Verif.Data.MainRead2
import Verif.Data.MainRead3
import Verif.Data.MainRead4
import Verif.Data.ShortRead1
import Verif.Data.ShortRead2
import Verif.Data.AltRead
import Verif.Data.RegionBytes
import Verif.Data.ShippedShort
/-!
# The embedded files

The bytes of the uncompressed embedded files: the records one after the other.
-/
namespace Verif.Data
open Wire.Fast

/-- The bytes of `/repo/metadata/data/metadata.xml.gz`, uncompressed. -/
noncomputable def mainFile : Bytes := (mainBytes1 ++ mainBytes2 ++ mainBytes3 ++ mainBytes4).flatMap fun e => e.1 ++ e.2

/-- The bytes of `/repo/data/shortnumber_metadata.xml.gz`, uncompressed. -/
noncomputable def shortFile : Bytes := (shortBytes1 ++ shortBytes2).flatMap fun e => e.1 ++ e.2

/-- The bytes of `/repo/data/alternateformats_metadata.xml.gz`, uncompressed. -/
noncomputable def altFile : Bytes := altBytes.flatMap fun e => e.1 ++ e.2

theorem mainFile_holds : Holds mainFile collection := by
  have : mainFile = joined mainBytes1 ++ joined mainBytes2 ++ joined mainBytes3 ++ joined mainBytes4 := by
    rw [← joined_append, ← joined_append, ← joined_append]
    rfl
  rw [this]
  exact ((mainBytes1_holds.append mainBytes2_holds).append mainBytes3_holds).append mainBytes4_holds

theorem shortFile_holds : Holds shortFile shortCollection := by
  have : shortFile = joined shortBytes1 ++ joined shortBytes2 := by
    rw [← joined_append]
    rfl
  rw [this]
  exact shortBytes1_holds.append shortBytes2_holds

theorem altFile_holds : Holds altFile alt := altBytes_holds

end Verif.Data
