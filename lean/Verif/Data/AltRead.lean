import Verif.Lemmas.WireFast
import Verif.Data.AltBytes
import Verif.Data.Alt
/-!
# The metadata in the bytes of `/repo/data/alternateformats_metadata.xml.gz`

The kernel reads the bytes.
-/
namespace Verif.Data
open Wire.Fast

theorem altBytes_framed : altBytes.all framed = true := by kernel_rfl

theorem altBytes_texts1 : Texts (altBytes.take 23) (alt.take 23) := by unfold Texts; kernel_rfl

theorem altBytes_texts2 : Texts (altBytes.drop 23) (alt.drop 23) := by unfold Texts; kernel_rfl

theorem alt_trees1 : Trees (alt.take 23) := by unfold Trees; kernel_rfl

theorem alt_trees2 : Trees (alt.drop 23) := by unfold Trees; kernel_rfl

theorem altBytes_holds : Holds (joined altBytes) alt :=
  holds_split 23 altBytes_framed altBytes_texts1 altBytes_texts2 alt_trees1 alt_trees2

end Verif.Data
