import Verif.Lemmas.WireFast
import Verif.Data.MainBytes4
import Verif.Data.Main4
/-!
# The metadata in the bytes of `/repo/metadata/data/metadata.xml.gz`, part 4

The kernel reads the bytes.
-/
namespace Verif.Data
open Wire.Fast

theorem mainBytes4_framed : mainBytes4.all framed = true := by kernel_rfl

theorem mainBytes4_texts1 : Texts (mainBytes4.take 32) (main4.take 32) := by unfold Texts; kernel_rfl

theorem mainBytes4_texts2 : Texts (mainBytes4.drop 32) (main4.drop 32) := by unfold Texts; kernel_rfl

theorem main4_trees1 : Trees (main4.take 32) := by unfold Trees; kernel_rfl

theorem main4_trees2 : Trees (main4.drop 32) := by unfold Trees; kernel_rfl

theorem mainBytes4_holds : Holds (joined mainBytes4) main4 :=
  holds_split 32 mainBytes4_framed mainBytes4_texts1 mainBytes4_texts2 main4_trees1 main4_trees2

end Verif.Data
