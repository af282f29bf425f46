import Verif.Lemmas.WireFast
import Verif.Data.MainBytes3
import Verif.Data.Main3
/-!
# The metadata in the bytes of `/repo/metadata/data/metadata.xml.gz`, part 3

The kernel reads the bytes.
-/
namespace Verif.Data
open Wire.Fast

theorem mainBytes3_framed : mainBytes3.all framed = true := by kernel_rfl

theorem mainBytes3_texts1 : Texts (mainBytes3.take 32) (main3.take 32) := by unfold Texts; kernel_rfl

theorem mainBytes3_texts2 : Texts (mainBytes3.drop 32) (main3.drop 32) := by unfold Texts; kernel_rfl

theorem main3_trees1 : Trees (main3.take 32) := by unfold Trees; kernel_rfl

theorem main3_trees2 : Trees (main3.drop 32) := by unfold Trees; kernel_rfl

theorem mainBytes3_holds : Holds (joined mainBytes3) main3 :=
  holds_split 32 mainBytes3_framed mainBytes3_texts1 mainBytes3_texts2 main3_trees1 main3_trees2

end Verif.Data
