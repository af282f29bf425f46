import Verif.Lemmas.WireFast
import Verif.Data.MainBytes2
import Verif.Data.Main2
/-!
# The metadata in the bytes of `/repo/metadata/data/metadata.xml.gz`, part 2

The kernel reads the bytes.
-/
namespace Verif.Data
open Wire.Fast

theorem mainBytes2_framed : mainBytes2.all framed = true := by kernel_rfl

theorem mainBytes2_texts1 : Texts (mainBytes2.take 32) (main2.take 32) := by unfold Texts; kernel_rfl

theorem mainBytes2_texts2 : Texts (mainBytes2.drop 32) (main2.drop 32) := by unfold Texts; kernel_rfl

theorem main2_trees1 : Trees (main2.take 32) := by unfold Trees; kernel_rfl

theorem main2_trees2 : Trees (main2.drop 32) := by unfold Trees; kernel_rfl

theorem mainBytes2_holds : Holds (joined mainBytes2) main2 :=
  holds_split 32 mainBytes2_framed mainBytes2_texts1 mainBytes2_texts2 main2_trees1 main2_trees2

end Verif.Data
