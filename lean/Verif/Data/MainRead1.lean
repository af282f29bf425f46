import Verif.Lemmas.WireFast
import Verif.Data.MainBytes1
import Verif.Data.Main1
/-!
# The metadata in the bytes of `/repo/metadata/data/metadata.xml.gz`, part 1

The kernel reads the bytes.
-/
namespace Verif.Data
open Wire.Fast

theorem mainBytes1_framed : mainBytes1.all framed = true := by kernel_rfl

theorem mainBytes1_texts1 : Texts (mainBytes1.take 42) (main1.take 42) := by unfold Texts; kernel_rfl

theorem mainBytes1_texts2 : Texts (mainBytes1.drop 42) (main1.drop 42) := by unfold Texts; kernel_rfl

theorem main1_trees1 : Trees (main1.take 42) := by unfold Trees; kernel_rfl

theorem main1_trees2 : Trees (main1.drop 42) := by unfold Trees; kernel_rfl

theorem mainBytes1_holds : Holds (joined mainBytes1) main1 :=
  holds_split 42 mainBytes1_framed mainBytes1_texts1 mainBytes1_texts2 main1_trees1 main1_trees2

end Verif.Data
