import Verif.Lemmas.WireFast
import Verif.Data.ShortBytes1
import Verif.Data.Short1
/-!
# The metadata in the bytes of `/repo/data/shortnumber_metadata.xml.gz`, part 1

The kernel reads the bytes.
-/
namespace Verif.Data
open Wire.Fast

theorem shortBytes1_framed : shortBytes1.all framed = true := by kernel_rfl

theorem shortBytes1_texts1 : Texts (shortBytes1.take 60) (short1.take 60) := by unfold Texts; kernel_rfl

theorem shortBytes1_texts2 : Texts (shortBytes1.drop 60) (short1.drop 60) := by unfold Texts; kernel_rfl

theorem short1_trees1 : Trees (short1.take 60) := by unfold Trees; kernel_rfl

theorem short1_trees2 : Trees (short1.drop 60) := by unfold Trees; kernel_rfl

theorem shortBytes1_holds : Holds (joined shortBytes1) short1 :=
  holds_split 60 shortBytes1_framed shortBytes1_texts1 shortBytes1_texts2 short1_trees1 short1_trees2

end Verif.Data
