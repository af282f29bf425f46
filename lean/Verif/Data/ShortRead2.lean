import Verif.Lemmas.WireFast
import Verif.Data.ShortBytes2
import Verif.Data.Short2
/-!
# The metadata in the bytes of `/repo/data/shortnumber_metadata.xml.gz`, part 2

The kernel reads the bytes.
-/
namespace Verif.Data
open Wire.Fast

theorem shortBytes2_framed : shortBytes2.all framed = true := by kernel_rfl

theorem shortBytes2_texts1 : Texts (shortBytes2.take 60) (short2.take 60) := by unfold Texts; kernel_rfl

theorem shortBytes2_texts2 : Texts (shortBytes2.drop 60) (short2.drop 60) := by unfold Texts; kernel_rfl

theorem short2_trees1 : Trees (short2.take 60) := by unfold Trees; kernel_rfl

theorem short2_trees2 : Trees (short2.drop 60) := by unfold Trees; kernel_rfl

theorem shortBytes2_holds : Holds (joined shortBytes2) short2 :=
  holds_split 60 shortBytes2_framed shortBytes2_texts1 shortBytes2_texts2 short2_trees1 short2_trees2

end Verif.Data
