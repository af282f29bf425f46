import Verif.Lemmas.ShownJob
import Verif.Data.Shipped
/-!
# The rules of the shipped metadata can be followed while a number is being typed
-/
namespace Verif.Data
open Spec Aytf

theorem shown0 : shownPart container 0 = true := by kernel_rfl
theorem shown1 : shownPart container 1 = true := by kernel_rfl
theorem shown2 : shownPart container 2 = true := by kernel_rfl
theorem shown3 : shownPart container 3 = true := by kernel_rfl
theorem shown4 : shownPart container 4 = true := by kernel_rfl
theorem shown5 : shownPart container 5 = true := by kernel_rfl
theorem shown6 : shownPart container 6 = true := by kernel_rfl
theorem shown7 : shownPart container 7 = true := by kernel_rfl
theorem shown_end : container.allMeta.drop (32 * 8) = [] := by kernel_rfl

theorem wf_shown : container.allMeta.all shownOk = true := by
  refine all_parts 8 _ (fun i hi => ?_) shown_end
  match i, hi with
  | 0, _ => exact shown0
  | 1, _ => exact shown1
  | 2, _ => exact shown2
  | 3, _ => exact shown3
  | 4, _ => exact shown4
  | 5, _ => exact shown5
  | 6, _ => exact shown6
  | 7, _ => exact shown7

end Verif.Data
