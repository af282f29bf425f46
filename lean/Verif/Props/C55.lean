import Verif.Props.C26
import Verif.Model.Parse
import Verif.Lemmas.Fast
/-!
# C55: example numbers of non-geographical codes are valid
-/
namespace Verif
open Spec

/-- The example of one non-geographical code is a valid number of that code. -/
def nonGeoExampleOk (C : Container) (cc : Int) : Bool :=
  match exampleForNonGeo C cc with
  | .ok (some n) => decide (n.cc = cc) && match isValidNumber C n with | .ok true => true | _ => false
  | _ => false

theorem Data.wf_nonGeoExamples : Data.container.nonGeoMeta.all (fun e => nonGeoExampleOk Data.container e.1) = true := by kernel_rfl

theorem Data.wf_nonGeoRegions :
    Data.container.nonGeoMeta.all (fun e => decide (Data.container.regionsOf e.1 = [nonGeoRegion])) = true := by
  simp only [Container.regionsOf, mapGet_int, decide_strs]
  kernel_rfl

theorem metaForNonGeo_mem {C : Container} {cc : Int} {m : Metadata} (h : C.metaForNonGeo cc = some m) : (cc, m) ∈ C.nonGeoMeta := by
  unfold Container.metaForNonGeo at h
  split at h
  · exact mapGet_mem h
  · cases h

namespace Props

/-- Every country calling code whose region is "001" has an example number, which is a valid number of that code. -/
theorem C55_example (cc : Int) (h : Data.container.regionsOf cc = [nonGeoRegion]) :
    ∃ n, exampleForNonGeo Data.container cc = .ok (some n) ∧ n.cc = cc ∧ isValidNumber Data.container n = .ok true := by
  have hr : nonGeoRegion ∈ Data.container.regionsOf cc := by simp [h]
  rcases regionsOf_meta built_shipped Data.wf_tables hr with ⟨-, -, m, hm, -⟩ | ⟨h0, -⟩
  · have h2 := List.all_eq_true.1 Data.wf_nonGeoExamples _ (metaForNonGeo_mem hm)
    simp only [nonGeoExampleOk] at h2
    split at h2
    · rename_i n hn
      simp only [Bool.and_eq_true, decide_eq_true_eq] at h2
      refine ⟨n, hn, h2.1, ?_⟩
      have := h2.2
      split at this
      · assumption
      · cases this
    · cases h2
  · exact absurd rfl h0

/-- And no other code has one. -/
theorem C55_none (cc : Int) (h : Data.container.regionsOf cc ≠ [nonGeoRegion]) : exampleForNonGeo Data.container cc = .ok none := by
  unfold exampleForNonGeo
  cases hm : Data.container.metaForNonGeo cc with
  | none => rfl
  | some m =>
    have := List.all_eq_true.1 Data.wf_nonGeoRegions _ (metaForNonGeo_mem hm)
    exact absurd (of_decide_eq_true this) h

example : Data.container.regionsOf 800 = [nonGeoRegion] := by kernel_rfl
example : exampleForNonGeo Data.container 800 = .ok (some { countryCode := some 800, nationalNumber := some 12345678 }) := by kernel_rfl

end Props
end Verif
