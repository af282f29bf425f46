import Verif.Data.Shipped
import Verif.Spec.WellFormed
import Verif.Lemmas.Fast
import Verif.Spec.Formats
/-!
# The shipped metadata is well-formed

Each theorem evaluates a decidable predicate over the whole table in the kernel.
-/
namespace Verif.Data
open Spec

theorem wf_generalLengths : container.allMeta.all hasGeneralLengths = true := by kernel_rfl
theorem wf_allDescs : container.allMeta.all hasAllDescs = true := by kernel_rfl
theorem wf_lengthTables : container.allMeta.all lengthTablesOk = true := by kernel_rfl
theorem wf_regions : regionsOk container = true := by
  simp only [regionsOk, Container.hasCC, mapGet_str, mapGet_int]
  kernel_rfl
theorem wf_tables : tablesOk container = true := by
  simp only [tablesOk, Container.regionsOf, mapGet_str, mapGet_int, decide_str, decide_int, decide_strs]
  kernel_rfl
theorem wf_lengthsNested : lengthsNested container = true := by
  simp only [lengthsNested, Container.mainRegion, Container.regionsOf, mapGet_str, mapGet_int]
  kernel_rfl
theorem wf_transform : container.allMeta.all transformOk = true := by kernel_rfl
theorem wf_nonGeo : nonGeoOk container = true := by kernel_rfl

theorem wf_intlFormats : container.allMeta.all intlFormatsOk = true := by kernel_rfl
theorem wf_intlLiterals : container.allMeta.all intlLiteralsOk = true := by kernel_rfl
theorem wf_natFormats : container.allMeta.all natFormatsOk = true := by kernel_rfl

end Verif.Data
