import Verif.Spec.Lookup
import Verif.Model.Serialize
/-!
# Files of names
-/
namespace Verif.Spec

/-- A usable map of names: no prefix twice, all prefixes positive and of at most nine digits, no name empty. -/
structure GoodNames (m : List (Int × Bytes)) : Prop where
  once : (m.map (·.1)).Nodup
  short : ∀ e ∈ m, 0 < e.1 ∧ e.1 < 10 ^ 9
  named : ∀ e ∈ m, e.2 ≠ []

/-- The file system `gz` holds, for each language of the table `files` and no other, a file that `unzip` turns into that of the table. -/
def Embedded (files : List (Str × Bytes)) (gz : Str → Option Bytes) (unzip : Bytes → Bytes) : Prop :=
  ∀ lang, (gz lang = none ∧ lang ∉ files.map (·.1)) ∨ ∃ d, gz lang = some d ∧ (lang, unzip d) ∈ files

/-- `v` is the name that the map `m` has for the digits `ds`: the non-empty name of the longest of all prefixes in the map. -/
def Named (m : List (Int × Bytes)) (ds : Str) (v : Bytes) : Prop := ∃ p k, LongestPrefix m ds ds.length p k v ∧ v ≠ []

/-- The map `m` has no name for the digits `ds`: no prefix is in it. -/
def Unnamed (m : List (Int × Bytes)) (ds : Str) : Prop := NoPrefix m ds ds.length

end Verif.Spec
