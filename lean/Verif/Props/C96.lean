import Verif.Data.Files
import Verif.Model.Embedded
import Verif.Spec.Embedded
import Verif.Lemmas.Serialize
/-!
# C96: the embedded bytes are the metadata the theorems are about
-/
namespace Verif
open Spec

theorem collectionOf_holds {bs : Bytes} {c : List Metadata} (h : Wire.Fast.Holds bs c) : collectionOf bs = some c := by
  obtain ⟨ps, h1, h2⟩ := h
  unfold collectionOf
  rw [h1]
  exact h2

/-- The container does not depend on the order of the country codes. -/
theorem sameContainer_perm {coll : List Metadata} {m m' : List (Int × List Str)} (hk : (m.map (·.1)).Nodup) (hp : m.Perm m') {D : Container}
    (h : newContainer coll m = some D) : ∃ C, newContainer coll m' = some C ∧ SameContainer C D := by
  unfold newContainer at h ⊢
  by_cases h0 : coll = []
  · rw [if_pos h0] at h; cases h
  · rw [if_neg h0] at h ⊢
    refine ⟨_, rfl, ?_⟩
    have h := (Option.some.inj h).symm
    subst h
    have hg : ∀ k, mapGet m' k = mapGet m k := fun k => (mapGet_perm hk hp k).symm
    refine ⟨fun _ => rfl, fun _ => rfl, hg, ?_, ?_, ?_, ?_⟩
    · intro r; dsimp only; rw [hg]
    · intro r
      exact (((hp.symm.filter _).flatMap_right _).filter _).mem_iff
    · intro cc
      exact (hp.symm.map _).mem_iff
    · intro cc
      exact ((hp.symm.filter _).map _).mem_iff

namespace Props

/-- The bytes of the metadata file read as protocol buffers are the 254 entries the theorems use. -/
theorem C96_collection : collectionOf Data.mainFile = some Data.collection := collectionOf_holds Data.mainFile_holds

/-- The bytes of the short number file. -/
theorem C96_short : collectionOf Data.shortFile = some Data.shortCollection ∧ loadShort Data.shortFile = some Data.shortMap := by
  have h := collectionOf_holds Data.shortFile_holds
  refine ⟨h, ?_⟩
  unfold loadShort
  rw [h]
  exact Data.shortMap_eq

/-- The bytes of the file of alternate formats. -/
theorem C96_alternate : collectionOf Data.altFile = some Data.alt := collectionOf_holds Data.altFile_holds

/-- Loading the embedded files at the start of a program does not fail, and the container is the one the theorems use. -/
theorem C96_load (dc : Int → Nat) : ∃ C, load dc Data.regionBytes Data.mainFile = some C ∧ SameContainer C Data.container := by
  obtain ⟨r, h1, h2⟩ := Data.regionBytes_holds dc
  have hk : (Data.ccMap.map (·.1)).Nodup := by decide +kernel
  obtain ⟨C, h3, h4⟩ := sameContainer_perm hk (List.reverse_perm _).symm Data.newContainer_eq
  refine ⟨C, ?_, h4⟩
  unfold load
  rw [h1]
  dsimp only
  rw [C96_collection, Option.bind_some, h2, h3]

/-- The sizes of the files. -/
theorem C96_sizes : Data.mainFile.length = 204020 ∧ Data.regionBytes.length = 1684 ∧ Data.shortFile.length = 53293 ∧
    Data.altFile.length = 20344 := by
  refine ⟨Wire.Fast.fits_length ?_, Wire.Fast.fits_length ?_, Wire.Fast.fits_length ?_, Wire.Fast.fits_length ?_⟩ <;> kernel_rfl

/-- The first bytes of the files, as `zcat` shows them; the entry of Andorra in the file, and a file cut short is refused. -/
example : Data.regionBytes.take 12 = [226, 2, 0, 0, 48, 48, 49, 10, 65, 67, 10, 65] ∧
    Data.mainFile.take 12 = [10, 234, 1, 10, 32, 18, 26, 40, 63, 58, 91, 48] := by
  refine ⟨?_, ?_⟩ <;> kernel_rfl

example : (collectionOf ([10, 229, 2] ++ Data.mainBytes1.e1.drop 1)).isNone = true ∧
    (collectionOf (([10, 229, 2] ++ Data.mainBytes1.e1))).map (fun c => c.map fun m => m.id) = some [(str!"AD")] := by
  refine ⟨?_, ?_⟩ <;> kernel_rfl

end Props
end Verif
