import Verif.Spec.Api
import Verif.Props.C06
import Verif.Props.C19
import Verif.Props.C20
import Verif.Props.C24
import Verif.Props.C26
import Verif.Props.C27
import Verif.Props.C29
import Verif.Props.C57
import Verif.Lemmas.MatcherTotal
/-!
# Every call returns: lemmas

`Ret x` says that the computation returns a value. It is closed under sequencing, so that each function returns if the functions it
calls do.
-/
namespace Verif
open Spec

/-- The computation returns. -/
def Ret {α : Type} (x : Go α) : Prop := ∃ a, x = .ok a

theorem Ret.ok {α : Type} (a : α) : Ret (.ok a : Go α) := ⟨a, rfl⟩
theorem Ret.pure {α : Type} (a : α) : Ret (Pure.pure a : Go α) := ⟨a, rfl⟩

theorem Ret.bind {α β : Type} {x : Go α} {f : α → Go β} (h : Ret x) (hf : ∀ a, Ret (f a)) : Ret (x >>= f) := by
  obtain ⟨a, rfl⟩ := h
  exact hf a

theorem Ret.quiet {α : Type} {x : Go α} (h : Ret x) : Spec.quiet x = .ok () := by
  obtain ⟨a, rfl⟩ := h
  rfl

theorem ret_parseHelper (s region : Str) (keep check : Bool) (n : PhoneNumber) : Ret (parseHelper Data.container s region keep check n) :=
  parseHelper_ok Data.wf_generalLengths s region keep check n

theorem ret_parse (s region : Str) : Ret (parse Data.container s region) := ret_parseHelper ..

theorem ret_type (n : PhoneNumber) : Ret (numberType Data.container n) := by
  obtain ⟨_, t, -, h, -⟩ := Props.C26_shipped n
  exact ⟨t, h⟩

theorem ret_region (n : PhoneNumber) : Ret (regionForNumber Data.container n) := by
  obtain ⟨r, h, -⟩ := regionForNumber_ok built_shipped Data.wf_tables Data.wf_allDescs n
  exact ⟨r, h⟩

theorem ret_valid (n : PhoneNumber) : Ret (isValidNumber Data.container n) := isValidNumber_ok n

theorem ret_length (n : PhoneNumber) (t : NumType) : Ret (possibleForTypeWithReason Data.container n t) := by
  unfold possibleForTypeWithReason
  by_cases hcc : Data.container.hasCC n.cc = true
  · obtain ⟨m, hm, -⟩ := main_meta built_shipped Data.wf_tables hcc
    simp only [hcc, Bool.not_true, Bool.false_eq_true, if_false, hm]
    obtain ⟨r, h, -⟩ := Props.C24_length m (List.all_eq_true.1 Data.wf_lengthTables m (Container.metaFor_mem hm)) (nsnOf n) t
    exact ⟨r, h⟩
  · simp only [hcc]
    exact Ret.ok _

theorem ret_possible (n : PhoneNumber) : Ret (possibleWithReason Data.container n) := by
  unfold possibleWithReason
  by_cases hcc : Data.container.hasCC n.cc = true
  · have := ret_length n .unknown
    simp only [possibleForTypeWithReason, hcc, Bool.not_true, Bool.false_eq_true, if_false] at this
    simp only [hcc, Bool.not_true, Bool.false_eq_true, if_false]
    repeat' split
    all_goals first | exact Ret.ok _ | exact this
  · simp only [hcc]
    exact Ret.ok _

theorem ret_dialled (n : PhoneNumber) : Ret (canBeInternationallyDialled Data.container n) :=
  canBeInternationallyDialled_ok built_shipped Data.wf_tables Data.wf_allDescs n

theorem ret_geographical (n : PhoneNumber) : Ret (isGeographical Data.container n) := (ret_type n).bind fun _ => Ret.pure _

theorem ret_ndc (n : PhoneNumber) : Ret (lengthOfNdc Data.container n) := by
  unfold lengthOfNdc
  simp only
  split
  · refine (ret_type n).bind fun t => ?_
    repeat' split
    all_goals exact ⟨_, rfl⟩
  · exact Ret.ok _

theorem ret_area (n : PhoneNumber) : Ret (lengthOfAreaCode Data.container n) := by
  unfold lengthOfAreaCode
  refine (ret_region n).bind fun r => ?_
  split
  · exact Ret.pure _
  · refine (ret_type n).bind fun t => ?_
    repeat' first | exact Ret.pure _ | exact ret_ndc n | refine (ret_geographical n).bind fun g => ?_ | split

theorem ret_mobile (n : PhoneNumber) (r : Str) (b : Bool) : Ret (formatForMobile Data.container n r b) := by
  unfold formatForMobile
  by_cases hcc : Data.container.hasCC n.cc = true
  · simp only [hcc, Bool.not_true, Bool.false_eq_true, if_false]
    refine (ret_type _).bind fun t => ?_
    split
    · rename_i hreg
      split
      · exact Ret.pure _
      · split
        · rename_i h1
          refine Ret.bind ?_ fun _ => Ret.pure _
          refine (ret_dialled _).bind fun c => ?_
          split
          · refine Ret.bind ?_ fun _ => Ret.pure _
            have hv : (Data.container.metaForRegion (Data.container.mainRegion nanpaCountryCode)).isSome = true := by kernel_rfl
            rw [hreg, h1]
            obtain ⟨m, hm⟩ := Option.isSome_iff_exists.1 hv
            rw [hm]
            exact testNumberLength_unknown_ok (List.all_eq_true.1 Data.wf_generalLengths m (Container.metaForRegion_mem hm)) _
          · exact Ret.pure _
        · refine Ret.bind ?_ fun _ => Ret.pure _
          split
          · exact ret_dialled _
          · exact Ret.pure _
    · refine Ret.bind ?_ fun d => ?_
      · split
        · exact ret_dialled _
        · exact Ret.pure _
      · repeat' split
        all_goals exact ⟨_, rfl⟩
  · simp only [hcc]
    exact Ret.ok _

theorem format_ne_nil (n : PhoneNumber) : format Data.container n .international ≠ [] := by
  unfold format
  split
  · rename_i h; exact h.2
  · unfold formatCore
    rw [if_neg (by decide)]
    split
    · exact nsnOf_ne_nil n
    · simp [prefixWithCC]

theorem ret_original (n : PhoneNumber) (r : Str) : Ret (formatInOriginal Data.container n r) := by
  have hb : Ret (originalBody Data.container n r) := by
    unfold originalBody
    split
    · exact Ret.ok _
    · exact Ret.ok _
    · cases h : format Data.container n .international with
      | nil => exact absurd h (format_ne_nil n)
      | cons u t => exact ⟨_, rfl⟩
    · exact originalNational_ok Data.wf_generalLengths built_shipped Data.wf_tables Data.wf_allDescs n
  unfold formatInOriginal
  split
  · exact Ret.ok _
  · split
    · exact Ret.ok _
    · refine hb.bind fun out => ?_
      repeat' split
      all_goals exact ⟨_, rfl⟩

theorem ret_exampleIn (r : Str) (t : NumType) : Ret (exampleForTypeInRegion Data.container r t) := by
  unfold exampleForTypeInRegion
  simp only
  repeat' first | exact Ret.ok _ | exact Ret.pure _ | refine (ret_parse _ _).bind fun a => ?_ | split

theorem ret_amongRegions (t : NumType) : ∀ rs, Ret (exampleAmongRegions Data.container t rs)
  | [] => Ret.ok _
  | r :: rs => by
    unfold exampleAmongRegions
    refine (ret_exampleIn r t).bind fun o => ?_
    split
    · exact Ret.pure _
    · exact ret_amongRegions t rs

theorem ret_amongCodes (t : NumType) : ∀ cs, Ret (exampleAmongCodes Data.container t cs)
  | [] => Ret.ok _
  | c :: cs => by
    unfold exampleAmongCodes
    simp only
    split
    · refine (ret_parse _ _).bind fun o => ?_
      split
      · exact Ret.pure _
      · exact ret_amongCodes t cs
    · exact ret_amongCodes t cs

theorem ret_exampleOfType (rs : List Str) (cs : List Int) (t : NumType) : Ret (exampleForType Data.container rs cs t) := by
  refine (ret_amongRegions t rs).bind fun o => ?_
  split
  · exact Ret.pure _
  · exact ret_amongCodes t cs

theorem ret_nonGeo (cc : Int) : Ret (exampleForNonGeo Data.container cc) := by
  unfold exampleForNonGeo
  repeat' first | exact Ret.ok _ | exact Ret.pure _ | refine (ret_parse _ _).bind fun a => ?_ | split

theorem ret_carrier (p : Option (List (Int × Bytes))) (n : PhoneNumber) : Ret (carrierForNumber Data.container p n) := by
  refine (ret_type n).bind fun t => ?_
  split <;> exact Ret.pure _

theorem ret_carrierSafe (p : Option (List (Int × Bytes))) (n : PhoneNumber) : Ret (carrierSafe Data.container p n) := by
  refine (ret_region n).bind fun t => ?_
  split
  · exact Ret.pure _
  · exact ret_carrier p n

theorem ret_where (n : PhoneNumber) : ∀ rs acc, Ret (regionWhereValid Data.container n rs acc)
  | [], _ => Ret.ok _
  | r :: rs, acc => by
    unfold regionWhereValid
    have h : Ret (isValidForRegion Data.container n r) := Props.C27_total n r
    refine h.bind fun b => ?_
    repeat' first | exact Ret.pure _ | exact ret_where n rs _ | split

theorem ret_country (d : Str → Bytes) (n : PhoneNumber) : Ret (countryName Data.container d n) := by
  unfold countryName
  split
  · exact Ret.ok _
  · refine (ret_where n _ _).bind fun o => ?_
    split <;> exact Ret.pure _

theorem ret_lookup (n : PhoneNumber) : Ret (geoLookupNumber Data.container n) := by
  unfold geoLookupNumber
  simp only
  repeat' first | exact Ret.ok _ | exact Ret.pure _ | refine (ret_parse _ _).bind fun a => ?_ | split

theorem ret_describeValid (d : Str → Bytes) (p : Option (List (Int × Bytes))) (n : PhoneNumber) :
    Ret (descriptionForValid Data.container d p n) := by
  unfold descriptionForValid
  refine (ret_lookup n).bind fun l => ?_
  split
  · exact Ret.pure _
  · split
    · exact Ret.pure _
    · exact (ret_country d n).bind fun _ => Ret.pure _

theorem ret_describeValidFor (d : Str → Bytes) (p : Option (List (Int × Bytes))) (n : PhoneNumber) (u : Str) :
    Ret (descriptionForValidForUser Data.container d p n u) := by
  refine (ret_region n).bind fun r => ?_
  split
  · exact ret_describeValid d p n
  · exact Ret.pure _

theorem ret_describe (d : Str → Bytes) (p : Option (List (Int × Bytes))) (n : PhoneNumber) :
    Ret (descriptionForNumber Data.container d p n) := by
  refine (ret_type n).bind fun t => ?_
  split
  · exact Ret.pure _
  · split
    · exact (ret_country d n).bind fun _ => Ret.pure _
    · exact ret_describeValid d p n

theorem ret_describeFor (d : Str → Bytes) (p : Option (List (Int × Bytes))) (n : PhoneNumber) (u : Str) :
    Ret (descriptionForNumberForUser Data.container d p n u) := by
  refine (ret_type n).bind fun t => ?_
  split
  · exact Ret.pure _
  · split
    · exact (ret_country d n).bind fun _ => Ret.pure _
    · exact ret_describeValidFor d p n u

theorem ret_zones (z : Option (Loaded (List Bytes))) (n : PhoneNumber) : Ret (timeZonesForNumber Data.container z n) := by
  refine (ret_type n).bind fun t => ?_
  repeat' split
  all_goals exact Ret.pure _

end Verif
