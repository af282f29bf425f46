import Verif.Props.C25
import Verif.Props.C26
import Verif.Data.Examples
import Verif.Lemmas.Fast
/-!
# C68: a valid number is possible for its type, with five exceptions
-/
namespace Verif
open Spec

/-- A description that a number matches, and its general description does, lists the length of the number. -/
theorem matches_descLens {m : Metadata} {nsn : Str} {d : Option Desc} (hg : Matches nsn m.general)
    (h : Matches nsn d) : (nsn.length : Int) ∈ descLens m d ∨ ∃ g, m.general = some g ∧ g.lengths = [] := by
  obtain ⟨g, hg, hgl, -⟩ := hg
  obtain ⟨x, rfl, hl, -⟩ := h
  have hne : (nsn.length : Int) ≠ -1 := by omega
  have hx : x.lengths ≠ [-1] := by
    intro h0
    rw [h0] at hl
    rcases hl with hl | hl
    · cases hl
    · simp at hl
  rcases hgl with hgl | hgl
  · exact .inr ⟨g, hg, hgl⟩
  · refine .inl ?_
    simp only [descLens, hx, if_false, hg]
    split
    · exact hgl
    · rename_i h0; exact hl.resolve_left h0

/-- The lengths of numbers of type `t` in `m'` are lengths of type `t` in `m`. -/
def typeNestedIn (m m' : Metadata) (t : NumType) : Bool :=
  (descLens m' (descByType (some m') t)).all fun l =>
    (descLens m (descByType (some m) t)).elem l || (descLocal (descByType (some m) t)).elem l

/-- The types with lengths in some region that the main region does not know. -/
def typeExceptions : List (Int × NumType) := [(1, .voip), (1, .pager), (1, .uan), (1, .voicemail), (7, .voip)]

def typesNested (C : Container) : Bool :=
  C.regionMeta.all fun e => match mapGet C.regionMeta (C.mainRegion e.2.countryCode) with
    | some m => exTypes.all fun t => typeExceptions.any (fun x => decide (x.1 = e.2.countryCode) && typeEq x.2 t) || typeNestedIn m e.2 t
    | none => false

theorem Data.wf_typesNested : typesNested Data.container = true := by
  simp only [typesNested, Container.mainRegion, Container.regionsOf, mapGet_str, mapGet_int, decide_int]
  kernel_rfl

/-- What validity says: the region and its metadata, the type, and the metadata of the main region. -/
theorem valid_main {C : Container} (hb : Built C) (ht : tablesOk C = true) (hd : C.allMeta.all hasAllDescs = true) {n : PhoneNumber}
    {t : NumType} (h : numberType C n = .ok t) (hk : t ≠ .unknown) :
    ∃ m' m, HasType (nsnOf n) m' t ∧ m' ∈ C.allMeta ∧ C.hasCC n.cc = true ∧ C.metaFor n.cc (C.mainRegion n.cc) = some m ∧
      ((m = m' ∧ (n.cc, m) ∈ C.nonGeoMeta) ∨ ∃ r, (r, m') ∈ C.regionMeta ∧ m'.countryCode = n.cc ∧ mapGet C.regionMeta (C.mainRegion n.cc) = some m) := by
  rcases regionForNumber_cases hb ht hd n with h0 | ⟨r, m', h1, hr, h2, h3, h4⟩
  · simp only [numberType, h0, bind, Except.bind, metaFor_nil, pure, Except.pure] at h
    exact absurd (Except.ok.inj h).symm hk
  have hcc := regionsOf_hasCC hr
  have hty : numberTypeHelper (nsnOf n) (some m') = .ok t := by simpa only [numberType, h1, bind, Except.bind, h2] using h
  have hT := (Props.C30_type m' (List.all_eq_true.1 hd m' (Container.metaFor_mem h2)) (nsnOf n) (Props.C04_digits n) t).1 hty
  rcases regionsOf_meta hb ht hr with ⟨h5, h6, m, h7, h8⟩ | ⟨h5, h6, m, h7, h8, h9⟩
  · have : C.mainRegion n.cc = nonGeoRegion := by simp [Container.mainRegion, h6]
    have e : m = m' := by simpa [Container.metaFor, h5, h7] using h2
    subst e
    refine ⟨m, m, hT, Container.metaFor_mem h2, hcc, by simp [Container.metaFor, this, h7], .inl ⟨rfl, mapGet_mem ?_⟩⟩
    simpa [Container.metaForNonGeo, hcc] using h7
  · have e : m = m' := by simpa [Container.metaFor, h5, h7] using h2
    subst e
    rcases regionsOf_meta hb ht (mainRegion_mem ht hcc) with ⟨g5, g6, _⟩ | ⟨g5, g6, m2, g7, g8, g9⟩
    · rw [g6] at hr; simp at hr; exact absurd hr h5
    · exact ⟨m, m2, hT, Container.metaFor_mem h2, hcc, by simp [Container.metaFor, g5, g7], .inr ⟨r, mapGet_mem h8, h3, g8⟩⟩

/-- The description that makes a number have a type. -/
theorem hasType_matches {nsn : Str} {m : Metadata} {t : NumType} (h : HasType nsn m t) (hk : t ≠ .unknown) :
    ∃ s, (t = s ∨ (t = .fixedLineOrMobile ∧ s = .fixedLine)) ∧ s ≠ .fixedLineOrMobile ∧ Matches nsn (descByType (some m) s) := by
  cases h with
  | notGeneral => exact absurd rfl hk
  | neither => exact absurd rfl hk
  | both _ _ hf _ => exact ⟨.fixedLine, .inr ⟨rfl, rfl⟩, by decide, hf⟩
  | fixed _ _ hf => exact ⟨.fixedLine, .inl rfl, by decide, hf⟩
  | mobile _ _ _ _ hm => exact ⟨.mobile, .inl rfl, by decide, hm⟩
  | @special pre post d _ _ hs' hd _ =>
    have hmem : (d, t) ∈ specialKinds m := by rw [hs']; simp
    simp only [specialKinds, List.mem_cons, Prod.mk.injEq, List.not_mem_nil, or_false] at hmem
    rcases hmem with ⟨rfl, rfl⟩ | ⟨rfl, rfl⟩ | ⟨rfl, rfl⟩ | ⟨rfl, rfl⟩ | ⟨rfl, rfl⟩ | ⟨rfl, rfl⟩ | ⟨rfl, rfl⟩ | ⟨rfl, rfl⟩ <;>
      exact ⟨_, .inl rfl, by decide, hd⟩

namespace Props

/-- A valid number of type `t` is possible for type `t`, unless it is one of the five types of numbers that the main region of
code 1 or 7 does not have. -/
theorem C68_valid_possible (n : PhoneNumber) (t : NumType) (h : numberType Data.container n = .ok t) (hk : t ≠ .unknown)
    (hx : (n.cc, t) ∉ [(1, .voip), (1, .pager), (1, .uan), (1, .voicemail), (7, NumType.voip)]) :
    isPossibleForType Data.container n t = .ok true := by
  obtain ⟨m', m, hT, hm', hcc, hm, hrest⟩ := valid_main built_shipped Data.wf_tables Data.wf_allDescs h hk
  obtain ⟨s, hs, hsf, hM⟩ := hasType_matches hT hk
  have hl := List.all_eq_true.1 Data.wf_lengthTables m (Container.metaFor_mem hm)
  have hl' := List.all_eq_true.1 Data.wf_lengthTables m' hm'
  obtain ⟨g, hg, hgl, -⟩ := lengthTablesOk_general hl'
  have hlen : ((nsnOf n).length : Int) ∈ descLens m' (descByType (some m') s) := by
    rcases matches_descLens (hasType_general hT hk) hM with h1 | ⟨g', h1, h2⟩
    · exact h1
    · rw [hg] at h1; cases h1; exact absurd h2 hgl
  have key : ((nsnOf n).length : Int) ∈ descLens m (descByType (some m) s) ∨ ((nsnOf n).length : Int) ∈ descLocal (descByType (some m) s) := by
    rcases hrest with ⟨rfl, -⟩ | ⟨r, hr, hrc, hrm⟩
    · exact .inl hlen
    · have := List.all_eq_true.1 Data.wf_typesNested _ hr
      simp only [hrc, hrm] at this
      have := List.all_eq_true.1 this s (by cases s <;> first | exact absurd rfl hsf | decide)
      rw [Bool.or_eq_true] at this
      rcases this with h1 | h1
      · exfalso
        have hts : t = s := by
          rcases hs with hs | ⟨-, rfl⟩
          · exact hs
          · simp [typeExceptions, typeEq] at h1
        subst hts
        apply hx
        simp only [typeExceptions, List.any_cons, List.any_nil, Bool.or_false, Bool.or_eq_true, Bool.and_eq_true, decide_eq_true_eq, typeEq_iff] at h1
        simp only [List.mem_cons, Prod.mk.injEq, List.not_mem_nil, or_false]
        grind
      · have := List.all_eq_true.1 h1 _ hlen
        simpa using this
  have hkind : descByType (some m) s ∈ kinds m t := by
    rcases hs with rfl | ⟨rfl, rfl⟩
    · cases t <;> first | exact absurd rfl hsf | simp [kinds, descByType]
    · simp [kinds, descByType]
  have hP : ∀ x, x ∈ descLens m (descByType (some m) s) → x ∈ possibleLens m t := fun x hx => List.mem_flatMap.2 ⟨_, hkind, hx⟩
  have hQ : ∀ x, x ∈ descLocal (descByType (some m) s) → x ∈ localLens m t := fun x hx => List.mem_flatMap.2 ⟨_, hkind, hx⟩
  by_cases hloc : ((nsnOf n).length : Int) ∈ localLens m t
  · by_cases hne : possibleLens m t = []
    · exfalso
      rcases key with key | key
      · have := hP _ key; rw [hne] at this; cases this
      · -- without lengths there are no local-only lengths
        have h0 : descLens m (descByType (some m) s) = [] := by
          cases h0 : descLens m (descByType (some m) s) with
          | nil => rfl
          | cons a b => have := hP a (by rw [h0]; exact List.mem_cons_self); rw [hne] at this; cases this
        obtain ⟨ls, -, h2, h3⟩ := lengthsOf_spec hl (d := descByType (some m) s) (by
          cases s <;> first | exact absurd rfl hsf | simp [descByType, typeDescs])
        rcases h3 with ⟨-, -, h4, -⟩ | ⟨h4, -⟩
        · rw [h4] at key; cases key
        · exact h2 (h4 ▸ h0)
    · simp [isPossibleForType, (C24_type Data.container n t m hcc hm hl .isPossibleLocalOnly).2 (.localOnly hne hloc), bind, Except.bind,
        pure, Except.pure]
  · have hin := hP _ (key.resolve_right fun h => hloc (hQ _ h))
    simp [isPossibleForType, (C24_type Data.container n t m hcc hm hl .isPossible).2 (.possible hloc hin), bind, Except.bind, pure, Except.pure]

/-- A number that shows `C68_valid_possible` to need an exception: valid, of type `t`, and not possible for type `t`. -/
def NotPossibleForOwnType (n : PhoneNumber) (t : NumType) : Prop :=
  isValidNumber Data.container n = .ok true ∧ numberType Data.container n = .ok t ∧ isPossibleForType Data.container n t = .ok false

/-- All five exceptions are needed: a VoIP and a pager number of Antigua, a UAN of the Bahamas, a voicemail number of Trinidad and a
VoIP number of Kazakhstan are valid but not possible for their own types. -/
theorem C68_needed :
    NotPossibleForOwnType { countryCode := some 1, nationalNumber := some 2684801234 } .voip ∧
    NotPossibleForOwnType { countryCode := some 1, nationalNumber := some 2684061234 } .pager ∧
    NotPossibleForOwnType { countryCode := some 1, nationalNumber := some 2422250123 } .uan ∧
    NotPossibleForOwnType { countryCode := some 1, nationalNumber := some 8686191234 } .voicemail ∧
    NotPossibleForOwnType { countryCode := some 7, nationalNumber := some 7511234567 } .voip := by
  unfold NotPossibleForOwnType
  refine ⟨⟨?_, ?_, ?_⟩, ⟨?_, ?_, ?_⟩, ⟨?_, ?_, ?_⟩, ⟨?_, ?_, ?_⟩, ⟨?_, ?_, ?_⟩⟩ <;> kernel_rfl

example : numberType Data.container { countryCode := some 41, nationalNumber := some 446681800 } = .ok .fixedLine := by kernel_rfl
example : numberType Data.container { countryCode := some 1, nationalNumber := some 2015550123 } = .ok .fixedLineOrMobile := by kernel_rfl

end Props

end Verif
