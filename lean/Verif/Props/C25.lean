import Verif.Lemmas.Valid
import Verif.Props.C24
/-!
# C25: a valid number is a possible number
-/
namespace Verif
open Spec

/-- A known type means that the length is among the general lengths. -/
theorem hasType_general {nsn : Str} {m : Metadata} {t : NumType} (h : HasType nsn m t) (ht : t ≠ .unknown) : Matches nsn m.general := by
  cases h <;> first | contradiction | assumption

end Verif

namespace Verif.Props
open Spec

theorem specialKinds_known {m : Metadata} {d : Option Desc} {t : NumType} (h : (d, t) ∈ specialKinds m) : t ≠ .unknown := by
  simp only [specialKinds, List.mem_cons, Prod.mk.injEq, List.not_mem_nil, or_false] at h
  rcases h with h | h | h | h | h | h | h | h <;> (rw [h.2]; decide)

theorem C25_valid_possible (C : Container) (hb : Built C) (ht : tablesOk C = true) (hd : C.allMeta.all hasAllDescs = true)
    (hl : C.allMeta.all lengthTablesOk = true) (hn : lengthsNested C = true) (n : PhoneNumber) (h : isValidNumber C n = .ok true) :
    isPossibleNumber C n = .ok true := by
  rcases regionForNumber_cases hb ht hd n with h0 | ⟨r, m', h1, hr, h2, h3, h4⟩
  · simp [isValidNumber, h0, bind, Except.bind, isValidForRegion, metaFor_nil] at h
  have hcc := regionsOf_hasCC hr
  obtain ⟨t, hty⟩ := numberTypeHelper_ok (List.all_eq_true.1 hd m' (Container.metaFor_mem h2)) (nsnOf_isDig n)
  have hT := (C30_type m' (List.all_eq_true.1 hd m' (Container.metaFor_mem h2)) (nsnOf n) (C04_digits n) t).1 hty
  have htk : t ≠ .unknown := by
    simp only [isValidNumber, h1, bind, Except.bind, isValidForRegion, h2] at h
    split at h
    · cases h
    · simpa [hty, pure, Except.pure] using h
  obtain ⟨g', hg', hlen, -⟩ := hasType_general hT htk
  -- the metadata of the main region
  have hmain : ∃ m, C.metaFor n.cc (C.mainRegion n.cc) = some m ∧ nestedIn m m' = true := by
    simp only [lengthsNested, Bool.and_eq_true, List.all_eq_true] at hn
    rcases regionsOf_meta hb ht hr with ⟨h5, h6, m, h7, h8⟩ | ⟨h5, h6, m, h7, h8, h9⟩
    · have : C.mainRegion n.cc = nonGeoRegion := by simp [Container.mainRegion, h6]
      have e : m = m' := by simpa [Container.metaFor, h5, h7] using h2
      subst e
      refine ⟨m, by simp [Container.metaFor, this, h7], hn.2 (n.cc, m) (mapGet_mem ?_)⟩
      simpa [Container.metaForNonGeo, hcc] using h7
    · have e : m = m' := by simpa [Container.metaFor, h5, h7] using h2
      subst e
      have hmm := hn.1 (r, m) (mapGet_mem h8)
      simp only [h3] at hmm
      rcases regionsOf_meta hb ht (mainRegion_mem ht hcc) with ⟨g5, g6, _⟩ | ⟨g5, g6, m2, g7, g8, g9⟩
      · rw [g6] at hr; simp at hr; exact absurd hr h5
      · rw [g8] at hmm
        exact ⟨m2, by simp [Container.metaFor, g5, g7], hmm⟩
  obtain ⟨m, hm, hnest⟩ := hmain
  obtain ⟨g, hg, hgl, -⟩ := lengthTablesOk_general (List.all_eq_true.1 hl m (Container.metaFor_mem hm))
  simp only [nestedIn, hg, hg'] at hnest
  cases hp : g.pattern with
  | none => simp [hp] at hnest
  | some p =>
    simp only [hp, Bool.and_eq_true, Bool.not_eq_true', List.isEmpty_eq_false_iff, List.all_eq_true, Bool.or_eq_true,
      decide_eq_true_eq] at hnest
    have hsrc : (descPat m.general).src ≠ [] := by simp [descPat, hg, hp, hnest.1.1]
    have key := C24_number C n m hcc hm (List.all_eq_true.1 hl m (Container.metaFor_mem hm)) hsrc
    obtain ⟨-, hgn, hgm, -⟩ := lengthTablesOk_general (List.all_eq_true.1 hl m (Container.metaFor_mem hm))
    have hg2 : g.lengths ≠ [-1] := by
      obtain ⟨g2, e1, -, e2, -⟩ := lengthTablesOk_general (List.all_eq_true.1 hl m (Container.metaFor_mem hm))
      rw [hg] at e1; cases e1; exact e2
    have eL : possibleLens m .unknown = g.lengths := by simp [possibleLens, kinds, descLens, hg, hg2, hgl]
    have eQ : localLens m .unknown = g.localLengths := by simp [localLens, kinds, descLocal, hg, hg2]
    have hin : ((nsnOf n).length : Int) ∈ g'.lengths := hlen.resolve_left hnest.1.2
    rw [eL, eQ] at key
    by_cases hloc : ((nsnOf n).length : Int) ∈ g.localLengths
    · simp [isPossibleNumber, (key .isPossibleLocalOnly).2 (.localOnly hgl hloc), bind, Except.bind, pure, Except.pure]
    · have := (hnest.2 _ hin).resolve_right hloc
      simp [isPossibleNumber, (key .isPossible).2 (.possible hloc this), bind, Except.bind, pure, Except.pure]

/-- For the shipped metadata every valid number is possible. -/
theorem C25_shipped (n : PhoneNumber) (h : isValidNumber Data.container n = .ok true) : isPossibleNumber Data.container n = .ok true :=
  C25_valid_possible _ built_shipped Data.wf_tables Data.wf_allDescs Data.wf_lengthTables Data.wf_lengthsNested n h

example : isValidNumber Data.container { countryCode := some 41, nationalNumber := some 446681800 } = .ok true := by kernel_rfl
-- the converse fails: a possible number that is not valid
example : isPossibleNumber Data.container { countryCode := some 1, nationalNumber := some 2530000 } = .ok true := by kernel_rfl
example : isValidNumber Data.container { countryCode := some 1, nationalNumber := some 2530000 } = .ok false := by kernel_rfl

end Verif.Props
