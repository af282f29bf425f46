import Verif.Lemmas.Tables
import Verif.Props.C30
/-!
# Lemmas on regions of numbers
-/
namespace Verif
open Spec

theorem nsnOf_isDig (n : PhoneNumber) : ∀ u ∈ nsnOf n, isDig u = true := fun u hu => (isDig_iff u).2 (Props.C04_digits n u hu)

/-- The type helper never fails on an entry with all descriptions. -/
theorem numberTypeHelper_ok {m : Metadata} (h : hasAllDescs m = true) {nsn : Str} (hn : ∀ u ∈ nsn, isDig u = true) :
    ∃ t, numberTypeHelper nsn (some m) = .ok t := by
  have key : ∀ d ∈ typeDescs m, ∃ b, isMatchingDesc nsn d = .ok b := by
    intro d hm
    obtain ⟨x, rfl⟩ := Props.hasAllDescs_some h hm
    obtain ⟨b, hb, -⟩ := isMatchingDesc_spec nsn hn x
    exact ⟨b, hb⟩
  obtain ⟨bg, eg⟩ := key m.general (by simp [typeDescs])
  obtain ⟨b1, e1⟩ := key m.premium (by simp [typeDescs])
  obtain ⟨b2, e2⟩ := key m.tollFree (by simp [typeDescs])
  obtain ⟨b3, e3⟩ := key m.sharedCost (by simp [typeDescs])
  obtain ⟨b4, e4⟩ := key m.voip (by simp [typeDescs])
  obtain ⟨b5, e5⟩ := key m.personal (by simp [typeDescs])
  obtain ⟨b6, e6⟩ := key m.pager (by simp [typeDescs])
  obtain ⟨b7, e7⟩ := key m.uan (by simp [typeDescs])
  obtain ⟨b8, e8⟩ := key m.voicemail (by simp [typeDescs])
  obtain ⟨bf, ef⟩ := key m.fixedLine (by simp [typeDescs])
  obtain ⟨bm, em⟩ := key m.mobile (by simp [typeDescs])
  unfold numberTypeHelper
  simp only [Option.bind_some, eg, e1, e2, e3, e4, e5, e6, e7, e8, ef, em, bind, Except.bind, pure, Except.pure]
  cases bg <;> cases b1 <;> cases b2 <;> cases b3 <;> cases b4 <;> cases b5 <;> cases b6 <;> cases b7 <;> cases b8 <;> try exact ⟨_, rfl⟩
  cases bf <;> cases bm <;> simp only [Bool.not_true, Bool.false_eq_true, if_false, if_true] <;> split <;> exact ⟨_, rfl⟩

theorem regionFromList_ok {C : Container} (hd : C.allMeta.all hasAllDescs = true)
    {nsn : Str} (hn : ∀ u ∈ nsn, isDig u = true) {rs : List Str} (h : ∀ r ∈ rs, ∃ m, C.metaForRegion r = some m) :
    ∃ r, regionFromList C nsn rs = .ok r ∧ (r = [] ∨ r ∈ rs) := by
  induction rs with
  | nil => exact ⟨[], rfl, .inl rfl⟩
  | cons a rs ih =>
    obtain ⟨m, hm⟩ := h a (by simp)
    obtain ⟨r, ih1, ih2⟩ := ih (fun r hr => h r (by simp [hr]))
    have ih2 : r = [] ∨ r ∈ a :: rs := by rcases ih2 with h | h <;> simp [h]
    obtain ⟨t, hty⟩ := numberTypeHelper_ok (List.all_eq_true.1 hd m (Container.metaForRegion_mem hm)) hn
    simp only [regionFromList, hm, hty, bind, Except.bind, pure, Except.pure, ih1]
    split
    · split
      · exact ⟨a, rfl, by simp⟩
      · exact ⟨r, rfl, ih2⟩
    · split
      · exact ⟨a, rfl, by simp⟩
      · exact ⟨r, rfl, ih2⟩

/-- The region of a number exists, and is empty or one of the regions of its code. -/
theorem regionForNumber_ok {C : Container} (hb : Built C) (ht : tablesOk C = true) (hd : C.allMeta.all hasAllDescs = true)
    (n : PhoneNumber) : ∃ r, regionForNumber C n = .ok r ∧ (r = [] ∨ r ∈ C.regionsOf n.cc) := by
  unfold regionForNumber
  split
  · exact ⟨[], rfl, .inl rfl⟩
  · rename_i r hr; exact ⟨r, rfl, by simp [hr]⟩
  · rename_i rs h0 h1
    refine regionFromList_ok hd (nsnOf_isDig n) (fun r hr => ?_)
    rcases regionsOf_meta hb ht hr with ⟨_, h2, _⟩ | ⟨_, _, m, h2, _⟩
    · exact absurd h2 (h1 _)
    · exact ⟨m, h2⟩

theorem metaFor_nil (C : Container) (cc : Int) : C.metaFor cc [] = none := by
  have : ([] : Str) ≠ nonGeoRegion := by decide
  simp [Container.metaFor, this, Container.metaForRegion, Container.validRegion]

/-- Either the number has no region and no metadata, or its region is listed for its code and has metadata naming the code. -/
theorem regionForNumber_cases {C : Container} (hb : Built C) (ht : tablesOk C = true) (hd : C.allMeta.all hasAllDescs = true)
    (n : PhoneNumber) : (regionForNumber C n = .ok []) ∨
      ∃ r m, regionForNumber C n = .ok r ∧ r ∈ C.regionsOf n.cc ∧ C.metaFor n.cc r = some m ∧ m.countryCode = n.cc ∧
        (r ≠ nonGeoRegion → C.ccForValidRegion r = n.cc) := by
  obtain ⟨r, h1, rfl | h2⟩ := regionForNumber_ok hb ht hd n
  · exact .inl h1
  · refine .inr ?_
    rcases regionsOf_meta hb ht h2 with ⟨h3, _, m, h4, h5⟩ | ⟨h3, _, m, h4, _, h5⟩
    · exact ⟨r, m, h1, h2, by simp [Container.metaFor, h3, h4], h5, fun h => absurd h3 h⟩
    · exact ⟨r, m, h1, h2, by simp [Container.metaFor, h3, h4], h5, fun _ => by simp [Container.ccForValidRegion, h4, h5]⟩

end Verif
