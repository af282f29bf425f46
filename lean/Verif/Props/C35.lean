import Verif.Props.C34
import Verif.Data.Shipped
import Verif.Props.C04
/-!
# C35: the expected cost takes the most expensive alternative
-/
namespace Verif.Spec

/-- The most expensive of several costs, in the order PREMIUM_RATE, UNKNOWN_COST, STANDARD_RATE, TOLL_FREE. -/
def worst (l : List Cost) : Cost :=
  if .premiumRate ∈ l then .premiumRate else if .unknown ∈ l then .unknown else if .standardRate ∈ l then .standardRate else .tollFree

/-- The cost of the number `nsn` under the short-number entry `m` of region `r`. -/
inductive CostOf (S : ShortMap) (nsn r : Str) (m : Metadata) : Cost → Prop
  /-- the length is not one of the general description -/
  | length {g : Desc} (hg : m.general = some g) (h : (nsn.length : Int) ∉ g.lengths) : CostOf S nsn r m .unknown
  | premium {g : Desc} (hg : m.general = some g) (h : (nsn.length : Int) ∈ g.lengths) (hp : ShortMatches nsn m.premium) :
      CostOf S nsn r m .premiumRate
  | standard {g : Desc} (hg : m.general = some g) (h : (nsn.length : Int) ∈ g.lengths) (hp : ¬ ShortMatches nsn m.premium)
      (hs : ShortMatches nsn m.standardRate) : CostOf S nsn r m .standardRate
  | toll {g : Desc} (hg : m.general = some g) (h : (nsn.length : Int) ∈ g.lengths) (hp : ¬ ShortMatches nsn m.premium)
      (hs : ¬ ShortMatches nsn m.standardRate) (ht : ShortMatches nsn m.tollFree ∨ isEmergency S nsn r = true) :
      CostOf S nsn r m .tollFree
  | other {g : Desc} (hg : m.general = some g) (h : (nsn.length : Int) ∈ g.lengths) (hp : ¬ ShortMatches nsn m.premium)
      (hs : ¬ ShortMatches nsn m.standardRate) (ht : ¬ ShortMatches nsn m.tollFree) (he : isEmergency S nsn r = false) :
      CostOf S nsn r m .unknown

end Verif.Spec

namespace Verif.Props
open Spec

theorem costLoop_eq (C : Container) (S : ShortMap) (n : PhoneNumber) (f : Str → Cost) (rs : List Str) (c : Cost)
    (hc : c ≠ .premiumRate) (hf : ∀ r ∈ rs, expectedCostForRegion C S n r = .ok (f r)) :
    costLoop C S n rs c = .ok (worst (c :: rs.map f)) := by
  induction rs generalizing c with
  | nil => cases c <;> simp_all [costLoop, worst]
  | cons r rs ih =>
    have h1 := hf r (by simp)
    have h2 : ∀ r ∈ rs, expectedCostForRegion C S n r = .ok (f r) := fun r hr => hf r (by simp [hr])
    simp only [costLoop, h1, bind, Except.bind, List.map_cons]
    cases hfr : f r with
    | premiumRate => simp [worst, pure, Except.pure]
    | unknown => simp only []; rw [ih _ (by simp) h2]; cases c <;> simp_all [worst]
    | standardRate =>
      simp only []
      cases c with
      | premiumRate => exact absurd rfl hc
      | _ => rw [ih _ (by simp) h2]; simp_all [worst]
    | tollFree => simp only []; rw [ih _ hc h2]; cases c <;> simp_all [worst]

/-- With no region the cost is UNKNOWN. -/
theorem C35_none (C : Container) (S : ShortMap) (n : PhoneNumber) (h : C.regionCodes n.cc = []) : expectedCost C S n = .ok .unknown := by
  simp [expectedCost, h]

/-- With one region the cost is that of the region. -/
theorem C35_one (C : Container) (S : ShortMap) (n : PhoneNumber) (r : Str) (h : C.regionCodes n.cc = [r]) :
    expectedCost C S n = expectedCostForRegion C S n r := by
  simp [expectedCost, h]

/-- With several regions the cost is the most expensive of those of the regions. -/
theorem C35_worst (C : Container) (S : ShortMap) (n : PhoneNumber) (f : Str → Cost) (hr : C.regionCodes n.cc ≠ [])
    (hf : ∀ r ∈ C.regionCodes n.cc, expectedCostForRegion C S n r = .ok (f r)) :
    expectedCost C S n = .ok (worst ((C.regionCodes n.cc).map f)) := by
  unfold expectedCost
  split
  · rename_i h; exact absurd h hr
  · rename_i r h
    rw [h] at hf ⊢
    rw [hf r (by simp)]
    cases hfr : f r <;> simp [worst, hfr]
  · rw [costLoop_eq C S n f _ _ (by simp) hf]
    have : ∀ l, l ≠ [] → worst (.tollFree :: l) = worst l := by intro l _; simp [worst]
    rw [this _ (by simpa using hr)]

/-- `GetExpectedCostForRegion`: UNKNOWN unless the region has the number's country code and short-number metadata. -/
theorem C35_region_unknown (C : Container) (S : ShortMap) (n : PhoneNumber) (r : Str)
    (h : r ∉ C.regionCodes n.cc ∨ mapGet S r = none) : expectedCostForRegion C S n r = .ok .unknown := by
  unfold expectedCostForRegion
  rcases h with h | h
  · simp [dialingFromMatches, h]
  · simp only [shortMeta, h]; split <;> rfl

/-- `GetExpectedCostForRegion`: the most expensive category whose description matches, emergency numbers being toll-free. -/
theorem C35_region (C : Container) (S : ShortMap) (n : PhoneNumber) (r : Str) (m : Metadata) (hr : r ∈ C.regionCodes n.cc)
    (hm : mapGet S r = some m) (hg : shortGeneralOk m = true) (c : Cost) :
    expectedCostForRegion C S n r = .ok c ↔ CostOf S (nsnOf n) r m c := by
  have hn : ∀ u ∈ nsnOf n, isDig u = true := fun u hu => nsnOf_isDig n u hu
  obtain ⟨g, hg1, hg2⟩ := hasPossibleLength_ok hg (blen (nsnOf n))
  have hb : blen (nsnOf n) = (nsnOf n).length := blen_digits hn
  have e : expectedCostForRegion C S n r = .ok (if ¬ ((nsnOf n).length : Int) ∈ g.lengths then .unknown
      else if matchesPossibleAndNational (nsnOf n) m.premium = true then .premiumRate
      else if matchesPossibleAndNational (nsnOf n) m.standardRate = true then .standardRate
      else if matchesPossibleAndNational (nsnOf n) m.tollFree = true then .tollFree
      else if isEmergency S (nsnOf n) r = true then .tollFree else .unknown) := by
    unfold expectedCostForRegion
    rw [hb] at hg2
    simp only [dialingFromMatches, hr, decide_true, Bool.not_true, Bool.false_eq_true, if_false, shortMeta, hm, hg2, bind,
      Except.bind, pure, Except.pure, hb]
    by_cases h1 : ((nsnOf n).length : Int) ∈ g.lengths
    · simp only [h1, decide_true, Bool.not_true, Bool.false_eq_true, if_false, not_true_eq_false]
      cases matchesPossibleAndNational (nsnOf n) m.premium <;> cases matchesPossibleAndNational (nsnOf n) m.standardRate <;>
        cases matchesPossibleAndNational (nsnOf n) m.tollFree <;> cases isEmergency S (nsnOf n) r <;> rfl
    · simp [h1]
  rw [e]
  have mp := matchesPossible_iff (nsnOf n) hn
  rw [Except.ok.injEq]
  have hgu : ∀ {g'}, m.general = some g' → g' = g := fun h => by rw [hg1] at h; cases h; rfl
  constructor
  · intro h
    subst h
    split
    · exact .length hg1 (by assumption)
    rename_i hl
    have hl := Classical.not_not.1 hl
    split
    · rename_i h; exact .premium hg1 hl ((mp _).1 h)
    rename_i hp
    rw [mp] at hp
    split
    · rename_i h; exact .standard hg1 hl hp ((mp _).1 h)
    rename_i hs
    rw [mp] at hs
    split
    · rename_i h; exact .toll hg1 hl hp hs (.inl ((mp _).1 h))
    rename_i ht
    rw [mp] at ht
    split
    · rename_i h; exact .toll hg1 hl hp hs (.inr h)
    · rename_i h; exact .other hg1 hl hp hs ht (by simpa using h)
  · intro h
    cases h with
    | length h1 h2 => cases hgu h1; rw [if_pos h2]
    | premium h1 h2 h3 => cases hgu h1; rw [if_neg (not_not_intro h2), if_pos ((mp _).2 h3)]
    | standard h1 h2 h3 h4 =>
      cases hgu h1; rw [if_neg (not_not_intro h2), if_neg (mt (mp _).1 h3), if_pos ((mp _).2 h4)]
    | toll h1 h2 h3 h4 h5 =>
      cases hgu h1; rw [if_neg (not_not_intro h2), if_neg (mt (mp _).1 h3), if_neg (mt (mp _).1 h4)]
      rcases h5 with h5 | h5
      · rw [if_pos ((mp _).2 h5)]
      · rw [if_pos h5]
        split <;> rfl
    | other h1 h2 h3 h4 h5 h6 =>
      cases hgu h1
      rw [if_neg (not_not_intro h2), if_neg (mt (mp _).1 h3), if_neg (mt (mp _).1 h4), if_neg (mt (mp _).1 h5), if_neg (by simp [h6])]

/-- With well-formed short-number metadata (the shipped one, `Data.wf_shortGeneral`) a cost is always returned. -/
theorem C35_total (C : Container) (S : ShortMap) (hS : S.all (fun e => shortGeneralOk e.2) = true) (n : PhoneNumber) :
    (∀ r, ∃ c, expectedCostForRegion C S n r = .ok c) ∧ ∃ c, expectedCost C S n = .ok c := by
  have h1 : ∀ r, ∃ c, expectedCostForRegion C S n r = .ok c := by
    intro r
    by_cases hr : r ∈ C.regionCodes n.cc
    · cases hm : mapGet S r with
      | none => exact ⟨_, C35_region_unknown C S n r (.inr hm)⟩
      | some m =>
        obtain ⟨g, _, hg2⟩ := hasPossibleLength_ok (List.all_eq_true.1 hS _ (mapGet_mem hm)) (blen (nsnOf n))
        simp only at hg2
        unfold expectedCostForRegion
        simp only [shortMeta, hm, hg2, bind, Except.bind, pure, Except.pure]
        (repeat' split) <;> exact ⟨_, rfl⟩
    · exact ⟨_, C35_region_unknown C S n r (.inl hr)⟩
  refine ⟨h1, ?_⟩
  by_cases hr : C.regionCodes n.cc = []
  · exact ⟨_, C35_none C S n hr⟩
  · refine ⟨_, C35_worst C S n (fun r => (h1 r).choose) hr fun r _ => (h1 r).choose_spec⟩

example : Data.shortMap.all (fun e => shortGeneralOk e.2) = true := Data.wf_shortGeneral
/-- France, 36665: premium rate. -/
example : expectedCostForRegion Data.container Data.shortMap { countryCode := some 33, nationalNumber := some 36665 } (str!"FR")
    = .ok .premiumRate := by kernel_rfl
/-- The code 1 is shared by several regions. -/
example : (Data.container.regionCodes 1).length = 25 := by kernel_rfl
example : expectedCost Data.container Data.shortMap { countryCode := some 1, nationalNumber := some 911 } = .ok .unknown := by kernel_rfl

end Verif.Props
