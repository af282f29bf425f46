import Verif.Lemmas.SameCountry
import Verif.Model.ShortNumber
/-!
# Answers about a short number look at the regions of its calling code only
-/
namespace Verif.SameCountry
variable {C D : Container} {S T : ShortMap} {n : PhoneNumber}

theorem dialing (h : SameCountry C D n.cc) (r : Str) : dialingFromMatches C n r = dialingFromMatches D n r := by
  unfold dialingFromMatches Container.regionCodes; rw [h.codes]

theorem shortLoop (len : Nat) : ∀ rs, (∀ r ∈ rs, shortMeta S r = shortMeta T r) →
    possibleShortLoop S len rs = possibleShortLoop T len rs
  | [], _ => rfl
  | r :: rs, hs => by
    unfold possibleShortLoop
    rw [hs r List.mem_cons_self, shortLoop len rs (fun x hx => hs x (List.mem_cons_of_mem _ hx))]

theorem possibleShort (h : SameCountry C D n.cc) (hs : ∀ r ∈ C.regionsOf n.cc, shortMeta S r = shortMeta T r) :
    isPossibleShort C S n = isPossibleShort D T n := by
  unfold isPossibleShort Container.regionCodes
  rw [shortLoop _ _ hs, h.codes]

theorem outside {r : Str} (hr : r ∉ C.regionsOf n.cc) : dialingFromMatches C n r = false := by
  unfold dialingFromMatches Container.regionCodes; simp [hr]

theorem possibleShortFor (h : SameCountry C D n.cc) (hs : ∀ r ∈ C.regionsOf n.cc, shortMeta S r = shortMeta T r) (r : Str) :
    isPossibleShortForRegion C S n r = isPossibleShortForRegion D T n r := by
  unfold isPossibleShortForRegion
  rw [← h.dialing]
  by_cases hm : r ∈ C.regionsOf n.cc
  · rw [hs r hm]
  · rw [outside hm]; rfl

theorem validShortFor (h : SameCountry C D n.cc) (hs : ∀ r ∈ C.regionsOf n.cc, shortMeta S r = shortMeta T r) (r : Str) :
    isValidShortForRegion C S n r = isValidShortForRegion D T n r := by
  unfold isValidShortForRegion
  rw [← h.dialing]
  by_cases hm : r ∈ C.regionsOf n.cc
  · rw [hs r hm]
  · rw [outside hm]; rfl

theorem emergency {r : Str} (hs : shortMeta S r = shortMeta T r) (s : Str) : isEmergency S s r = isEmergency T s r := by
  unfold isEmergency matchesEmergency; rw [hs]

theorem costFor (h : SameCountry C D n.cc) (hs : ∀ r ∈ C.regionsOf n.cc, shortMeta S r = shortMeta T r) (r : Str) :
    expectedCostForRegion C S n r = expectedCostForRegion D T n r := by
  unfold expectedCostForRegion
  rw [← h.dialing]
  by_cases hm : r ∈ C.regionsOf n.cc
  · simp only [hs r hm, emergency (hs r hm)]
  · rw [outside hm]; rfl

theorem costs (h : SameCountry C D n.cc) (hs : ∀ r ∈ C.regionsOf n.cc, shortMeta S r = shortMeta T r) :
    ∀ rs c, costLoop C S n rs c = costLoop D T n rs c
  | [], _ => rfl
  | r :: rs, c => by unfold costLoop; simp only [h.costFor hs, h.costs hs rs]

theorem cost (h : SameCountry C D n.cc) (hs : ∀ r ∈ C.regionsOf n.cc, shortMeta S r = shortMeta T r) :
    expectedCost C S n = expectedCost D T n := by
  unfold expectedCost Container.regionCodes; simp only [h.codes, h.costFor hs, h.costs hs]

theorem regionLoop (nsn : Str) : ∀ rs, (∀ r ∈ rs, shortMeta S r = shortMeta T r) →
    shortRegionLoop S nsn rs = shortRegionLoop T nsn rs
  | [], _ => rfl
  | r :: rs, hs => by
    unfold shortRegionLoop
    rw [hs r List.mem_cons_self, regionLoop nsn rs (fun x hx => hs x (List.mem_cons_of_mem _ hx))]

theorem shortRegion (rs : List Str) (hs : ∀ r ∈ rs, shortMeta S r = shortMeta T r) :
    shortRegionFromList S n rs = shortRegionFromList T n rs := by
  unfold shortRegionFromList
  split
  · rfl
  · rfl
  · rw [regionLoop _ _ hs]

theorem regionLoop_in (nsn : Str) : ∀ rs, shortRegionLoop S nsn rs = [] ∨ shortRegionLoop S nsn rs ∈ rs
  | [] => .inl rfl
  | r :: rs => by
    have ih := (regionLoop_in nsn rs).imp id (List.mem_cons_of_mem r)
    unfold shortRegionLoop
    split
    · exact ih
    · split
      · exact .inr List.mem_cons_self
      · exact ih

theorem shortRegion_in (rs : List Str) : shortRegionFromList S n rs = [] ∨ shortRegionFromList S n rs ∈ rs := by
  unfold shortRegionFromList
  split
  · exact .inl rfl
  · exact .inr List.mem_cons_self
  · exact regionLoop_in _ _

theorem carrierSpecific (h : SameCountry C D n.cc) (hs : ∀ r ∈ C.regionsOf n.cc, shortMeta S r = shortMeta T r)
    (h0 : shortMeta S [] = shortMeta T []) : isCarrierSpecific C S n = isCarrierSpecific D T n := by
  unfold isCarrierSpecific Container.regionCodes
  rw [← h.codes, ← shortRegion _ hs]
  rcases shortRegion_in (S := S) (n := n) (C.regionsOf n.cc) with hr | hr
  · rw [hr, h0]
  · rw [hs _ hr]

theorem validShort (h : SameCountry C D n.cc) (hs : ∀ r ∈ C.regionsOf n.cc, shortMeta S r = shortMeta T r) :
    isValidShort C S n = isValidShort D T n := by
  unfold isValidShort Container.regionCodes
  have hr := shortRegion (n := n) _ hs
  rw [h.codes] at hr
  simp only [h.validShortFor hs, h.codes, hr]

theorem carrierSpecificFor (h : SameCountry C D n.cc) (hs : ∀ r ∈ C.regionsOf n.cc, shortMeta S r = shortMeta T r) (r : Str) :
    isCarrierSpecificForRegion C S n r = isCarrierSpecificForRegion D T n r := by
  unfold isCarrierSpecificForRegion
  rw [← h.dialing]
  by_cases hm : r ∈ C.regionsOf n.cc
  · rw [hs r hm]
  · rw [outside hm]; rfl

theorem sms (h : SameCountry C D n.cc) (hs : ∀ r ∈ C.regionsOf n.cc, shortMeta S r = shortMeta T r) (r : Str) :
    isSmsServiceForRegion C S n r = isSmsServiceForRegion D T n r := by
  unfold isSmsServiceForRegion
  rw [← h.dialing]
  by_cases hm : r ∈ C.regionsOf n.cc
  · rw [hs r hm]
  · rw [outside hm]; rfl

end Verif.SameCountry
