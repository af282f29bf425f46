import Verif.Lemmas.Reads
import Verif.Model.Matcher
/-!
# The leniency levels read a number through its getters
-/
namespace Verif.ReadsAlike
variable {a b : PhoneNumber}

theorem onlyX (h : ReadsAlike a b) (C : Container) : ∀ s, onlyValidX C a s = onlyValidX C b s
  | [] => rfl
  | [_] => rfl
  | u :: v :: t => by
    unfold onlyValidX
    simp only [h.matchOne, h.ext, h.onlyX C t, h.onlyX C (v :: t)]

theorem slash (h : ReadsAlike a b) (s : Str) : moreThanOneSlash a s = moreThanOneSlash b s := by
  unfold moreThanOneSlash; simp only [h.src, h.cc]

theorem prefixed (h : ReadsAlike a b) (C : Container) : nationalPrefixPresent C a = nationalPrefixPresent C b := by
  unfold nationalPrefixPresent; simp only [h.src, h.cc, h.nsn, h.raw]

theorem groups (h : ReadsAlike a b) (C : Container) : nationalGroups C a = nationalGroups C b := by
  unfold nationalGroups; simp only [h.form h.raw]

theorem alternates (h : ReadsAlike a b) (f : List Str → Go Bool) :
    ∀ fs, alternateGroupings a f fs = alternateGroupings b f fs
  | [] => rfl
  | x :: fs => by unfold alternateGroupings nationalGroupsWith; simp only [h.nsn, h.alternates f fs]

theorem grouped (h : ReadsAlike a b) (C : Container) : ∀ gs first s, groupedLoop C a first gs s = groupedLoop C b first gs s
  | [], _, _ => by unfold groupedLoop; rw [h.ext]
  | g :: gs, first, s => by unfold groupedLoop; simp only [h.cc, h.nsn, h.grouped C gs]

theorem remain (h : ReadsAlike a b) (C : Container) : groupsRemainGrouped C a = groupsRemainGrouped C b := by
  funext s gs; unfold groupsRemainGrouped; simp only [h.src, h.cc, h.grouped]

theorem exactly (h : ReadsAlike a b) : groupsExactlyPresent a = groupsExactlyPresent b := by
  funext s gs; unfold groupsExactlyPresent; simp only [h.ext, h.nsn]

theorem grouping (h : ReadsAlike a b) (C : Container) (alt : List Metadata) (s : Str)
    (f : PhoneNumber → Str → List Str → Go Bool) (hf : f a = f b) :
    checkGrouping C alt a s f = checkGrouping C alt b s f := by
  unfold checkGrouping; simp only [h.groups, h.cc, h.alternates, hf]

theorem verify (h : ReadsAlike a b) (l : Leniency) (C : Container) (alt : List Metadata) (s : Str) :
    l.verify C alt a s = l.verify C alt b s := by
  unfold Leniency.verify verifyCommon
  simp only [h.possible, h.valid, h.onlyX, h.slash, h.prefixed, h.grouping C alt s _ (h.remain C),
    h.grouping C alt s _ h.exactly]

end Verif.ReadsAlike
