import Verif.Lemmas.Matcher
import Verif.Data.Shipped
import Verif.Data.Alt
/-!
# C43: the search terminates and gives up after a bounded number of failures
-/
namespace Verif.Props
open Verif.Spec

/-- The search ends: more than one turn of each loop per character of the text is never needed, and the iterator is then in its
final state, in which `hasNext` answers no. -/
theorem C43_terminates (F : Finder) (maxTries : Int) :
    (∀ fuel, F.text.length < fuel → F.iterate fuel (Finder.new maxTries) = F.findNumbers maxTries) ∧
      (∀ fuel index t, F.text.length - index < fuel → F.findLoop fuel index t = F.find index t) ∧
      ∀ ms c, F.findNumbers maxTries = .ok (ms, c) → F.hasNext c = .ok (false, c) := by
  refine ⟨fun fuel hf => Finder.iterate_fuel F _ _ 0 _ (by omega) (by omega),
    fun fuel index t hf => Finder.findLoop_fuel F _ _ index t hf (by omega), fun ms c h => ?_⟩
  have := (Finder.iterate_spec h).2.2.2 (by omega)
  unfold Finder.hasNext
  rw [this]

/-- With the limit `k` at most `k` candidates are passed over, and at most `k + 2` pieces of text plus one for each match are parsed
in vain. -/
theorem C43_bound (F : Finder) (k : Nat) (ms : List FoundNumber) (c : Cursor) (h : F.findNumbers k = .ok (ms, c)) :
    c.tries.passed ≤ k ∧ c.tries.rejected ≤ k + 2 + ms.length := by
  obtain ⟨_, _, ⟨h1, h2, h3, h4, h5, h6⟩, _⟩ := Finder.iterate_spec h
  have e : (if (k : Int) < 0 then 0 else (k : Int)) = k := if_neg (by omega)
  simp only [e] at h1 h2 h3 h4 h5 h6
  omega

/-- With a limit of zero or less nothing is found and nothing is tried. -/
theorem C43_none (F : Finder) (k : Int) (hk : k ≤ 0) :
    ∃ c, F.findNumbers k = .ok ([], c) ∧ c.tries.passed = 0 ∧ c.tries.rejected = 0 := by
  have e : (if k < 0 then 0 else k) = 0 := by split <;> omega
  refine ⟨⟨.done, 0, ⟨0, 0, 0⟩⟩, ?_, rfl, rfl⟩
  unfold Finder.findNumbers Finder.new
  rw [e, Finder.iterate_succ]
  have : F.find 0 ⟨0, 0, 0⟩ = .ok (none, ⟨0, 0, 0⟩) := by
    unfold Finder.find
    rw [Finder.findLoop_succ]
    rfl
  rw [this]
  rfl

/-- The bound of `C43_bound` on candidates is reached, and more than `k` pieces can be parsed in vain: with the limit 1 the three
pieces of one candidate are, the whole, what is before the slash and what is after it, and the number that follows is not
found any more. -/
noncomputable def C43_case : Finder := ⟨Data.container, Data.alt, (str!"12/34 and 650-253-0000"), (str!"US"), .valid⟩

example : ((C43_case.findNumbers 1).toOption.map fun r => (r.1.length, r.2.tries)) = some (0, ⟨-2, 3, 1⟩) := by kernel_rfl

example : ((C43_case.findNumbers 10).toOption.map fun r => (r.1.map (·.raw), r.2.tries)) =
    some ([(str!"650-253-0000")], ⟨7, 3, 1⟩) := by kernel_rfl

end Verif.Props
