import Verif.Lemmas.AytfCalls
import Verif.Data.Shipped
/-!
# C40: the remembered position lies inside the output
-/
namespace Verif.Props
open Verif.Spec

theorem positionLoop_ok (n : Nat) (us vs : List Nat) (j : Nat) (h : n ≤ us.length) :
    ∃ k, Aytf.positionLoop n us vs j = .ok k ∧ k ≤ j + vs.length := by
  induction vs generalizing n us j with
  | nil => cases n <;> exact ⟨j, by simp [Aytf.positionLoop], Nat.le_refl _⟩
  | cons v vs ih =>
    cases n with
    | zero => exact ⟨j, by simp [Aytf.positionLoop], by omega⟩
    | succ n =>
      cases us with
      | nil => simp at h
      | cons u us =>
        unfold Aytf.positionLoop
        split
        · obtain ⟨k, h1, h2⟩ := ih n us (j + 1) (by simpa using h)
          exact ⟨k, h1, by simp only [List.length_cons]; omega⟩
        · obtain ⟨k, h1, h2⟩ := ih (n + 1) (u :: us) (j + 1) h
          exact ⟨k, h1, by simp only [List.length_cons]; omega⟩

theorem normalizeDiallable_length (s : Str) : (normalizeDiallable s).length ≤ s.length := by
  unfold normalizeDiallable normalizeHelper
  induction s with
  | nil => exact Nat.le_refl _
  | cons u s ih =>
    simp only [List.flatMap_cons, List.length_append, List.length_cons]
    cases diallableMap (toUpperKey (rune u)) <;> simp only [if_true, List.length_cons, List.length_nil] at ih ⊢ <;> omega

/-- For every metadata, region and sequence of calls, `GetRememberedPosition` does not panic and gives a position between 0 and
the number of characters of the current output. -/
theorem C40_inside (C : Container) (region : Str) (history : List Call) (a : Aytf)
    (h : calls C (Aytf.new C region) history = .ok a) :
    ∃ n, a.position = .ok n ∧ n ≤ a.currentOutput.length := by
  have ht := Aytf.typed_calls h
  unfold Aytf.position
  cases ha : a.able with
  | true =>
    obtain ⟨k, h1, h2⟩ := positionLoop_ok a.rememberPos a.plain a.currentOutput 0 ht.inv.rem
    exact ⟨k, by simpa using h1, by omega⟩
  | false =>
    refine ⟨a.originalPos, rfl, ?_⟩
    have h1 := ht.inv.orig
    rcases ht.out ha with h2 | ⟨h2, h3⟩
    · rw [h2]; exact h1
    · have h4 := ht.inv.same h2
      have h5 := normalizeDiallable_length a.currentOutput
      rw [h3] at h5
      omega

/-- The hypothesis is met, and the position is not that of the typed text: after the third of ten digits it is 4, just before
the closing parenthesis. -/
example : ((calls Data.container (Aytf.new Data.container (str!"US"))
      (typeAll (str!"65") ++ .remember '0'.toNat :: typeAll (str!"2532222"))).toOption.map fun a =>
        (a.currentOutput, a.position.toOption)) = some (str!"(650) 253-2222", some 4) := by
  kernel_rfl

end Verif.Props
