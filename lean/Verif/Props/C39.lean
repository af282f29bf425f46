import Verif.Lemmas.AytfCalls
import Verif.Data.Shipped
/-!
# C39: typing a formatting character freezes formatting
-/
namespace Verif.Props
open Verif.Spec

/-- For every metadata, region and sequence of calls: once one of the characters typed since the last `Clear` is neither a digit
nor a plus sign in first place, the output is exactly everything typed since the last `Clear`. -/
theorem C39_frozen (C : Container) (region : Str) (history : List Call) (a : Aytf)
    (h : calls C (Aytf.new C region) history = .ok a) (i u : Nat) (hi : (typed history)[i]? = some u)
    (hu : ¬ Phoneish (i == 0) u) : a.currentOutput = typed history := by
  have ht := Aytf.typed_calls h
  have hf : a.hasFmt = true := by
    cases hf : a.hasFmt with
    | true => rfl
    | false => exact absurd (ht.phone hf i u hi) hu
  rcases ht.out (ht.inv.fmt hf) with h1 | ⟨h1, _⟩
  · rw [h1, ht.accrued]
  · rw [hf] at h1; cases h1

/-- And from then on no call panics. -/
theorem C39_no_panic (C : Container) (region : Str) (history : List Call) (a : Aytf)
    (h : calls C (Aytf.new C region) history = .ok a) (i u : Nat) (hi : (typed history)[i]? = some u)
    (hu : ¬ Phoneish (i == 0) u) (k : Call) : ∃ b, call C a k = .ok b := by
  have ht := Aytf.typed_calls h
  have hf : a.hasFmt = true := by
    cases hf : a.hasFmt with
    | true => rfl
    | false => exact absurd (ht.phone hf i u hi) hu
  have hin : ∀ c r, ∃ p, a.input C c r = .ok p := by
    intro c r
    have : ∃ q, a.inputCore C (runeOf c) r = .ok q := by
      rw [Aytf.inputCore_eq]
      have e : ((a.noted (runeOf c) r).accrue (runeOf c) r).1.able = false := by
        show (a.taken (runeOf c) r).able = false
        rw [Aytf.taken_rest]; exact ht.inv.fmt hf
      have e2 : ((a.noted (runeOf c) r).accrue (runeOf c) r).1.hasFmt = true := by
        show (a.taken (runeOf c) r).hasFmt = true
        rw [Aytf.taken_hasFmt]; exact hf
      rw [e]
      split
      · exact ⟨_, rfl⟩
      · simp only [Bool.not_false, if_true]
        unfold Aytf.unableStep
        rw [if_pos e2]
        exact ⟨_, rfl⟩
    obtain ⟨q, hq⟩ := this
    unfold Aytf.input
    rw [hq]
    exact ⟨_, rfl⟩
  cases k with
  | clear => exact ⟨_, rfl⟩
  | input c =>
    obtain ⟨p, hp⟩ := hin c false
    exact ⟨p.1, by simp only [call, hp, bind, Except.bind]; rfl⟩
  | remember c =>
    obtain ⟨p, hp⟩ := hin c true
    exact ⟨p.1, by simp only [call, hp, bind, Except.bind]; rfl⟩

/-- The hypotheses are met: without the hyphen the same digits are formatted. -/
example : outputOf Data.container (str!"US") (typeAll (str!"650-2532222")) = some (str!"650-2532222") ∧
    outputOf Data.container (str!"US") (typeAll (str!"6502532222")) = some (str!"(650) 253-2222") ∧
    typed (typeAll (str!"650-2532222")) = str!"650-2532222" := by
  refine ⟨?_, ?_, ?_⟩ <;> kernel_rfl

example : ¬ Phoneish (3 == 0) '-'.toNat := by
  rintro (h | ⟨h, _⟩)
  · have := (Aytf.isUniDigit_iff 45).2 h
    exact absurd this (by decide +kernel)
  · cases h

end Verif.Props
