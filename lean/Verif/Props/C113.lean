import Verif.Lemmas.SearchMore
import Verif.Spec.Feed
import Verif.Props.C61
/-!
# C113: how far a search goes

A consumer that ranges over the numbers in a text sees the matches one by one, in order, each once, until it stops; every run starts
afresh.  A larger limit of tries adds matches at the end and changes none; and limits that are large compared with the text are never
felt.
-/
namespace Verif.Props
open Verif.Spec

/-- Whatever the consumer does, it is given the matches of the whole search, in order, up to the one it refuses.  (`nil` is what it would do
with a nil match: it never gets one.) -/
theorem C113_range {κ : Type} (F : Finder) (maxTries : Int) (yield : κ → FoundNumber → Bool × κ) (nil : κ → Bool × κ) (k : κ)
    (ms : List FoundNumber) (c : Cursor) (h : F.findNumbers maxTries = .ok (ms, c)) :
    F.rangeOver maxTries (fun k m => match m with | none => nil k | some m => yield k m) k = .ok (feed yield k ms) :=
  Finder.consume_feed F yield nil (feed yield) (fun _ => rfl) (fun _ _ _ => rfl) _ _ _ _ _ h

/-- With the shipped metadata, for every text, region, level and limit: what the consumer sees is the list of the search, up to where it
stops.  Nothing panics. -/
theorem C113_range_shipped {κ : Type} (alt : List Metadata) (text region : Str) (l : Leniency) (maxTries : Int)
    (yield : κ → FoundNumber → Bool × κ) (nil : κ → Bool × κ) (k : κ) :
    ∃ ms c, Finder.findNumbers ⟨Data.container, alt, text, region, l⟩ maxTries = .ok (ms, c) ∧
      Finder.rangeOver ⟨Data.container, alt, text, region, l⟩ maxTries
        (fun k m => match m with | none => nil k | some m => yield k m) k = .ok (feed yield k ms) := by
  obtain ⟨ms, c, h⟩ := C61_no_panic alt text region l maxTries
  exact ⟨ms, c, h, C113_range _ _ _ _ _ _ _ h⟩

/-- A consumer that stops after `n` matches sees the first `n` of them. -/
theorem C113_first (F : Finder) (maxTries : Int) (n : Nat) (ms : List FoundNumber) (c : Cursor)
    (h : F.findNumbers maxTries = .ok (ms, c)) :
    F.rangeOver maxTries (fun (k : List FoundNumber) m => match m with
      | none => (true, k)
      | some m => (decide (k.length + 1 < n + 1), k ++ [m])) [] = .ok (ms.take (n + 1)) := by
  have h1 := C113_range F maxTries (fun (k : List FoundNumber) m => (decide (k.length + 1 < n + 1), k ++ [m])) (fun k => (true, k)) []
    ms c h
  have h2 : ∀ (ms k : List FoundNumber), k.length ≤ n →
      feed (fun (k : List FoundNumber) m => (decide (k.length + 1 < n + 1), k ++ [m])) k ms = k ++ ms.take (n + 1 - k.length) := by
    intro ms
    induction ms with
    | nil => intro k hk; simp [feed]
    | cons m ms ih =>
      intro k hk
      rw [feed]
      by_cases hn : k.length + 1 < n + 1
      · simp only [hn, decide_true, if_true]
        rw [ih (k ++ [m]) (by simp; omega)]
        have e : n + 1 - k.length = (n + 1 - (k.length + 1)) + 1 := by omega
        rw [e]
        simp [List.take_succ_cons]
      · simp only [hn, decide_false, Bool.false_eq_true, if_false]
        have e : n + 1 - k.length = 0 + 1 := by omega
        rw [e]
        simp [List.take_succ_cons]
  rw [h1, h2 ms [] (Nat.zero_le _)]
  rfl

/-- A larger limit only adds matches at the end. -/
theorem C113_limit (F : Finder) (k k' : Int) (hk : k ≤ k') (ms ms' : List FoundNumber) (c c' : Cursor)
    (h : F.findNumbers k = .ok (ms, c)) (h' : F.findNumbers k' = .ok (ms', c')) : ms <+: ms' := by
  have hm : Finder.Tries.More ((if k' < 0 then 0 else k') - (if k < 0 then 0 else k)).toNat
      ⟨if k < 0 then 0 else k, 0, 0⟩ ⟨if k' < 0 then 0 else k', 0, 0⟩ := by
    unfold Finder.Tries.More; simp only; split <;> split <;> omega
  rcases Finder.iterate_more F _ _ _ _ _ _ _ hm h h' with ⟨h1, _⟩ | ⟨h1, _⟩
  · simp only at h1; rw [h1]; exact List.prefix_refl _
  · exact h1

/-- … on the shipped metadata, for every text, region and level. -/
theorem C113_limit_shipped (alt : List Metadata) (text region : Str) (l : Leniency) (k k' : Int) (hk : k ≤ k') :
    ∃ ms ms' c c', Finder.findNumbers ⟨Data.container, alt, text, region, l⟩ k = .ok (ms, c) ∧
      Finder.findNumbers ⟨Data.container, alt, text, region, l⟩ k' = .ok (ms', c') ∧ ms <+: ms' := by
  obtain ⟨ms, c, h⟩ := C61_no_panic alt text region l k
  obtain ⟨ms', c', h'⟩ := C61_no_panic alt text region l k'
  exact ⟨ms, ms', c, c', h, h', C113_limit _ k k' hk _ _ _ _ h h'⟩

/-- A limit above `25 · (n + 1)²`, where `n` is the length of the text, is not felt: every larger limit gives the same matches. -/
theorem C113_enough (F : Finder) (k k' : Int) (hk : 25 * ((F.text.length + 1) * (F.text.length + 1) : Nat) < k) (hk' : k ≤ k')
    (ms ms' : List FoundNumber) (c c' : Cursor)
    (h : F.findNumbers k = .ok (ms, c)) (h' : F.findNumbers k' = .ok (ms', c')) : ms = ms' := by
  have hm : Finder.Tries.More (k' - k).toNat ⟨if k < 0 then 0 else k, 0, 0⟩ ⟨if k' < 0 then 0 else k', 0, 0⟩ := by
    unfold Finder.Tries.More; simp only; rw [if_neg (by omega), if_neg (by omega)]; omega
  have hl := Finder.iterate_loss F _ _ _ _ h
  rw [if_neg (by omega)] at hl
  have he : (F.text.length + 1) * (25 * F.text.length) ≤ 25 * ((F.text.length + 1) * (F.text.length + 1)) := by
    rw [Nat.mul_left_comm]
    exact Nat.mul_le_mul_left _ (Nat.mul_le_mul_left _ (Nat.le_succ _))
  rcases Finder.iterate_more F _ _ _ _ _ _ _ hm h h' with ⟨h1, _⟩ | ⟨_, h1⟩
  · exact h1
  · simp only at h1 hl; omega

/-- `FindNumbers` has no limit: its limit, the largest integer, gives the same matches as any larger number would, for every text of up
to six hundred million characters. -/
theorem C113_unlimited (alt : List Metadata) (text region : Str) (ht : text.length ≤ 600000000) (k : Int) (hk : 9223372036854775807 ≤ k) :
    ∃ ms c c', Finder.findNumbers ⟨Data.container, alt, text, region, .valid⟩ 9223372036854775807 = .ok (ms, c) ∧
      Finder.findNumbers ⟨Data.container, alt, text, region, .valid⟩ k = .ok (ms, c') := by
  obtain ⟨ms, c, h⟩ := C61_no_panic alt text region .valid 9223372036854775807
  obtain ⟨ms', c', h'⟩ := C61_no_panic alt text region .valid k
  have hb : (text.length + 1) * (text.length + 1) ≤ 600000001 * 600000001 := Nat.mul_le_mul (by omega) (by omega)
  obtain rfl := C113_enough _ _ _ (by simp only; omega) hk _ _ _ _ h h'
  exact ⟨ms, c, c', h, h'⟩

/-- A concrete text: with the limit 1 nothing is found in it, with the limit 10 the number is (`Verif/Props/C43.lean` counts the tries);
with two numbers a consumer that stops at once sees the first only. -/
noncomputable def C113_case : Finder := ⟨Data.container, Data.alt, (str!"650-253-0000 or 12/34 and 650-253-0001"), (str!"US"), .valid⟩

example : ((C113_case.findNumbers 1).toOption.map fun r => r.1.map (·.raw)) = some [(str!"650-253-0000")] ∧
    ((C113_case.findNumbers 10).toOption.map fun r => r.1.map (·.raw)) = some [(str!"650-253-0000"), (str!"650-253-0001")] := by
  constructor <;> kernel_rfl

example : ((C113_case.rangeOver 10 (fun (k : List Str) m => (false, k ++ (m.map (·.raw)).toList)) []).toOption) =
    some [(str!"650-253-0000")] := by kernel_rfl

end Verif.Props
