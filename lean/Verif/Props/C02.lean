import Verif.Lemmas.Normalize
/-!
# C02: NormalizeDiallableCharsOnly keeps exactly the diallable characters
-/
namespace Verif.Props
open Spec

theorem toUpperKey_diallable (u : Nat) :
    normalizeHelper diallableMap true [u] = if IsDiallable u then [u] else [] := by
  simp only [normalizeHelper, List.flatMap_cons, List.flatMap_nil, List.append_nil]
  have h1 : ∀ c, IsDigit c ↔ 48 ≤ c ∧ c ≤ 57 := fun c => by simp [IsDigit]
  by_cases hb : u < badBase
  · have hr : rune u = u := by simp [rune, hb]
    rw [hr]
    by_cases hd : IsDiallable u
    · have hk : toUpperKey u = u := by
        unfold IsDiallable at hd; rw [h1] at hd; simp at hd
        unfold toUpperKey; split
        · omega
        · split
          · omega
          · split <;> omega
      rw [hk]
      have : diallableMap u = some u := by
        unfold IsDiallable at hd; rw [h1] at hd; simp at hd
        unfold diallableMap; rw [if_pos]; simpa [isDig] using hd
      rw [this]; simp [hd]
    · have : diallableMap (toUpperKey u) = none := by
        unfold IsDiallable at hd; rw [h1] at hd; simp at hd
        unfold diallableMap toUpperKey; rw [if_neg]
        simp only [isDig]
        split
        · simp; omega
        · split
          · simp
          · split
            · simp
            · simp; omega
      rw [this]; simp [hd]
  · have hr : rune u = 0xFFFD := by simp [rune, hb]
    have hd : ¬ IsDiallable u := by
      unfold IsDiallable; rw [h1]; unfold badBase at hb; simp; omega
    rw [hr]; simp only [hd, if_false]
    rfl

/-- The output is the subsequence of diallable characters of the input, unchanged and in order. -/
theorem C02_filter (s : Str) : normalizeDiallable s = diallableOf s := by
  unfold normalizeDiallable diallableOf
  induction s with
  | nil => rfl
  | cons u s ih =>
    rw [show u :: s = [u] ++ s from rfl, normalizeHelper_append, ih, toUpperKey_diallable]
    by_cases h : IsDiallable u <;> simp [h]

example : normalizeDiallable (str!"+1 (23)*#abı１") = str!"+123*#" := by decide +kernel

end Verif.Props
