import Verif.Props.C04
/-!
# C05: storing a national significant number loses no digit
-/
namespace Verif.Props
open Spec

/-- The loop counts the zeros from index `k` on, stopping before the last character. -/
theorem countZeros_spec (s : Str) (f k : Nat) (hf : s.length ≤ f + k) (hk : k < s.length) (hz : s.take k = List.replicate k 48) :
    let r := countZeros s f k
    r < s.length ∧ s.take r = List.replicate r 48 ∧ (r = s.length - 1 ∨ s[r]? ≠ some 48) := by
  induction f generalizing k with
  | zero => omega
  | succ f ih =>
    simp only [countZeros]
    split
    · rename_i h
      refine ih (k + 1) (by omega) (by omega) ?_
      rw [List.take_add_one, hz, h.2, List.replicate_succ']; rfl
    · rename_i h
      refine ⟨hk, hz, ?_⟩
      by_cases h1 : k < s.length - 1
      · right; intro h2; exact h ⟨h1, h2⟩
      · left; omega

/-- The way parsing stores a national significant number in the message (phonenumberutil.go 2838-2845, as used by
`parseFinish`). -/
def store (s : Str) (pn : PhoneNumber) : PhoneNumber :=
  { setItalianLeadingZeros s pn with nationalNumber := some (parseUint s) }

theorem pow17_lt : 10 ^ 17 < 2 ^ 64 := by decide

theorem parseUint_eq {s : Str} (h : ∀ u ∈ s, isDig u = true) (h1 : s ≠ []) (h2 : s.length ≤ 17) : parseUint s = digVal s := by
  have : s.all isDig = true := by simpa [List.all_eq_true] using h
  have hlt := digVal_lt s h
  have : 10 ^ s.length ≤ 10 ^ 17 := Nat.pow_le_pow_right (by omega) h2
  have := pow17_lt
  simp [parseUint, *]; omega

/-- Every digit string of 2 to 17 digits, stored in a message without stale leading-zero count, is given back. -/
theorem C05_store (s : Str) (pn : PhoneNumber) (hd : AllDigits s) (h2 : 2 ≤ s.length) (h17 : s.length ≤ 17)
    (hfresh : pn.numberOfLeadingZeros = none) : nsnOf (store s pn) = s := by
  have hd' : ∀ u ∈ s, isDig u = true := fun u hu => (isDig_iff u).2 (hd u hu)
  have hne : s ≠ [] := by intro h; simp [h] at h2
  rw [nsnOf_eq]
  have hnn : (store s pn).nn = digVal s := by simp [store, PhoneNumber.nn, parseUint_eq hd' hne h17]
  rw [hnn]
  by_cases h0 : s.head? = some 48
  · have hc : ¬ (s.length < 2 ∨ s.head? ≠ some 48) := by simp [h0]; omega
    obtain ⟨hr1, hr2, hr3⟩ := countZeros_spec s s.length 1 (by omega) (by omega) (by
      cases s with
      | nil => simp at h0
      | cons u s => simp at h0; simp [h0])
    generalize hk : countZeros s s.length 1 = k at hr1 hr2 hr3
    have hlz : leadingZeros (store s pn) = k := by
      unfold leadingZeros store setItalianLeadingZeros
      simp only [hc, if_false, hk]
      by_cases h : k = 1
      · simp [h, hfresh]
      · simp [h]; omega
    rw [hlz, ← hr2]
    have hsplit : s.take k ++ s.drop k = s := List.take_append_drop k s
    have hval : digVal s = digVal (s.drop k) := by
      conv => lhs; rw [← hsplit, hr2]
      rw [digVal_zeros]
    rw [hval, dec_digVal (s.drop k) (fun u hu => hd' u (List.mem_of_mem_drop hu))]
    · exact hsplit
    · intro h; have := congrArg List.length h; simp at this; omega
    · rcases hr3 with h | h
      · left; simp; omega
      · right; rwa [List.head?_drop]
  · have hc : (s.length < 2 ∨ s.head? ≠ some 48) := .inr h0
    have hlz : leadingZeros (store s pn) = 0 := by simp [leadingZeros, store, setItalianLeadingZeros, hc]
    rw [hlz, dec_digVal s hd' hne (.inr h0)]; rfl

example : nsnOf (store (str!"00012345") {}) = str!"00012345" := by decide +kernel
example : nsnOf (store (str!"0000") {}) = str!"0000" := by decide +kernel
example : AllDigits (str!"00012345678901234") ∧ (str!"00012345678901234").length = 17 := by decide +kernel

end Verif.Props
