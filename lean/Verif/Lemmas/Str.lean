import Verif.Str
/-!
# Lemmas on substring search
-/
namespace Verif

theorem indexOf_spec (s p : Str) (i : Nat) (h : indexOf s p = some i) : p.isPrefixOf (s.drop i) = true := by
  induction s generalizing i with
  | nil =>
    unfold indexOf at h
    split at h
    · rename_i hp; cases h; simpa using hp
    · cases h
  | cons u t ih =>
    unfold indexOf at h
    split at h
    · rename_i hp; cases h; exact hp
    · simp only [Option.map_eq_some_iff] at h
      obtain ⟨j, hj, rfl⟩ := h
      simpa using ih j hj

theorem indexOf_prefix {s p : Str} {i : Nat} (h : indexOf s p = some i) : ∃ t, s.drop i = p ++ t := by
  have := indexOf_spec s p i h
  rw [List.isPrefixOf_iff_prefix] at this
  obtain ⟨t, ht⟩ := this
  exact ⟨t, ht.symm⟩

theorem indexOf_le {s p : Str} {i : Nat} (h : indexOf s p = some i) : i + p.length ≤ s.length ∨ (p = [] ∧ i ≤ s.length) := by
  obtain ⟨t, ht⟩ := indexOf_prefix h
  have := congrArg List.length ht
  simp at this
  by_cases hp : p = []
  · subst hp
    right; refine ⟨rfl, ?_⟩
    unfold indexOf at h; simp at h; omega
  · have : p.length ≠ 0 := fun h => hp (List.length_eq_zero_iff.mp h)
    left; omega

theorem indexOf_getElem? {s p : Str} {i k : Nat} (h : indexOf s p = some i) (hk : k < p.length) : s[i + k]? = p[k]? := by
  obtain ⟨t, ht⟩ := indexOf_prefix h
  have : (s.drop i)[k]? = (p ++ t)[k]? := by rw [ht]
  rw [List.getElem?_drop, List.getElem?_append_left hk] at this
  exact this

/-- No occurrence before the first one. -/
theorem indexOf_first {s p : Str} {i j : Nat} (h : indexOf s p = some i) (hj : j < i) : p.isPrefixOf (s.drop j) = false := by
  induction s generalizing i j with
  | nil =>
    unfold indexOf at h
    split at h
    · cases h; omega
    · cases h
  | cons u t ih =>
    unfold indexOf at h
    split at h
    · cases h; omega
    · rename_i hp
      simp only [Option.map_eq_some_iff] at h
      obtain ⟨i', hi, rfl⟩ := h
      cases j with
      | zero => simpa only [Bool.not_eq_true, List.drop_zero] using hp
      | succ j => simpa using ih hi (by omega)

theorem indexOf_none {s p : Str} (h : indexOf s p = none) (j : Nat) : p.isPrefixOf (s.drop j) = false := by
  induction s generalizing j with
  | nil =>
    unfold indexOf at h
    split at h
    · cases h
    · rename_i hp; simpa only [Bool.not_eq_true, List.drop_nil] using hp
  | cons u t ih =>
    unfold indexOf at h
    split at h
    · cases h
    · rename_i hp
      simp only [Option.map_eq_none_iff] at h
      cases j with
      | zero => simpa only [Bool.not_eq_true, List.drop_zero] using hp
      | succ j => simpa using ih h j

end Verif
