import Verif.Regex.Lang
/-!
# Algebra of the declarative meaning of regular expressions
-/
namespace Verif

theorem acc_cls {c : Cls} {p : Nat} {w e : Str} : (Re.cls c).Acc p w e ↔ ∃ u, w = [u] ∧ c.mem u = true := Iff.rfl

theorem acc_cat {a b : Re} {p : Nat} {w e : Str} :
    (Re.cat a b).Acc p w e ↔ ∃ w1 w2, w = w1 ++ w2 ∧ a.Acc p w1 (w2 ++ e) ∧ b.Acc (p + w1.length) w2 e := Iff.rfl

theorem acc_alt {a b : Re} {p : Nat} {w e : Str} : (Re.alt a b).Acc p w e ↔ a.Acc p w e ∨ b.Acc p w e := Iff.rfl

theorem acc_grp {n : Nat} {r : Re} {p : Nat} {w e : Str} : (Re.grp n r).Acc p w e ↔ r.Acc p w e := Iff.rfl

theorem acc_eps {p : Nat} {w e : Str} : Re.eps.Acc p w e ↔ w = [] := Iff.rfl

theorem iterP_cls {c : Cls} {k p : Nat} {w e : Str} :
    iterP (Re.cls c).Acc k p w e ↔ w.length = k ∧ ∀ u ∈ w, c.mem u = true := by
  induction k generalizing p w with
  | zero =>
    simp only [iterP, List.length_eq_zero_iff]
    constructor
    · rintro rfl; simp
    · exact fun h => h.1
  | succ k ih =>
    simp only [iterP, acc_cls]
    constructor
    · rintro ⟨w1, w2, rfl, ⟨u, rfl, hu⟩, h2⟩
      obtain ⟨h3, h4⟩ := ih.1 h2
      refine ⟨by simp [h3], ?_⟩
      intro v hv
      rcases List.mem_append.1 hv with h | h
      · simp at h; rw [h]; exact hu
      · exact h4 v h
    · rintro ⟨h1, h2⟩
      cases w with
      | nil => simp at h1
      | cons u w =>
        exact ⟨[u], w, rfl, ⟨u, rfl, h2 u (by simp)⟩, ih.2 ⟨by simpa using h1, fun v hv => h2 v (by simp [hv])⟩⟩

/-- A repeated class accepts the words over the class whose length is in the bounds. -/
theorem acc_rep_cls {c : Cls} {mn : Nat} {mx : Option Nat} {g : Bool} {p : Nat} {w e : Str} :
    (Re.rep (.cls c) mn mx g).Acc p w e ↔
      (∀ u ∈ w, c.mem u = true) ∧ mn ≤ w.length ∧ (∀ x, mx = some x → w.length ≤ mn + (x - mn)) := by
  show (∃ k, mn ≤ k ∧ (∀ x, mx = some x → k ≤ mn + (x - mn)) ∧ iterP (Re.cls c).Acc k p w e) ↔ _
  constructor
  · rintro ⟨k, h1, h2, h3⟩
    obtain ⟨rfl, h4⟩ := iterP_cls.1 h3
    exact ⟨h4, h1, h2⟩
  · rintro ⟨h1, h2, h3⟩
    exact ⟨w.length, h2, h3, iterP_cls.2 ⟨rfl, h1⟩⟩

theorem acc_plus_cls {c : Cls} {g : Bool} {p : Nat} {w e : Str} :
    (Re.rep (.cls c) 1 none g).Acc p w e ↔ w ≠ [] ∧ ∀ u ∈ w, c.mem u = true := by
  rw [acc_rep_cls]
  constructor
  · rintro ⟨h1, h2, -⟩
    exact ⟨by rintro rfl; simp at h2, h1⟩
  · rintro ⟨h1, h2⟩
    exact ⟨h2, List.length_pos_iff.2 h1, by simp⟩

theorem acc_star_cls {c : Cls} {g : Bool} {p : Nat} {w e : Str} :
    (Re.rep (.cls c) 0 none g).Acc p w e ↔ ∀ u ∈ w, c.mem u = true := by
  rw [acc_rep_cls]; simp

/-- `r?` -/
theorem acc_opt {r : Re} {g : Bool} {p : Nat} {w e : Str} : (Re.rep r 0 (some 1) g).Acc p w e ↔ w = [] ∨ r.Acc p w e := by
  show (∃ k, 0 ≤ k ∧ (∀ x, some 1 = some x → k ≤ 0 + (x - 0)) ∧ iterP r.Acc k p w e) ↔ _
  constructor
  · rintro ⟨k, -, h2, h3⟩
    have : k ≤ 1 := by simpa using h2 1 rfl
    match k, this with
    | 0, _ => exact .inl h3
    | 1, _ =>
      obtain ⟨w1, w2, rfl, h4, rfl⟩ := h3
      right; simpa using h4
  · rintro (rfl | h)
    · exact ⟨0, by omega, by simp, rfl⟩
    · exact ⟨1, by omega, by simp, w, [], by simp, by simpa using h, rfl⟩

end Verif
