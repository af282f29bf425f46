import Verif.Regex.Deriv
/-!
# Inclusion of patterns

Derivatives accept nothing but the rests of accepted texts; with that, a check that every digit string accepted by one pattern is
accepted by another.
-/
namespace Verif

theorem nullable_complete {r : Re} (hr : r.noAnchor = true) (h : r.nullable = true) (p : Nat) (e : Str) : r.Acc p [] e := by
  induction r generalizing p e with
  | eps => rfl
  | cls c => cases h
  | cat a b iha ihb =>
    simp only [Re.noAnchor, Re.nullable, Bool.and_eq_true] at hr h
    exact ⟨[], [], rfl, iha hr.1 h.1 _ _, ihb hr.2 h.2 _ _⟩
  | alt a b iha ihb =>
    simp only [Re.noAnchor, Re.nullable, Bool.and_eq_true, Bool.or_eq_true] at hr h
    rcases h with h | h
    · exact .inl (iha hr.1 h _ _)
    · exact .inr (ihb hr.2 h _ _)
  | grp n r ih => exact ih hr h p e
  | rep r mn mx g ih =>
    simp only [Re.nullable, Bool.or_eq_true, Nat.beq_eq] at h
    refine ⟨mn, Nat.le_refl _, fun x _ => by omega, ?_⟩
    rcases h with h | h
    · subst h; rfl
    · have key : ∀ k p, iterP r.Acc k p [] e := by
        intro k
        induction k with
        | zero => intro p; rfl
        | succ k ihk => intro p; exact ⟨[], [], rfl, ih hr h p _, ihk _⟩
      exact key mn p
  | bos => cases hr
  | eos => cases hr

/-- A text that a derivative accepts is the rest of an accepted text. -/
theorem pd_complete {r : Re} (hr : r.noAnchor = true) {p u : Nat} {w e : Str} {x : Re} (hx : x ∈ r.pd u) (h : x.Acc (p + 1) w e) :
    r.Acc p (u :: w) e := by
  induction r generalizing p w e x with
  | eps | bos | eos => simp [Re.pd] at hx
  | cls c =>
    simp only [Re.pd] at hx
    split at hx
    · rename_i hc
      simp only [List.mem_singleton] at hx
      subst hx
      cases (show w = [] from h)
      exact ⟨u, rfl, hc⟩
    · cases hx
  | cat a b iha ihb =>
    simp only [Re.noAnchor, Bool.and_eq_true] at hr
    have left : ∀ y ∈ a.pd u, (y.seq b).Acc (p + 1) w e → (Re.cat a b).Acc p (u :: w) e := by
      intro y hy h
      obtain ⟨w1, w2, rfl, h1, h2⟩ := acc_seq.1 h
      refine ⟨u :: w1, w2, rfl, iha hr.1 hy h1, ?_⟩
      have : p + 1 + w1.length = p + (u :: w1).length := by simp; omega
      rw [← this]; exact h2
    simp only [Re.pd] at hx
    split at hx
    · rename_i hn
      rcases List.mem_append.1 hx with hx | hx
      · obtain ⟨y, hy, rfl⟩ := List.mem_map.1 hx; exact left y hy h
      · exact ⟨[], u :: w, rfl, nullable_complete hr.1 hn _ _, ihb hr.2 hx h⟩
    · obtain ⟨y, hy, rfl⟩ := List.mem_map.1 hx; exact left y hy h
  | alt a b iha ihb =>
    simp only [Re.noAnchor, Bool.and_eq_true] at hr
    rcases List.mem_append.1 hx with hx | hx
    · exact .inl (iha hr.1 hx h)
    · exact .inr (ihb hr.2 hx h)
  | grp n r ih => exact ih hr hx h
  | rep r mn mx g ih =>
    have key : ∀ mn' mx' y, y ∈ r.pd u → (y.seq (.rep r mn' mx' g)).Acc (p + 1) w e →
        (∀ k, mn' ≤ k → (∀ x, mx' = some x → k ≤ mn' + (x - mn')) → mn ≤ k + 1 ∧ ∀ x, mx = some x → k + 1 ≤ mn + (x - mn)) →
        (Re.rep r mn mx g).Acc p (u :: w) e := by
      intro mn' mx' y hy h hk
      obtain ⟨w1, w2, rfl, h1, k, h2, h3, h4⟩ := acc_seq.1 h
      obtain ⟨k1, k2⟩ := hk k h2 h3
      refine ⟨k + 1, k1, k2, u :: w1, w2, rfl, ih hr hy h1, ?_⟩
      have : p + 1 + w1.length = p + (u :: w1).length := by simp; omega
      rw [← this]; exact h4
    simp only [Re.pd] at hx
    split at hx
    · split at hx
      · cases hx
      · obtain ⟨y, hy, rfl⟩ := List.mem_map.1 hx
        refine key _ _ y hy h fun k h1 h2 => ?_
        have := h2 0 rfl
        exact ⟨by omega, fun x hx => by cases hx; omega⟩
    · rename_i z
      obtain ⟨y, hy, rfl⟩ := List.mem_map.1 hx
      refine key _ _ y hy h fun k h1 h2 => ?_
      have := h2 z rfl
      exact ⟨by omega, fun x hx => by cases hx; omega⟩
    · obtain ⟨y, hy, rfl⟩ := List.mem_map.1 hx
      exact key _ _ y hy h fun k h1 h2 => ⟨by omega, fun x hx => by cases hx⟩

/-- Every digit string accepted by a pattern of `A` is accepted by a pattern of `B`. -/
def incl : Nat → List Re → List Re → Bool
  | 0, A, _ => A.isEmpty
  | f + 1, A, B => A.isEmpty ||
      ((!A.any (·.nullable) || B.any (·.nullable)) && digitUnits.all fun u => incl f (pds u A) (pds u B))

theorem incl_sound {f : Nat} {A B : List Re} (h : incl f A B = true) (hA : ∀ r ∈ A, r.noAnchor = true) (hB : ∀ r ∈ B, r.noAnchor = true)
    {w : Str} (hw : ∀ u ∈ w, isDig u = true) (ha : AccAny A w) : AccAny B w := by
  induction w generalizing f A B with
  | nil =>
    have hne : A.isEmpty = false := by obtain ⟨r, hr, -⟩ := ha; cases A <;> simp_all
    cases f with
    | zero => simp [incl, hne] at h
    | succ f =>
      simp only [incl, hne, Bool.false_or, Bool.and_eq_true, Bool.or_eq_true, Bool.not_eq_true'] at h
      obtain ⟨r, hr, ha⟩ := ha
      have hn : A.any (·.nullable) = true := List.any_eq_true.2 ⟨r, hr, nullable_acc ha⟩
      rcases h.1 with h | h
      · rw [hn] at h; cases h
      · obtain ⟨b, hb, hn⟩ := List.any_eq_true.1 h
        exact ⟨b, hb, nullable_complete (hB b hb) hn _ _⟩
  | cons u w ih =>
    have hne : A.isEmpty = false := by obtain ⟨r, hr, -⟩ := ha; cases A <;> simp_all
    cases f with
    | zero => simp [incl, hne] at h
    | succ f =>
      simp only [incl, hne, Bool.false_or, Bool.and_eq_true] at h
      have h2 := List.all_eq_true.1 h.2 u (mem_digitUnits (hw u (by simp)))
      obtain ⟨x, hx, hx2⟩ := ih h2 (pds_noAnchor hA u) (pds_noAnchor hB u) (fun v hv => hw v (by simp [hv])) (pds_acc hA ha)
      obtain ⟨b, hb, hx3⟩ := List.mem_flatMap.1 hx
      exact ⟨b, hb, pd_complete (hB b hb) hx3 (noAnchor_acc (pd_noAnchor (hB b hb) u x hx3) hx2)⟩

end Verif
