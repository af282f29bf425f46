import Verif.Regex.Lens
/-!
# Regular expressions: what an accepted text can begin with
-/
namespace Verif

/-- Can the empty text be accepted?  (`false` is definite.) -/
def Re.nullable : Re → Bool
  | .eps | .bos | .eos => true
  | .cls _ => false
  | .cat a b => a.nullable && b.nullable
  | .alt a b => a.nullable || b.nullable
  | .rep r mn _ _ => Nat.beq mn 0 || r.nullable
  | .grp _ r => r.nullable

/-- Can an accepted text begin with the unit `u`?  (`false` is definite.) -/
def Re.canStart (u : Nat) : Re → Bool
  | .eps | .bos | .eos => false
  | .cls c => c.mem u
  | .cat a b => a.canStart u || (a.nullable && b.canStart u)
  | .alt a b => a.canStart u || b.canStart u
  | .rep r _ _ _ => r.canStart u
  | .grp _ r => r.canStart u

/-- The alternatives at the top. -/
def Re.alts : Re → List Re
  | .alt a b => a.alts ++ b.alts
  | r => [r]

theorem nullable_acc {r : Re} {p : Nat} {e : Str} (h : r.Acc p [] e) : r.nullable = true := by
  induction r generalizing p e with
  | eps | bos | eos => rfl
  | cls c => obtain ⟨u, hu, _⟩ := h; cases hu
  | cat a b iha ihb =>
    obtain ⟨w1, w2, hw, h1, h2⟩ := h
    obtain ⟨rfl, rfl⟩ := List.append_eq_nil_iff.1 hw.symm
    simp [Re.nullable, iha h1, ihb h2]
  | alt a b iha ihb =>
    rcases h with h | h
    · simp [Re.nullable, iha h]
    · simp [Re.nullable, ihb h]
  | rep r mn mx g ih =>
    obtain ⟨k, hk, -, hw⟩ := h
    simp only [Re.nullable, Bool.or_eq_true]
    cases k with
    | zero => left; simp at hk; simp [hk]
    | succ k =>
      obtain ⟨w1, w2, hw, h1, h2⟩ := hw
      obtain ⟨rfl, rfl⟩ := List.append_eq_nil_iff.1 hw.symm
      exact .inr (ih h1)
  | grp n r ih => exact ih (p := p) h

theorem canStart_acc {r : Re} {p u : Nat} {w e : Str} (h : r.Acc p (u :: w) e) : r.canStart u = true := by
  induction r generalizing p w e with
  | eps => cases h
  | bos => cases h.2
  | eos => cases h.1
  | cls c => obtain ⟨v, hv, hm⟩ := h; cases hv; exact hm
  | cat a b iha ihb =>
    obtain ⟨w1, w2, hw, h1, h2⟩ := h
    simp only [Re.canStart, Bool.or_eq_true, Bool.and_eq_true]
    cases w1 with
    | nil => simp only [List.nil_append] at hw; subst hw; exact .inr ⟨nullable_acc h1, ihb h2⟩
    | cons v w1 => simp only [List.cons_append, List.cons.injEq] at hw; obtain ⟨rfl, rfl⟩ := hw; exact .inl (iha h1)
  | alt a b iha ihb =>
    rcases h with h | h
    · simp [Re.canStart, iha h]
    · simp [Re.canStart, ihb h]
  | rep r mn mx g ih =>
    obtain ⟨k, -, -, hw⟩ := h
    simp only [Re.canStart]
    clear mx mn
    induction k generalizing p with
    | zero => cases hw
    | succ k ihk =>
      obtain ⟨w1, w2, hw', h1, h2⟩ := hw
      cases w1 with
      | nil => simp only [List.nil_append] at hw'; subst hw'; exact ihk h2
      | cons v w1 => simp only [List.cons_append, List.cons.injEq] at hw'; obtain ⟨rfl, rfl⟩ := hw'; exact ih h1
  | grp n r ih => exact ih (p := p) h

theorem alts_acc {r : Re} {p : Nat} {w e : Str} (h : r.Acc p w e) : ∃ a ∈ r.alts, a.Acc p w e := by
  induction r with
  | alt a b iha ihb =>
    simp only [Re.alts, List.mem_append]
    rcases h with h | h
    · obtain ⟨x, hx, hx'⟩ := iha h; exact ⟨x, .inl hx, hx'⟩
    · obtain ⟨x, hx, hx'⟩ := ihb h; exact ⟨x, .inr hx, hx'⟩
  | _ => exact ⟨_, by simp [Re.alts], h⟩

end Verif
