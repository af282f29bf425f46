import Verif.Regex.Lang
/-!
# Static analyses of regular expressions

Decidable checks on syntax trees that imply properties of every accepted text.
-/
namespace Verif

/-- Does every character class satisfy `P`? -/
def Re.allCls (P : Cls → Bool) : Re → Bool
  | .cls c => P c
  | .cat a b | .alt a b => a.allCls P && b.allCls P
  | .rep r _ _ _ | .grp _ r => r.allCls P
  | .eps | .bos | .eos => true

theorem iterP_forall {P : Nat → Str → Str → Prop} {Q : Nat → Prop} (h : ∀ p w e, P p w e → ∀ u ∈ w, Q u) (k p : Nat) (w e : Str)
    (hw : iterP P k p w e) : ∀ u ∈ w, Q u := by
  induction k generalizing p w with
  | zero => simp only [iterP] at hw; subst hw; simp
  | succ k ih =>
    obtain ⟨w1, w2, rfl, h1, h2⟩ := hw
    intro u hu
    rcases List.mem_append.mp hu with hu | hu
    · exact h _ _ _ h1 u hu
    · exact ih _ _ h2 u hu

theorem allCls_acc {P : Cls → Bool} {Q : Nat → Prop} (hPQ : ∀ c, P c = true → ∀ u, c.mem u = true → Q u) (r : Re)
    (hr : r.allCls P = true) (p : Nat) (w e : Str) (h : r.Acc p w e) : ∀ u ∈ w, Q u := by
  induction r generalizing p w e with
  | eps => simp only [Re.Acc] at h; subst h; simp
  | cls c => obtain ⟨u, rfl, hu⟩ := h; intro v hv; simp at hv; subst hv; exact hPQ c hr _ hu
  | cat a b iha ihb =>
    simp only [Re.allCls, Bool.and_eq_true] at hr
    obtain ⟨w1, w2, rfl, h1, h2⟩ := h
    intro u hu
    rcases List.mem_append.mp hu with hu | hu
    · exact iha hr.1 _ _ _ h1 u hu
    · exact ihb hr.2 _ _ _ h2 u hu
  | alt a b iha ihb =>
    simp only [Re.allCls, Bool.and_eq_true] at hr
    rcases h with h | h
    · exact iha hr.1 _ _ _ h
    · exact ihb hr.2 _ _ _ h
  | rep r mn mx g ih =>
    obtain ⟨k, _, _, hk⟩ := h
    exact iterP_forall (fun p w e => ih hr p w e) k p w e hk
  | grp n r ih => exact ih hr _ _ _ h
  | bos => obtain ⟨_, rfl⟩ := h; simp
  | eos => obtain ⟨rfl, _⟩ := h; simp

/-! ## Lengths -/

/-- Minimal number of units of an accepted text. -/
def Re.minLen : Re → Nat
  | .cls _ => 1
  | .cat a b => a.minLen + b.minLen
  | .alt a b => min a.minLen b.minLen
  | .rep r mn _ _ => mn * r.minLen
  | .grp _ r => r.minLen
  | .eps | .bos | .eos => 0

/-- Maximal number of units of an accepted text (`none`: unbounded). -/
def Re.maxLen : Re → Option Nat
  | .cls _ => some 1
  | .cat a b => match a.maxLen, b.maxLen with | some x, some y => some (x + y) | _, _ => none
  | .alt a b => match a.maxLen, b.maxLen with | some x, some y => some (max x y) | _, _ => none
  | .rep r mn mx _ => match r.maxLen, mx with | some x, some k => some ((mn + (k - mn)) * x) | _, _ => none
  | .grp _ r => r.maxLen
  | .eps | .bos | .eos => some 0

theorem iterP_minLen {P : Nat → Str → Str → Prop} {m : Nat} (h : ∀ p w e, P p w e → m ≤ w.length) (k p : Nat) (w e : Str)
    (hw : iterP P k p w e) : k * m ≤ w.length := by
  induction k generalizing p w with
  | zero => simp
  | succ k ih =>
    obtain ⟨w1, w2, rfl, h1, h2⟩ := hw
    have := h _ _ _ h1
    have := ih _ _ h2
    rw [Nat.succ_mul]; simp; omega

theorem iterP_maxLen {P : Nat → Str → Str → Prop} {m : Nat} (h : ∀ p w e, P p w e → w.length ≤ m) (k p : Nat) (w e : Str)
    (hw : iterP P k p w e) : w.length ≤ k * m := by
  induction k generalizing p w with
  | zero => simp only [iterP] at hw; simp [hw]
  | succ k ih =>
    obtain ⟨w1, w2, rfl, h1, h2⟩ := hw
    have := h _ _ _ h1
    have := ih _ _ h2
    rw [Nat.succ_mul]; simp; omega

theorem minLen_acc (r : Re) (p : Nat) (w e : Str) (h : r.Acc p w e) : r.minLen ≤ w.length := by
  induction r generalizing p w e with
  | eps => simp [Re.minLen]
  | cls c => obtain ⟨u, rfl, hu⟩ := h; simp [Re.minLen]
  | cat a b iha ihb =>
    obtain ⟨w1, w2, rfl, h1, h2⟩ := h
    have := iha _ _ _ h1
    have := ihb _ _ _ h2
    simp [Re.minLen]; omega
  | alt a b iha ihb =>
    simp only [Re.minLen]
    rcases h with h | h
    · have := iha _ _ _ h; omega
    · have := ihb _ _ _ h; omega
  | rep r mn mx g ih =>
    obtain ⟨k, hk, _, hw⟩ := h
    have := iterP_minLen ih k p w e hw
    have := Nat.mul_le_mul_right r.minLen hk
    simp only [Re.minLen]; omega
  | grp n r ih => exact ih _ _ _ h
  | bos => simp [Re.minLen]
  | eos => simp [Re.minLen]

theorem maxLen_acc (r : Re) (m : Nat) (hm : r.maxLen = some m) (p : Nat) (w e : Str) (h : r.Acc p w e) : w.length ≤ m := by
  induction r generalizing p w e m with
  | eps => simp only [Re.Acc] at h; simp [h]
  | cls c => obtain ⟨u, rfl, hu⟩ := h; simp [Re.maxLen] at hm; simp [← hm]
  | cat a b iha ihb =>
    obtain ⟨w1, w2, rfl, h1, h2⟩ := h
    simp only [Re.maxLen] at hm
    split at hm
    · rename_i x y hx hy
      cases hm
      have := iha x hx _ _ _ h1
      have := ihb y hy _ _ _ h2
      simp; omega
    · cases hm
  | alt a b iha ihb =>
    simp only [Re.maxLen] at hm
    split at hm
    · rename_i x y hx hy
      cases hm
      rcases h with h | h
      · have := iha x hx _ _ _ h; omega
      · have := ihb y hy _ _ _ h; omega
    · cases hm
  | rep r mn mx g ih =>
    obtain ⟨k, hk, hk2, hw⟩ := h
    simp only [Re.maxLen] at hm
    split at hm
    · rename_i x y hx
      cases hm
      have h1 := iterP_maxLen (ih x hx) k p w e hw
      have h2 := Nat.mul_le_mul_right x (hk2 y rfl)
      omega
    · cases hm
  | grp n r ih => exact ih m hm _ _ _ h
  | bos => obtain ⟨_, rfl⟩ := h; simp
  | eos => obtain ⟨rfl, _⟩ := h; simp

/-! ## Leading characters -/

/-- The class contains none of the code points `L`. -/
def Cls.avoids (L : List Nat) (c : Cls) : Bool := L.all (fun u => !c.has u)

/-- The class contains only code points of `L` (syntactic check: a union of single code points). -/
def Cls.only (L : List Nat) (c : Cls) : Bool :=
  !c.neg && c.props.isEmpty && c.ranges.all (fun p => decide (p.1 = p.2) && decide (p.1 ∈ L))

/-- Every accepted text is a run of characters of `L` followed by a text without them. -/
def Re.leadOnly (L : List Nat) : Re → Bool
  | .cat a b => (a.allCls (·.only L) && b.leadOnly L) || (a.leadOnly L && b.allCls (·.avoids L))
  | .alt a b => a.leadOnly L && b.leadOnly L
  | .rep r mn mx _ => r.allCls (·.avoids L) || r.allCls (·.only L) || (decide (mn = 0) && decide (mx = some 1) && r.leadOnly L)
  | .grp _ r => r.leadOnly L
  | .cls c => c.avoids L || c.only L
  | .eps | .bos | .eos => true

/-- The declarative counterpart of `leadOnly`. -/
def LeadOnly (L : List Nat) (w : Str) : Prop := ∃ a b, w = a ++ b ∧ (∀ u ∈ a, rune u ∈ L) ∧ ∀ u ∈ b, rune u ∉ L

theorem inRanges_iff (rs : List (Nat × Nat)) (c : Nat) : inRanges rs c = true ↔ ∃ p ∈ rs, p.1 ≤ c ∧ c ≤ p.2 := by
  induction rs with
  | nil => simp [inRanges]
  | cons p t ih =>
    obtain ⟨lo, hi⟩ := p
    simp [inRanges, ih]

theorem Cls.avoids_mem {L : List Nat} {c : Cls} (h : c.avoids L = true) (u : Nat) (hu : c.mem u = true) : rune u ∉ L := by
  intro hL
  have := List.all_eq_true.1 h _ hL
  unfold Cls.mem at hu
  rw [hu] at this; cases this

theorem Cls.only_mem {L : List Nat} {c : Cls} (h : c.only L = true) (u : Nat) (hu : c.mem u = true) : rune u ∈ L := by
  simp only [Cls.only, Bool.and_eq_true, Bool.not_eq_true', List.isEmpty_iff] at h
  obtain ⟨⟨h1, h2⟩, h3⟩ := h
  simp only [Cls.mem, Cls.has, h1, h2, List.any_nil, Bool.or_false, bne_iff_ne, ne_eq, Bool.not_eq_false] at hu
  rw [inRanges_iff] at hu
  obtain ⟨p, hp, h4, h5⟩ := hu
  have := List.all_eq_true.1 h3 p hp
  simp at this
  have : rune u = p.1 := by omega
  rw [this]; exact (by assumption : p.1 = p.2 ∧ p.1 ∈ L).2

theorem leadOnly_acc (L : List Nat) (r : Re) (hr : r.leadOnly L = true) (p : Nat) (w e : Str) (h : r.Acc p w e) : LeadOnly L w := by
  induction r generalizing p w e with
  | eps => simp only [Re.Acc] at h; subst h; exact ⟨[], [], by simp, by simp, by simp⟩
  | cls c =>
    obtain ⟨u, rfl, hu⟩ := h
    simp only [Re.leadOnly, Bool.or_eq_true] at hr
    rcases hr with hr | hr
    · exact ⟨[], [u], by simp, by simp, by simpa using Cls.avoids_mem hr u hu⟩
    · exact ⟨[u], [], by simp, by simpa using Cls.only_mem hr u hu, by simp⟩
  | cat a b iha ihb =>
    obtain ⟨w1, w2, rfl, h1, h2⟩ := h
    simp only [Re.leadOnly, Bool.or_eq_true, Bool.and_eq_true] at hr
    rcases hr with hr | hr
    · obtain ⟨x, y, rfl, hx, hy⟩ := ihb hr.2 _ _ _ h2
      have ha := allCls_acc (Q := fun u => rune u ∈ L) (fun c hc u hu => Cls.only_mem hc u hu) a hr.1 _ _ _ h1
      refine ⟨w1 ++ x, y, by simp, ?_, hy⟩
      intro u hu
      rcases List.mem_append.mp hu with hu | hu
      · exact ha u hu
      · exact hx u hu
    · obtain ⟨x, y, rfl, hx, hy⟩ := iha hr.1 _ _ _ h1
      have hb := allCls_acc (Q := fun u => rune u ∉ L) (fun c hc u hu => Cls.avoids_mem hc u hu) b hr.2 _ _ _ h2
      refine ⟨x, y ++ w2, by simp, hx, ?_⟩
      intro u hu
      rcases List.mem_append.mp hu with hu | hu
      · exact hy u hu
      · exact hb u hu
  | alt a b iha ihb =>
    simp only [Re.leadOnly, Bool.and_eq_true] at hr
    rcases h with h | h
    · exact iha hr.1 _ _ _ h
    · exact ihb hr.2 _ _ _ h
  | rep r mn mx g ih =>
    have h' := h
    obtain ⟨k, hk, hk2, hw⟩ := h
    simp only [Re.leadOnly, Bool.or_eq_true, Bool.and_eq_true] at hr
    rcases hr with (hr | hr) | hr
    · exact ⟨[], w, by simp, by simp, allCls_acc (Q := fun u => rune u ∉ L) (fun c hc u hu => Cls.avoids_mem hc u hu)
        (.rep r mn mx g) hr _ _ _ h'⟩
    · exact ⟨w, [], by simp, allCls_acc (Q := fun u => rune u ∈ L) (fun c hc u hu => Cls.only_mem hc u hu)
        (.rep r mn mx g) hr _ _ _ h', by simp⟩
    · obtain ⟨⟨h1, h2⟩, h3⟩ := hr
      have hmn : mn = 0 := by simpa using h1
      have hmx : mx = some 1 := by simpa using h2
      have hk1 := hk2 1 hmx
      rcases (by omega : k = 0 ∨ k = 1) with hk0 | hk0
      · subst hk0; simp only [iterP] at hw; subst hw; exact ⟨[], [], by simp, by simp, by simp⟩
      · subst hk0
        obtain ⟨w1, w2, rfl, h4, h5⟩ := hw
        simp only [iterP] at h5; subst h5
        simpa using ih h3 _ _ _ h4
  | grp n r ih => exact ih hr _ _ _ h
  | bos => obtain ⟨_, rfl⟩ := h; exact ⟨[], [], by simp, by simp, by simp⟩
  | eos => obtain ⟨rfl, _⟩ := h; exact ⟨[], [], by simp, by simp, by simp⟩

/-! ## Required characters -/

/-- Every accepted text contains a character outside `L`. -/
def Re.needs (L : List Nat) : Re → Bool
  | .cls c => c.avoids L
  | .cat a b => a.needs L || b.needs L
  | .alt a b => a.needs L && b.needs L
  | .rep r mn _ _ => decide (0 < mn) && r.needs L
  | .grp _ r => r.needs L
  | .eps | .bos | .eos => false

theorem needs_acc (L : List Nat) (r : Re) (hr : r.needs L = true) (p : Nat) (w e : Str) (h : r.Acc p w e) :
    ∃ u ∈ w, rune u ∉ L := by
  induction r generalizing p w e with
  | eps => cases hr
  | cls c => obtain ⟨u, rfl, hu⟩ := h; exact ⟨u, by simp, Cls.avoids_mem hr u hu⟩
  | cat a b iha ihb =>
    obtain ⟨w1, w2, rfl, h1, h2⟩ := h
    simp only [Re.needs, Bool.or_eq_true] at hr
    rcases hr with hr | hr
    · obtain ⟨u, hu, h3⟩ := iha hr _ _ _ h1; exact ⟨u, by simp [hu], h3⟩
    · obtain ⟨u, hu, h3⟩ := ihb hr _ _ _ h2; exact ⟨u, by simp [hu], h3⟩
  | alt a b iha ihb =>
    simp only [Re.needs, Bool.and_eq_true] at hr
    rcases h with h | h
    · exact iha hr.1 _ _ _ h
    · exact ihb hr.2 _ _ _ h
  | rep r mn mx g ih =>
    simp only [Re.needs, Bool.and_eq_true, decide_eq_true_eq] at hr
    obtain ⟨k, hk, _, hw⟩ := h
    cases k with
    | zero => omega
    | succ k =>
      obtain ⟨w1, w2, rfl, h1, _⟩ := hw
      obtain ⟨u, hu, h3⟩ := ih hr.2 _ _ _ h1; exact ⟨u, by simp [hu], h3⟩
  | grp n r ih => exact ih hr _ _ _ h
  | bos => cases hr
  | eos => cases hr

/-- A pattern that needs a character outside `L` does not match a text made of `L`. -/
theorem find_none_of_needs {L : List Nat} {r : Re} (hr : r.needs L = true) {s : Str} (hs : ∀ u ∈ s, rune u ∈ L) (p : Nat) :
    r.findFrom p s = none := by
  cases hf : r.findFrom p s with
  | none => rfl
  | some x =>
    obtain ⟨a, w, e, h1, _, _, h4, _⟩ := findFrom_sound hf
    obtain ⟨u, hu, h3⟩ := needs_acc L r hr _ _ _ h4
    exact absurd (hs u (by rw [h1]; simp [hu])) h3

end Verif
