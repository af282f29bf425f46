import Verif.Regex.Static
/-!
# Static analyses: the set of possible lengths, and patterns without anchors
-/
namespace Verif

/-- Insert into a list without repetition. -/
def insertNat (x : Nat) : List Nat → List Nat
  | [] => [x]
  | y :: t => match Nat.beq x y with | true => y :: t | false => y :: insertNat x t

/-- Union of two lists of numbers. -/
def unionNat (a b : List Nat) : List Nat := a.foldr insertNat b

/-- All sums of an element of `a` and an element of `b`. -/
def sums (a b : List Nat) : List Nat := a.foldr (fun x acc => unionNat (b.map (x + ·)) acc) []

/-- All sums of `n` elements of `l`. -/
def sumsN (l : List Nat) : Nat → List Nat
  | 0 => [0]
  | n + 1 => sums l (sumsN l n)

/-- All sums of `mn`, …, `mn + k` elements of `l`. -/
def sumsUpTo (l : List Nat) (mn : Nat) : Nat → List Nat
  | 0 => sumsN l mn
  | k + 1 => unionNat (sumsN l (mn + (k + 1))) (sumsUpTo l mn k)

/-- The possible lengths (in units) of a text accepted by `r`; `none` if there is no bound. -/
def Re.lens : Re → Option (List Nat)
  | .eps | .bos | .eos => some [0]
  | .cls _ => some [1]
  | .cat a b => match a.lens, b.lens with | some x, some y => some (sums x y) | _, _ => none
  | .alt a b => match a.lens, b.lens with | some x, some y => some (unionNat x y) | _, _ => none
  | .rep r mn mx _ => match r.lens, mx with | some x, some k => some (sumsUpTo x mn (k - mn)) | _, _ => none
  | .grp _ r => r.lens

theorem mem_insertNat (x y : Nat) (l : List Nat) : y ∈ insertNat x l ↔ y = x ∨ y ∈ l := by
  induction l with
  | nil => simp [insertNat]
  | cons z t ih =>
    simp only [insertNat]
    cases h : Nat.beq x z with
    | true => have := Nat.eq_of_beq_eq_true h; subst this; simp
    | false => simp [ih]; grind

theorem mem_unionNat (y : Nat) (a b : List Nat) : y ∈ unionNat a b ↔ y ∈ a ∨ y ∈ b := by
  induction a with
  | nil => simp [unionNat]
  | cons x t ih =>
    show y ∈ insertNat x (unionNat t b) ↔ _
    rw [mem_insertNat, ih]; simp [or_assoc]

theorem mem_sums {x y : Nat} {a b : List Nat} (hx : x ∈ a) (hy : y ∈ b) : x + y ∈ sums a b := by
  induction a with
  | nil => cases hx
  | cons z t ih =>
    show x + y ∈ unionNat (b.map (z + ·)) (sums t b)
    rw [mem_unionNat]
    rcases List.mem_cons.1 hx with h | h
    · subst h; exact .inl (List.mem_map.2 ⟨y, hy, rfl⟩)
    · exact .inr (ih h)

theorem mem_sumsUpTo {l : List Nat} {mn k i x : Nat} (hi : mn ≤ i) (hk : i ≤ mn + k) (hx : x ∈ sumsN l i) : x ∈ sumsUpTo l mn k := by
  induction k with
  | zero => have : i = mn := by omega
            subst this; exact hx
  | succ k ih =>
    simp only [sumsUpTo]
    rw [mem_unionNat]
    by_cases h : i = mn + (k + 1)
    · subst h; exact .inl hx
    · exact .inr (ih (by omega))

theorem iterP_lens {P : Nat → Str → Str → Prop} {l : List Nat} (h : ∀ p w e, P p w e → w.length ∈ l) (k p : Nat) (w e : Str)
    (hw : iterP P k p w e) : w.length ∈ sumsN l k := by
  induction k generalizing p w with
  | zero => simp only [iterP] at hw; simp [hw, sumsN]
  | succ k ih =>
    obtain ⟨w1, w2, rfl, h1, h2⟩ := hw
    rw [List.length_append]
    exact mem_sums (h _ _ _ h1) (ih _ _ h2)

/-- The analysis is sound. -/
theorem lens_acc (r : Re) (l : List Nat) (hl : r.lens = some l) (p : Nat) (w e : Str) (h : r.Acc p w e) : w.length ∈ l := by
  induction r generalizing p w e l with
  | eps => simp only [Re.Acc] at h; simp [Re.lens] at hl; simp [h, ← hl]
  | cls c => obtain ⟨u, rfl, hu⟩ := h; simp [Re.lens] at hl; simp [← hl]
  | cat a b iha ihb =>
    obtain ⟨w1, w2, rfl, h1, h2⟩ := h
    simp only [Re.lens] at hl
    split at hl
    · rename_i x y hx hy
      cases hl
      rw [List.length_append]
      exact mem_sums (iha x hx _ _ _ h1) (ihb y hy _ _ _ h2)
    · cases hl
  | alt a b iha ihb =>
    simp only [Re.lens] at hl
    split at hl
    · rename_i x y hx hy
      cases hl
      rw [mem_unionNat]
      rcases h with h | h
      · exact .inl (iha x hx _ _ _ h)
      · exact .inr (ihb y hy _ _ _ h)
    · cases hl
  | rep r mn mx g ih =>
    obtain ⟨k, hk, hk2, hw⟩ := h
    simp only [Re.lens] at hl
    split at hl
    · rename_i x y hx
      cases hl
      exact mem_sumsUpTo hk (hk2 y rfl) (iterP_lens (ih x hx) k p w e hw)
    · cases hl
  | grp n r ih => exact ih l hl _ _ _ h
  | bos => obtain ⟨_, rfl⟩ := h; simp [Re.lens] at hl; simp [← hl]
  | eos => obtain ⟨rfl, _⟩ := h; simp [Re.lens] at hl; simp [← hl]

/-- No `^` and no `$`. -/
def Re.noAnchor : Re → Bool
  | .bos | .eos => false
  | .eps | .cls _ => true
  | .cat a b | .alt a b => a.noAnchor && b.noAnchor
  | .rep r _ _ _ | .grp _ r => r.noAnchor

/-- Without anchors, whether a text is accepted does not depend on what is around it. -/
theorem noAnchor_acc {r : Re} (hr : r.noAnchor = true) {p q : Nat} {w e f : Str} (h : r.Acc p w e) : r.Acc q w f := by
  induction r generalizing p q w e f with
  | eps => exact h
  | cls c => exact h
  | cat a b iha ihb =>
    simp only [Re.noAnchor, Bool.and_eq_true] at hr
    obtain ⟨w1, w2, rfl, h1, h2⟩ := h
    exact ⟨w1, w2, rfl, iha hr.1 h1, ihb hr.2 h2⟩
  | alt a b iha ihb =>
    simp only [Re.noAnchor, Bool.and_eq_true] at hr
    rcases h with h | h
    · exact .inl (iha hr.1 h)
    · exact .inr (ihb hr.2 h)
  | rep r mn mx g ih =>
    obtain ⟨k, hk, hk2, hw⟩ := h
    refine ⟨k, hk, hk2, ?_⟩
    clear hk hk2
    induction k generalizing p q w with
    | zero => exact hw
    | succ k ihk =>
      obtain ⟨w1, w2, rfl, h1, h2⟩ := hw
      exact ⟨w1, w2, rfl, ih hr h1, ihk h2⟩
  | grp n r ih => exact ih hr h
  | bos => cases hr
  | eos => cases hr

end Verif
