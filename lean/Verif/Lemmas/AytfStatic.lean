import Verif.Lemmas.AytfPrefix
/-!
# Decidable conditions on metadata for the as-you-type formatter
-/
namespace Verif
open Verif.Spec

theorem startLen_le (r : Re) (s : Str) : r.startLen s ≤ s.length := by
  rw [startLen_eq]
  cases h : (r.runs ⟨0, s, []⟩).head? with
  | none => exact Nat.zero_le _
  | some st =>
    obtain ⟨w, h1, h2, _⟩ := runs_sound r _ st (List.mem_of_mem_head? h)
    have := congrArg List.length h1
    simp only [List.length_append] at this
    dsimp only at h2 this ⊢
    omega

namespace Aytf

/-- The ASCII digits. -/
def tenDigits : List Nat := [48, 49, 50, 51, 52, 53, 54, 55, 56, 57]

theorem tenDigits_mem {u : Nat} (h : isDig u = true) : u ∈ tenDigits := by
  simp only [isDig, Bool.and_eq_true, decide_eq_true_eq] at h
  have : u = 48 ∨ u = 49 ∨ u = 50 ∨ u = 51 ∨ u = 52 ∨ u = 53 ∨ u = 54 ∨ u = 55 ∨ u = 56 ∨ u = 57 := by omega
  simp only [tenDigits, List.mem_cons, List.not_mem_nil, or_false]
  exact this

/-- After `p` and `k` more digits it is known what is found at the start, if anything is found in these. -/
def stableTree (r : Re) : Nat → Str → Bool
  | 0, p => (r.decided p).isSome || r.startLen p == 0
  | k + 1, p => (r.decided p).isSome || tenDigits.all fun d => stableTree r k (p ++ [d])

theorem stableTree_spec {r : Re} (hr : r.boundedLoops = true) (k : Nat) (p : Str) (h : stableTree r k p = true) (s : Str)
    (hs : s.length = k) (hd : ∀ u ∈ s, isDig u = true) (t : Str) (hne : r.startLen (p ++ s) ≠ 0) :
    r.startLen (p ++ s ++ t) = r.startLen (p ++ s) := by
  have hdec : (r.decided p).isSome = true → r.startLen (p ++ s ++ t) = r.startLen (p ++ s) := by
    intro h
    obtain ⟨n, hn⟩ := Option.isSome_iff_exists.1 h
    rw [List.append_assoc, decided_spec hr hn, decided_spec hr hn]
  induction k generalizing p s with
  | zero =>
    unfold stableTree at h
    rcases Bool.or_eq_true _ _ ▸ h with h | h
    · exact hdec h
    · have := List.length_eq_zero_iff.1 hs
      subst this
      rw [List.append_nil] at hne
      exact absurd (beq_iff_eq.1 h) hne
  | succ k ih =>
    unfold stableTree at h
    rcases Bool.or_eq_true _ _ ▸ h with h | h
    · exact hdec h
    · cases s with
      | nil => cases hs
      | cons d s =>
        have h1 := List.all_eq_true.1 h d (tenDigits_mem (hd d (List.mem_cons_self ..)))
        have e : p ++ d :: s = p ++ [d] ++ s := by simp
        rw [e] at hne ⊢
        refine ih (p ++ [d]) h1 s (by simpa using hs) (fun u hu => hd u (List.mem_cons_of_mem _ hu)) hne ?_
        intro h
        obtain ⟨n, hn⟩ := Option.isSome_iff_exists.1 h
        rw [List.append_assoc, decided_spec hr hn, decided_spec hr hn]

/-- A sufficient condition for `Stable`. -/
def stableOk (m : Metadata) : Bool := m.npParsing.src == [] || (m.npParsing.re.boundedLoops && stableTree m.npParsing.re 3 [])

theorem removed_digits {m : Metadata} {s : Str} (h : ∀ u ∈ s, isDig u = true) : removed m s =
    if nanpaHead m s = true then s.take 1
    else if m.npParsing.src ≠ [] then s.take (m.npParsing.re.startLen s) else [] := by
  unfold removed
  rw [bytesOf_digits h]

theorem stableOk_spec {m : Metadata} (h : stableOk m = true) : Stable m := by
  intro s t h3 hs ht hne
  have hst : ∀ u ∈ s ++ t, isDig u = true := by
    intro u hu
    rcases List.mem_append.1 hu with hu | hu
    · exact hs u hu
    · exact ht u hu
  rw [removed_digits hs] at hne ⊢
  rw [removed_digits hst]
  obtain ⟨x, y, z, rfl⟩ : ∃ x y z, s = [x, y, z] := by
    match s, h3 with
    | [x, y, z], _ => exact ⟨x, y, z, rfl⟩
  simp only [List.cons_append, List.nil_append] at hne ⊢
  have hn2 : nanpaHead m (x :: y :: z :: t) = nanpaHead m [x, y, z] := rfl
  rw [hn2]
  cases hb : nanpaHead m [x, y, z] with
  | true => simp
  | false =>
    rw [hb] at hne
    simp only [Bool.false_eq_true, if_false] at hne ⊢
    by_cases hsrc : m.npParsing.src = []
    · rw [if_neg (by simp [hsrc]), if_neg (by simp [hsrc])]
    · rw [if_pos hsrc] at hne ⊢
      rw [if_pos hsrc]
      unfold stableOk at h
      simp only [Bool.or_eq_true, beq_iff_eq, Bool.and_eq_true, hsrc, false_or] at h
      have hn0 : m.npParsing.re.startLen [x, y, z] ≠ 0 := by
        intro h0; rw [h0] at hne; exact hne rfl
      have key := stableTree_spec h.1 3 [] h.2 [x, y, z] rfl hs t hn0
      simp only [List.nil_append, List.cons_append] at key
      rw [key]
      have := startLen_le m.npParsing.re [x, y, z]
      show List.take _ ([x, y, z] ++ t) = _
      rw [List.take_append_of_le_length this]

/-- Whatever is found at the start after `p` and `k` more digits is found again at the start of that and anything following it. -/
def coverTree (r : Re) : Nat → Str → Bool
  | k, p =>
    match r.decided p with
    | some n => n == 0 || (Nat.ble n p.length && r.covers (p.take n))
    | none =>
      match k with
      | 0 => r.startLen p == 0 || r.covers (p.take (r.startLen p))
      | k + 1 => tenDigits.all fun d => coverTree r k (p ++ [d])

theorem coverTree_spec {r : Re} (hr : r.boundedLoops = true) (k : Nat) (p : Str) (h : coverTree r k p = true) (s : Str)
    (hs : s.length = k) (hd : ∀ u ∈ s, isDig u = true) (t : Str) :
    r.startLen (p ++ s) ≤ r.startLen ((p ++ s).take (r.startLen (p ++ s)) ++ t) := by
  have hfin : ∀ n, r.startLen (p ++ s) = n → (n = 0 ∨ (n ≤ (p ++ s).length ∧ r.covers ((p ++ s).take n) = true)) →
      r.startLen (p ++ s) ≤ r.startLen ((p ++ s).take (r.startLen (p ++ s)) ++ t) := by
    intro n hn h
    rw [hn]
    rcases h with rfl | ⟨h1, h2⟩
    · exact Nat.zero_le _
    · have := covers_spec hr h2 t
      rw [List.length_take, Nat.min_eq_left h1] at this
      exact this
  have hdec : ∀ n, r.decided p = some n → (n == 0 || (Nat.ble n p.length && r.covers (p.take n))) = true →
      r.startLen (p ++ s) ≤ r.startLen ((p ++ s).take (r.startLen (p ++ s)) ++ t) := by
    intro n hn h
    refine hfin n (decided_spec hr hn s) ?_
    simp only [Bool.or_eq_true, beq_iff_eq, Bool.and_eq_true] at h
    rcases h with h | ⟨h1, h2⟩
    · exact .inl h
    · have h1 := Nat.le_of_ble_eq_true h1
      refine .inr ⟨by simp; omega, ?_⟩
      rw [List.take_append_of_le_length h1]; exact h2
  induction k generalizing p s with
  | zero =>
    unfold coverTree at h
    cases hn : r.decided p with
    | some n => rw [hn] at h; exact hdec n hn h
    | none =>
      rw [hn] at h
      have := List.length_eq_zero_iff.1 hs
      subst this
      simp only [Bool.or_eq_true, beq_iff_eq] at h
      refine hfin _ rfl ?_
      rw [List.append_nil]
      exact h.imp id fun h => ⟨startLen_le _ _, h⟩
  | succ k ih =>
    unfold coverTree at h
    cases hn : r.decided p with
    | some n => rw [hn] at h; exact hdec n hn h
    | none =>
      rw [hn] at h
      cases s with
      | nil => cases hs
      | cons d s =>
        have h1 := List.all_eq_true.1 h d (tenDigits_mem (hd d (List.mem_cons_self ..)))
        have e : p ++ d :: s = p ++ [d] ++ s := by simp
        rw [e] at hfin ⊢
        refine ih (p ++ [d]) h1 s (by simpa using hs) (fun u hu => hd u (List.mem_cons_of_mem _ hu)) hfin ?_
        intro n hn h
        refine hfin n (decided_spec hr hn s) ?_
        simp only [Bool.or_eq_true, beq_iff_eq, Bool.and_eq_true] at h
        rcases h with h | ⟨h1, h2⟩
        · exact .inl h
        · have h1 := Nat.le_of_ble_eq_true h1
          refine .inr ⟨by simp at h1 ⊢; omega, ?_⟩
          rw [List.take_append_of_le_length h1]; exact h2

/-- Removing a prefix from what follows an earlier removed prefix `e` and `e` itself takes at least `e`. -/
def Cov (m : Metadata) (e : Str) : Prop := ∀ x : Str, (∀ u ∈ x, isDig u = true) → e <+: removed m (e ++ x)

/-- A sufficient condition for every prefix removed from three digits to be covered. -/
def coverOk (m : Metadata) : Bool :=
  (decide (m.countryCode ≠ 1) && (m.npParsing.src == [] || (m.npParsing.re.boundedLoops && coverTree m.npParsing.re 3 []))) ||
  (m.npParsing.src != [] && m.npParsing.re.boundedLoops &&
    tenDigits.all fun d => match m.npParsing.re.decided [d] with
      | some n => if Nat.beq d 49 then Nat.beq n 1 else Nat.ble n 1
      | none => false)

theorem coverOk_spec {m : Metadata} (h : coverOk m = true) {s : Str} (h3 : s.length = 3) (hs : ∀ u ∈ s, isDig u = true)
    (hne : removed m s ≠ []) : Cov m (removed m s) := by
  have hdm : ∀ u ∈ removed m s, isDig u = true := by
    intro u hu
    unfold removed at hu
    split at hu
    · exact hs u (List.mem_of_mem_take hu)
    · split at hu
      · exact hs u (List.mem_of_mem_take hu)
      · cases hu
  intro x hx
  have hex : ∀ u ∈ removed m s ++ x, isDig u = true := by
    intro u hu
    rcases List.mem_append.1 hu with hu | hu
    · exact hdm u hu
    · exact hx u hu
  unfold coverOk at h
  rw [Bool.or_eq_true] at h
  rcases h with h | h
  · simp only [Bool.and_eq_true, decide_eq_true_eq, Bool.or_eq_true, beq_iff_eq] at h
    obtain ⟨hcc, h⟩ := h
    have hr : ∀ w : Str, (∀ u ∈ w, isDig u = true) → removed m w =
        if m.npParsing.src ≠ [] then w.take (m.npParsing.re.startLen w) else [] := by
      intro w hw
      rw [removed_digits hw]
      rw [if_neg]
      unfold nanpaHead
      split <;> simp [hcc]
    rw [hr _ hex]
    rw [hr s hs] at hne ⊢
    by_cases hsrc : m.npParsing.src = []
    · rw [if_neg (by simp [hsrc])] at hne; exact absurd rfl hne
    · rw [if_pos hsrc] at hne ⊢
      rw [if_pos hsrc]
      rcases h with h | ⟨h1, h2⟩
      · exact absurd h hsrc
      · have key := coverTree_spec h1 3 [] h2 s h3 hs x
        simp only [List.nil_append] at key
        refine List.prefix_take_iff.2 ⟨List.prefix_append _ _, ?_⟩
        rw [List.length_take]
        exact Nat.le_trans (Nat.min_le_left _ _) key
  · simp only [Bool.and_eq_true, bne_iff_ne, ne_eq] at h
    obtain ⟨⟨hsrc, hb⟩, h⟩ := h
    have hd1 : ∀ d, isDig d = true → ∀ y, m.npParsing.re.startLen (d :: y) ≤ 1 ∧ (d = 49 → m.npParsing.re.startLen (d :: y) = 1) ∧
        ∀ z, m.npParsing.re.startLen (d :: z) = m.npParsing.re.startLen (d :: y) := by
      intro d hd y
      have := List.all_eq_true.1 h d (tenDigits_mem hd)
      split at this
      · rename_i n hn
        have e := decided_spec hb hn
        simp only [List.singleton_append] at e
        rw [e y]
        refine ⟨?_, ?_, fun z => e z⟩
        · split at this
          · rw [Nat.eq_of_beq_eq_true this]; exact Nat.le_refl _
          · exact Nat.le_of_ble_eq_true this
        · rintro rfl
          rw [if_pos (by rfl)] at this
          exact Nat.eq_of_beq_eq_true this
      · cases this
    obtain ⟨a, b, c, rfl⟩ : ∃ a b c, s = [a, b, c] := by
      match s, h3 with
      | [a, b, c], _ => exact ⟨a, b, c, rfl⟩
    have ha : isDig a = true := hs a (by simp)
    have he : removed m [a, b, c] = [a] := by
      rw [removed_digits hs] at hne ⊢
      split
      · rfl
      · rename_i h0
        rw [if_neg h0, if_pos hsrc] at hne
        have h1 := (hd1 a ha [b, c]).1
        have h2 : m.npParsing.re.startLen [a, b, c] ≠ 0 := by intro h; rw [h] at hne; exact hne rfl
        rw [show m.npParsing.re.startLen [a, b, c] = 1 by omega]; rfl
    rw [he] at hex ⊢
    rw [removed_digits hex]
    by_cases h0 : nanpaHead m ([a] ++ x) = true
    · rw [if_pos h0]; exact List.prefix_rfl
    · rw [if_neg h0, if_pos hsrc]
      have h1 : m.npParsing.re.startLen ([a] ++ x) = 1 := by
        rw [removed_digits hs] at he
        by_cases hb : nanpaHead m [a, b, c] = true
        · simp only [nanpaHead, Bool.and_eq_true, decide_eq_true_eq] at hb
          exact (hd1 a ha x).2.1 hb.1.1.2
        · rw [if_neg hb, if_pos hsrc] at he
          have h2 : m.npParsing.re.startLen [a, b, c] ≠ 0 := by intro h; rw [h] at he; cases he
          have h3 := (hd1 a ha [b, c]).1
          have h4 := (hd1 a ha [b, c]).2.2 x
          show m.npParsing.re.startLen (a :: x) = 1
          omega
      rw [h1]
      exact List.prefix_rfl

end Aytf
end Verif
