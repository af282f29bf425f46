import Verif.Model.TextFiles
import Verif.Spec.TextFiles
import Verif.Lemmas.Mapper
import Verif.Lemmas.Serialize
/-!
# Lemmas: the text files of prefixes
-/
namespace Verif
open Spec

theorem splitByte_ne (c : Nat) (s : Bytes) : splitByte c s ≠ [] := by
  cases s with
  | nil => simp [splitByte]
  | cons b t =>
    simp only [splitByte]
    split
    · simp
    · split <;> simp

theorem intercalate_cons_cons (c : Nat) (p q : Bytes) (ps : List Bytes) :
    [c].intercalate (p :: q :: ps) = p ++ c :: [c].intercalate (q :: ps) := by
  simp [List.intercalate]

theorem pieces_split (c : Nat) (s : Bytes) : Pieces c s (splitByte c s) := by
  induction s with
  | nil => simp [Pieces, splitByte, List.intercalate]
  | cons b t ih =>
    obtain ⟨h1, h2, h3⟩ := ih
    simp only [splitByte]
    split
    · rename_i hb
      subst hb
      refine ⟨by simp, ?_, ?_⟩
      · intro p hp
        rcases List.mem_cons.1 hp with rfl | hp
        · simp
        · exact h2 p hp
      · cases hs : splitByte b t with
        | nil => exact absurd hs h1
        | cons v vs =>
          rw [intercalate_cons_cons, ← hs, ← h3]; rfl
    · rename_i hb
      cases hs : splitByte c t with
      | nil => exact absurd hs h1
      | cons v vs =>
        rw [hs] at h2 h3
        refine ⟨by simp, ?_, ?_⟩
        · intro p hp
          rcases List.mem_cons.1 hp with rfl | hp
          · have := h2 v (by simp)
            simp only [List.mem_cons, not_or]
            exact ⟨fun h => hb h.symm, this⟩
          · exact h2 p (by simp [hp])
        · cases vs with
          | nil => rw [h3]; simp [List.intercalate]
          | cons w ws => rw [h3, intercalate_cons_cons, intercalate_cons_cons]; rfl

theorem splitByte_of_not_mem {c : Nat} {v : Bytes} (h : c ∉ v) : splitByte c v = [v] := by
  induction v with
  | nil => rfl
  | cons b t ih =>
    simp only [List.mem_cons, not_or] at h
    simp only [splitByte]
    rw [if_neg (fun e => h.1 e.symm), ih h.2]

theorem splitByte_append {c : Nat} {v : Bytes} (h : c ∉ v) (t : Bytes) : splitByte c (v ++ c :: t) = v :: splitByte c t := by
  induction v with
  | nil => simp [splitByte]
  | cons b v ih =>
    simp only [List.mem_cons, not_or] at h
    simp only [List.cons_append, splitByte]
    rw [if_neg (fun e => h.1 e.symm), ih h.2]

/-- Splitting is unique. -/
theorem pieces_iff (c : Nat) (s : Bytes) (ps : List Bytes) : Pieces c s ps ↔ splitByte c s = ps := by
  refine ⟨fun h => ?_, fun h => h ▸ pieces_split c s⟩
  obtain ⟨h1, h2, rfl⟩ := h
  induction ps with
  | nil => exact absurd rfl h1
  | cons p ps ih =>
    cases ps with
    | nil =>
      have : [c].intercalate [p] = p := by simp [List.intercalate]
      rw [this]
      exact splitByte_of_not_mem (h2 p (by simp))
    | cons q ps =>
      rw [intercalate_cons_cons, splitByte_append (h2 p (by simp)), ih (by simp) (fun r hr => h2 r (List.mem_cons_of_mem _ hr))]

theorem lines_iff (files ls : List Bytes) : Lines files ls ↔ files.flatMap (splitByte 10) = ls := by
  constructor
  · intro h
    induction h with
    | nil => rfl
    | cons h1 _ ih =>
      rw [List.flatMap_cons, ih]
      exact congrArg (· ++ _) ((pieces_iff 10 _ _).1 h1)
  · rintro rfl
    induction files with
    | nil => exact .nil
    | cons f fs ih => rw [List.flatMap_cons]; exact .cons (pieces_split _ _) ih

theorem isWhite_iff (u : Nat) : isWhite u = true ↔ White u := by
  simp only [isWhite, White, Bool.or_eq_true, decide_eq_true_eq, beq_iff_eq, List.mem_cons, List.not_mem_nil, or_false]
  omega

theorem white_valid {u : Nat} (h : White u) : Utf8.validRune u = true := by
  simp only [White, List.mem_cons, List.not_mem_nil, or_false] at h
  simp only [Utf8.validRune, Bool.or_eq_true, decide_eq_true_eq]
  omega

theorem isBlank_iff {s : Bytes} (hs : ∀ b ∈ s, b < 256) : isBlank s = true ↔ Blank s := by
  unfold isBlank Blank
  rw [List.all_eq_true]
  constructor
  · intro h
    exact ⟨Utf8.decode s, fun u hu => (isWhite_iff u).1 (h u hu), (Utf8.encode_decode s hs).symm⟩
  · rintro ⟨t, h, rfl⟩ u hu
    rw [Utf8.decode_encode t (fun u hu => white_valid (h u hu))] at hu
    exact (isWhite_iff u).2 (h u hu)

theorem skipLine_iff {s : Bytes} (hs : ∀ b ∈ s, b < 256) : skipLine s = true ↔ Skipped s := by
  unfold skipLine Skipped
  rw [Bool.or_eq_true, isBlank_iff hs, beq_iff_eq]
  refine or_congr_left ?_
  cases s with
  | nil => simp
  | cons b t =>
    simp only [List.head?_cons, Option.some.injEq, List.cons.injEq]
    exact ⟨fun h => ⟨t, h, rfl⟩, fun ⟨_, h, _⟩ => h⟩

theorem isDig_iff_IsDigit (u : Nat) : isDig u = true ↔ IsDigit u := by
  simp [isDig, IsDigit]

theorem denotes_digVal {d : Bytes} : (∃ n, Denotes d n) ↔ d.all isDig = true := by
  constructor
  · rintro ⟨n, h⟩
    rw [List.all_eq_true]
    exact fun u hu => (isDig_iff_IsDigit u).2 ((denotes_iff.1 h).1 u hu)
  · intro h
    exact ⟨_, denotes_iff.2 ⟨fun u hu => (isDig_iff_IsDigit u).1 (List.all_eq_true.1 h u hu), rfl⟩⟩

theorem atoi_iff (p : Bytes) (k : Int) : atoi p = some k ↔ IntText p k := by
  have plus : '+'.toNat = 43 := rfl
  have minus : '-'.toNat = 45 := rfl
  have signless : ∀ d : Bytes, d.all isDig = true → ∀ t, d ≠ 43 :: t ∧ d ≠ 45 :: t := by
    intro d hd t
    refine ⟨?_, ?_⟩ <;> rintro rfl <;> simp [isDig] at hd
  have body : ∀ (neg : Bool) (d : Bytes), (if d = [] ∨ !d.all isDig then none
      else if neg then (if digVal d ≤ 2 ^ 63 then some (-(digVal d : Nat) : Int) else none)
        else if digVal d < 2 ^ 63 then some (digVal d : Int) else none) = some k ↔
      ∃ n, d ≠ [] ∧ Denotes d n ∧ ((neg = false ∧ n < 2 ^ 63 ∧ k = n) ∨ (neg = true ∧ n ≤ 2 ^ 63 ∧ k = -n)) := by
    intro neg d
    have hden : ∀ n, Denotes d n ↔ d.all isDig = true ∧ n = digVal d := by
      intro n
      rw [denotes_iff, List.all_eq_true]
      refine and_congr_left (fun _ => ⟨fun h u hu => (isDig_iff_IsDigit u).2 (h u hu), fun h u hu => (isDig_iff_IsDigit u).1 (h u hu)⟩)
    simp only [hden]
    by_cases h0 : d = []
    · simp [h0]
    · by_cases h1 : d.all isDig = true
      · rw [if_neg (by simp [h0, h1])]
        cases neg
        · simp only [Bool.false_eq_true, if_false]
          split
          · rename_i h
            constructor
            · intro e; cases e; exact ⟨_, h0, ⟨h1, rfl⟩, Or.inl ⟨by trivial, h, rfl⟩⟩
            · rintro ⟨n, _, ⟨_, rfl⟩, ⟨_, _, rfl⟩ | ⟨h, _⟩⟩
              · rfl
              · cases h
          · rename_i h
            constructor
            · intro e; cases e
            · rintro ⟨n, _, ⟨_, rfl⟩, ⟨_, h', _⟩ | ⟨h', _⟩⟩
              · exact absurd h' h
              · cases h'
        · simp only [if_true]
          split
          · rename_i h
            constructor
            · intro e; cases e; exact ⟨_, h0, ⟨h1, rfl⟩, Or.inr ⟨by trivial, h, rfl⟩⟩
            · rintro ⟨n, _, ⟨_, rfl⟩, ⟨h, _⟩ | ⟨_, _, rfl⟩⟩
              · cases h
              · rfl
          · rename_i h
            constructor
            · intro e; cases e
            · rintro ⟨n, _, ⟨_, rfl⟩, ⟨h', _⟩ | ⟨_, h', _⟩⟩
              · cases h'
              · exact absurd h' h
      · rw [if_pos (by simp [h1])]
        constructor
        · intro e; cases e
        · rintro ⟨n, _, ⟨h, _⟩, _⟩; exact absurd h h1
  unfold IntText
  simp only [plus, minus]
  have key : ∀ (neg : Bool) (d : Bytes), atoi p = (if d = [] ∨ !d.all isDig then none
      else if neg then (if digVal d ≤ 2 ^ 63 then some (-(digVal d : Nat) : Int) else none)
        else if digVal d < 2 ^ 63 then some (digVal d : Int) else none) →
      (∀ d', d'.all isDig = true → ((p = d' ∨ p = 43 :: d') ↔ (neg = false ∧ d' = d)) ∧ (p = 45 :: d' ↔ (neg = true ∧ d' = d))) →
      (atoi p = some k ↔ ∃ d n, d ≠ [] ∧ Denotes d n ∧
        (((p = d ∨ p = 43 :: d) ∧ n < 2 ^ 63 ∧ k = n) ∨ (p = 45 :: d ∧ n ≤ 2 ^ 63 ∧ k = -n))) := by
    intro neg d e hd
    rw [e, body]
    constructor
    · rintro ⟨n, h0, h1, h2⟩
      have hdd := hd d (denotes_digVal.1 ⟨n, h1⟩)
      refine ⟨d, n, h0, h1, ?_⟩
      rcases h2 with ⟨h, h2⟩ | ⟨h, h2⟩
      · exact Or.inl ⟨hdd.1.2 ⟨h, rfl⟩, h2⟩
      · exact Or.inr ⟨hdd.2.2 ⟨h, rfl⟩, h2⟩
    · rintro ⟨d', n, h0, h1, h2⟩
      have hdd := hd d' (denotes_digVal.1 ⟨n, h1⟩)
      rcases h2 with ⟨h, h2⟩ | ⟨h, h2⟩
      · obtain ⟨h3, rfl⟩ := hdd.1.1 h
        exact ⟨n, h0, h1, Or.inl ⟨h3, h2⟩⟩
      · obtain ⟨h3, rfl⟩ := hdd.2.1 h
        exact ⟨n, h0, h1, Or.inr ⟨h3, h2⟩⟩
  match p, key with
  | 43 :: t, key =>
    refine key false t rfl (fun d' hd' => ⟨⟨?_, ?_⟩, ⟨?_, ?_⟩⟩)
    · rintro (h | h)
      · exact absurd h.symm (signless d' hd' t).1
      · exact ⟨rfl, (List.cons.inj h).2.symm⟩
    · rintro ⟨_, rfl⟩; exact Or.inr rfl
    · intro h; exact absurd (List.cons.inj h).1 (by decide)
    · rintro ⟨h, _⟩; cases h
  | 45 :: t, key =>
    refine key true t rfl (fun d' hd' => ⟨⟨?_, ?_⟩, ⟨?_, ?_⟩⟩)
    · rintro (h | h)
      · exact absurd h.symm (signless d' hd' t).2
      · exact absurd (List.cons.inj h).1 (by decide)
    · rintro ⟨h, _⟩; cases h
    · intro h; exact ⟨rfl, (List.cons.inj h).2.symm⟩
    · rintro ⟨_, rfl⟩; rfl
  | [], key =>
    refine key false [] rfl (fun d' hd' => ⟨⟨?_, ?_⟩, ⟨?_, ?_⟩⟩)
    · rintro (h | h)
      · exact ⟨rfl, h.symm⟩
      · cases h
    · rintro ⟨_, rfl⟩; exact Or.inl rfl
    · intro h; cases h
    · rintro ⟨h, _⟩; cases h
  | c :: t, key =>
    by_cases h1 : c = 43
    · subst h1
      refine key false t rfl (fun d' hd' => ⟨⟨?_, ?_⟩, ⟨?_, ?_⟩⟩)
      · rintro (h | h)
        · exact absurd h.symm (signless d' hd' t).1
        · exact ⟨rfl, (List.cons.inj h).2.symm⟩
      · rintro ⟨_, rfl⟩; exact Or.inr rfl
      · intro h; exact absurd (List.cons.inj h).1 (by decide)
      · rintro ⟨h, _⟩; cases h
    · by_cases h2 : c = 45
      · subst h2
        refine key true t rfl (fun d' hd' => ⟨⟨?_, ?_⟩, ⟨?_, ?_⟩⟩)
        · rintro (h | h)
          · exact absurd h.symm (signless d' hd' t).2
          · exact absurd (List.cons.inj h).1 (by decide)
        · rintro ⟨h, _⟩; cases h
        · intro h; exact ⟨rfl, (List.cons.inj h).2.symm⟩
        · rintro ⟨_, rfl⟩; rfl
      · refine key false (c :: t) ?_ (fun d' hd' => ⟨⟨?_, ?_⟩, ⟨?_, ?_⟩⟩)
        · unfold atoi
          split
          rename_i neg ds hm
          split at hm
          · rename_i hc; exact absurd (List.cons.inj hc).1 h1
          · rename_i hc; exact absurd (List.cons.inj hc).1 h2
          · cases hm; rfl
        · rintro (h | h)
          · exact ⟨rfl, h.symm⟩
          · exact absurd (List.cons.inj h).1 h1
        · rintro ⟨_, rfl⟩; exact Or.inl rfl
        · intro h; exact absurd (List.cons.inj h).1 h2
        · rintro ⟨h, _⟩; cases h

theorem fields_iff {line : Bytes} (hs : ∀ b ∈ line, b < 256) (p v : Bytes) :
    Fields line p v ↔ skipLine line = false ∧ splitByte 124 line = [p, v] := by
  unfold Fields
  rw [pieces_iff, ← skipLine_iff hs, Bool.not_eq_true]
  exact Iff.rfl

theorem row_iff {line : Bytes} (hs : ∀ b ∈ line, b < 256) (k : Int) (v : Bytes) :
    Row line k v ↔ skipLine line = false ∧ ∃ p, splitByte 124 line = [p, v] ∧ atoi p = some k := by
  unfold Row
  simp only [fields_iff hs, ← atoi_iff]
  exact ⟨fun ⟨p, ⟨h1, h2⟩, h3⟩ => ⟨h1, p, h2, h3⟩, fun ⟨h1, p, h2, h3⟩ => ⟨p, ⟨h1, h2⟩, h3⟩⟩

theorem splitByte_mem {c : Nat} {s p : Bytes} (hp : p ∈ splitByte c s) {b : Nat} (hb : b ∈ p) : b ∈ s := by
  induction s generalizing p with
  | nil => simp [splitByte] at hp; subst hp; exact hb
  | cons x t ih =>
    simp only [splitByte] at hp
    split at hp
    · rcases List.mem_cons.1 hp with rfl | hp
      · cases hb
      · exact List.mem_cons_of_mem _ (ih hp hb)
    · split at hp
      · rename_i v vs hs
        rcases List.mem_cons.1 hp with rfl | hp
        · rcases List.mem_cons.1 hb with rfl | hb
          · exact List.mem_cons_self
          · exact List.mem_cons_of_mem _ (ih (by rw [hs]; exact List.mem_cons_self) hb)
        · exact List.mem_cons_of_mem _ (ih (by rw [hs]; exact List.mem_cons_of_mem _ hp) hb)
      · simp at hp
        subst hp
        simp at hb
        simp [hb]

theorem row_value {line : Bytes} (hs : ∀ b ∈ line, b < 256) {k : Int} {v : Bytes} (h : Row line k v) : ∀ b ∈ v, b ∈ line := by
  obtain ⟨_, p, h2, _⟩ := (row_iff hs k v).1 h
  exact fun b hb => splitByte_mem (p := v) (by rw [h2]; simp) hb

theorem entry_iff {line : Bytes} (hs : ∀ b ∈ line, b < 256) (k : Int) (v : Bytes) :
    Entry line k v ↔ skipLine line = false ∧ isBlank v = false ∧ ∃ p, splitByte 124 line = [p, v] ∧ atoi p = some k := by
  unfold Entry
  constructor
  · rintro ⟨h1, h2⟩
    have h3 := fun b hb => hs b (row_value hs h1 b hb)
    obtain ⟨h4, h5⟩ := (row_iff hs k v).1 h1
    exact ⟨h4, by rw [← Bool.not_eq_true, isBlank_iff h3]; exact h2, h5⟩
  · rintro ⟨h1, h2, h5⟩
    have h4 := (row_iff hs k v).2 ⟨h1, h5⟩
    refine ⟨h4, ?_⟩
    rw [← isBlank_iff (fun b hb => hs b (row_value hs h4 b hb)), h2]
    decide

/-- A line is passed over, or is an error, or gives an entry. -/
theorem mapping_step {line : Bytes} (hs : ∀ b ∈ line, b < 256) (ls : List Bytes) (m : List (Int × Bytes)) :
    ((∀ k v, ¬ Entry line k v) ∧ (∀ p v, Fields line p v → ∃ k, 0 ≤ k ∧ IntText p k) ∧ readMappingLines (line :: ls) m = readMappingLines ls m) ∨
    ((∃ p v, Fields line p v ∧ ∀ k, 0 ≤ k → ¬ IntText p k) ∧ readMappingLines (line :: ls) m = .error (.badPrefix line)) ∨
    (∃ k v, 0 ≤ k ∧ Entry line k v ∧ (∀ k' v', Entry line k' v' → k' = k ∧ v' = v) ∧ (∀ p v, Fields line p v → ∃ k, 0 ≤ k ∧ IntText p k) ∧
      readMappingLines (line :: ls) m = if (mapGet m k).isSome then .error (.repeated line) else readMappingLines ls (mapSet m k v)) := by
  rw [readMappingLines]
  split
  · rename_i h
    refine Or.inl ⟨fun k v hk => ?_, fun p v hf => ?_, rfl⟩
    · rw [entry_iff hs, h] at hk; exact absurd hk.1 (by decide)
    · rw [fields_iff hs, h] at hf; exact absurd hf.1 (by decide)
  · rename_i h
    have h := Bool.not_eq_true _ ▸ h
    split
    · rename_i p v hsp
      have huniq : ∀ p' v', Fields line p' v' → p' = p ∧ v' = v := by
        intro p' v' hf
        rw [fields_iff hs, hsp] at hf
        simp only [List.cons.injEq, and_true] at hf
        exact ⟨hf.2.1.symm, hf.2.2.symm⟩
      have hfld : Fields line p v := (fields_iff hs p v).2 ⟨h, hsp⟩
      split
      · rename_i hat
        refine Or.inr (Or.inl ⟨⟨p, v, hfld, fun k _ hk => ?_⟩, rfl⟩)
        rw [← atoi_iff, hat] at hk; cases hk
      · rename_i k hat
        split
        · rename_i hneg
          refine Or.inr (Or.inl ⟨⟨p, v, hfld, fun k' h0 hk => ?_⟩, rfl⟩)
          rw [← atoi_iff, hat] at hk
          cases hk; omega
        · rename_i hneg
          have hgood : ∀ p v, Fields line p v → ∃ k, 0 ≤ k ∧ IntText p k := by
            intro p' v' hf
            obtain ⟨rfl, rfl⟩ := huniq p' v' hf
            exact ⟨k, by omega, (atoi_iff _ _).1 hat⟩
          split
          · rename_i hbl
            refine Or.inl ⟨fun k' v' hk => ?_, hgood, rfl⟩
            rw [entry_iff hs] at hk
            obtain ⟨_, h2, p', h3, _⟩ := hk
            rw [hsp] at h3
            simp only [List.cons.injEq, and_true] at h3
            rw [← h3.2, hbl] at h2; cases h2
          · rename_i hbl
            have hbl := Bool.not_eq_true _ ▸ hbl
            refine Or.inr (Or.inr ⟨k, v, by omega, (entry_iff hs k v).2 ⟨h, hbl, p, hsp, hat⟩, ?_, hgood, rfl⟩)
            intro k' v' hk
            rw [entry_iff hs] at hk
            obtain ⟨_, _, p', h3, h4⟩ := hk
            rw [hsp] at h3
            simp only [List.cons.injEq, and_true] at h3
            obtain ⟨rfl, rfl⟩ := h3
            rw [hat] at h4
            exact ⟨(Option.some.inj h4).symm, rfl⟩
    · rename_i hsp
      refine Or.inl ⟨fun k v hk => ?_, fun p v hf => ?_, rfl⟩
      · rw [entry_iff hs] at hk
        obtain ⟨_, _, p, h3, _⟩ := hk
        exact absurd h3 (hsp p v)
      · rw [fields_iff hs] at hf
        exact absurd hf.2 (hsp p v)

/-- What the loop over the lines gives, with the map `m` read so far. -/
theorem readMappingLines_ok {ls : List Bytes} (hs : ∀ l ∈ ls, ∀ b ∈ l, b < 256) {m r : List (Int × Bytes)} (h : readMappingLines ls m = .ok r)
    (hm : (m.map (·.1)).Nodup) :
    (r.map (·.1)).Nodup ∧ (∀ k v, (k, v) ∈ r ↔ (k, v) ∈ m ∨ ∃ l ∈ ls, Entry l k v) ∧
      (∀ l ∈ ls, ∀ p v, Fields l p v → ∃ k, 0 ≤ k ∧ IntText p k) ∧
      ls.Pairwise (fun l l' => ∀ k v v', Entry l k v → ¬ Entry l' k v') ∧ (∀ l ∈ ls, ∀ k v, Entry l k v → k ∉ m.map (·.1)) := by
  induction ls generalizing m with
  | nil =>
    rw [readMappingLines] at h
    cases h
    exact ⟨hm, by simp, by simp, by simp, by simp⟩
  | cons line ls ih =>
    have hs' := fun l hl => hs l (List.mem_cons_of_mem _ hl)
    rcases mapping_step (hs line (by simp)) ls m with ⟨h1, h2, h3⟩ | ⟨_, h3⟩ | ⟨k, v, h0, h1, h2, h4, h3⟩
    · rw [h3] at h
      obtain ⟨a, b, c, d, e⟩ := ih hs' h hm
      refine ⟨a, ?_, ?_, ?_, ?_⟩
      · intro k v
        rw [b]
        refine or_congr_right ⟨fun ⟨l, hl, hk⟩ => ⟨l, List.mem_cons_of_mem _ hl, hk⟩, fun ⟨l, hl, hk⟩ => ?_⟩
        rcases List.mem_cons.1 hl with rfl | hl
        · exact absurd hk (h1 k v)
        · exact ⟨l, hl, hk⟩
      · intro l hl
        rcases List.mem_cons.1 hl with rfl | hl
        · exact h2
        · exact c l hl
      · exact List.pairwise_cons.2 ⟨fun l _ k v v' hk => absurd hk (h1 k v), d⟩
      · intro l hl k v hk
        rcases List.mem_cons.1 hl with rfl | hl
        · exact absurd hk (h1 k v)
        · exact e l hl k v hk
    · rw [h3] at h; cases h
    · rw [h3] at h
      split at h
      · cases h
      · rename_i hn
        have hkm : k ∉ m.map (·.1) := by
          intro hk
          obtain ⟨w, hw⟩ := mapGet_some_of_mem hk
          rw [hw] at hn; exact hn rfl
        obtain ⟨a, b, c, d, e⟩ := ih hs' h (by simpa [mapSet] using ⟨by simpa using hkm, hm⟩)
        refine ⟨a, ?_, ?_, ?_, ?_⟩
        · intro k' v'
          rw [b]
          simp only [mapSet, List.mem_cons, Prod.mk.injEq]
          constructor
          · rintro ((⟨rfl, rfl⟩ | h) | ⟨l, hl, hk⟩)
            · exact Or.inr ⟨line, Or.inl rfl, h1⟩
            · exact Or.inl h
            · exact Or.inr ⟨l, Or.inr hl, hk⟩
          · rintro (h | ⟨l, rfl | hl, hk⟩)
            · exact Or.inl (Or.inr h)
            · obtain ⟨rfl, rfl⟩ := h2 _ _ hk; exact Or.inl (Or.inl ⟨rfl, rfl⟩)
            · exact Or.inr ⟨l, hl, hk⟩
        · intro l hl
          rcases List.mem_cons.1 hl with rfl | hl
          · exact h4
          · exact c l hl
        · refine List.pairwise_cons.2 ⟨fun l hl k' v' v'' hk hk' => ?_, d⟩
          obtain ⟨rfl, rfl⟩ := h2 _ _ hk
          exact e l hl _ _ hk' (by simp [mapSet])
        · intro l hl k' v' hk
          rcases List.mem_cons.1 hl with rfl | hl
          · obtain ⟨rfl, rfl⟩ := h2 _ _ hk; exact hkm
          · have := e l hl k' v' hk
            simp only [mapSet, List.map_cons, List.mem_cons, not_or] at this
            exact this.2

/-- When the loop over the lines succeeds. -/
theorem readMappingLines_total {ls : List Bytes} (hs : ∀ l ∈ ls, ∀ b ∈ l, b < 256) {m : List (Int × Bytes)}
    (h1 : ∀ l ∈ ls, ∀ p v, Fields l p v → ∃ k, 0 ≤ k ∧ IntText p k)
    (h2 : ls.Pairwise (fun l l' => ∀ k v v', Entry l k v → ¬ Entry l' k v')) (h3 : ∀ l ∈ ls, ∀ k v, Entry l k v → k ∉ m.map (·.1)) :
    ∃ r, readMappingLines ls m = .ok r := by
  induction ls generalizing m with
  | nil => exact ⟨m, rfl⟩
  | cons line ls ih =>
    have hs' := fun l hl => hs l (List.mem_cons_of_mem _ hl)
    have h1' := fun l hl => h1 l (List.mem_cons_of_mem _ hl)
    have h3' := fun l hl => h3 l (List.mem_cons_of_mem _ hl)
    obtain ⟨h2a, h2'⟩ := List.pairwise_cons.1 h2
    rcases mapping_step (hs line (by simp)) ls m with ⟨_, _, j⟩ | ⟨⟨p, v, j1, j2⟩, _⟩ | ⟨k, v, h0, j1, j2, j4, j⟩
    · rw [j]; exact ih hs' h1' h2' h3'
    · obtain ⟨k, j3, j4⟩ := h1 line (by simp) p v j1
      exact absurd j4 (j2 k j3)
    · have hk := h3 line (by simp) k v j1
      rw [j, mapGet_none_of_not_mem hk]
      refine ih hs' h1' h2' (fun l hl k' v' hk' => ?_)
      simp only [mapSet, List.map_cons, List.mem_cons, not_or]
      exact ⟨fun e => h2a l hl k v v' j1 (e ▸ hk'), h3' l hl k' v' hk'⟩

/-! ## The time zone file -/

theorem zone_step {line : Bytes} (hs : ∀ b ∈ line, b < 256) (ls : List Bytes) (m : List (Int × List Bytes)) :
    (Skipped line ∧ readZoneLines (line :: ls) m = readZoneLines ls m) ∨
    (¬ Skipped line ∧ (∀ k v, ¬ Row line k v) ∧ ∃ e, readZoneLines (line :: ls) m = .error e) ∨
    (∃ k v, Row line k v ∧ (∀ k' v', Row line k' v' → k' = k ∧ v' = v) ∧
      readZoneLines (line :: ls) m = readZoneLines ls ((k, splitByte 38 v) :: m.filter (fun e => decide (e.1 ≠ k)))) := by
  rw [readZoneLines]
  split
  · rename_i h
    exact Or.inl ⟨(skipLine_iff hs).1 h, rfl⟩
  · rename_i h
    have hns : ¬ Skipped line := by rw [← skipLine_iff hs]; exact h
    have h := Bool.not_eq_true _ ▸ h
    split
    · rename_i p v hsp
      split
      · rename_i hat
        refine Or.inr (Or.inl ⟨hns, fun k v hk => ?_, _, rfl⟩)
        obtain ⟨_, p', h2, h3⟩ := (row_iff hs k v).1 hk
        rw [hsp] at h2
        simp only [List.cons.injEq, and_true] at h2
        rw [← h2.1, hat] at h3; cases h3
      · rename_i k hat
        refine Or.inr (Or.inr ⟨k, v, (row_iff hs k v).2 ⟨h, p, hsp, hat⟩, fun k' v' hk => ?_, rfl⟩)
        obtain ⟨_, p', h2, h3⟩ := (row_iff hs k' v').1 hk
        rw [hsp] at h2
        simp only [List.cons.injEq, and_true] at h2
        obtain ⟨rfl, rfl⟩ := h2
        rw [hat] at h3
        exact ⟨(Option.some.inj h3).symm, rfl⟩
    · rename_i hsp
      refine Or.inr (Or.inl ⟨hns, fun k v hk => ?_, _, rfl⟩)
      obtain ⟨_, p', h2, h3⟩ := (row_iff hs k v).1 hk
      exact absurd h2 (hsp p' v)

theorem lastZones_cons {line : Bytes} {ls : List Bytes} {k : Int} {zs : List Bytes} :
    LastZones (line :: ls) k zs ↔ LastZones ls k zs ∨ ((∀ l ∈ ls, ∀ w, ¬ Row l k w) ∧ ∃ v, Row line k v ∧ Pieces '&'.toNat v zs) := by
  constructor
  · rintro ⟨a, l, b, v, h, h1, h2, h3⟩
    cases a with
    | nil => cases h; exact Or.inr ⟨h3, v, h1, h2⟩
    | cons x a => cases h; exact Or.inl ⟨a, l, b, v, rfl, h1, h2, h3⟩
  · rintro (⟨a, l, b, v, rfl, h⟩ | ⟨h1, v, h2, h3⟩)
    · exact ⟨line :: a, l, b, v, rfl, h⟩
    · exact ⟨[], line, ls, v, rfl, h2, h3, h1⟩

theorem filter_keys {ν : Type} (m : List (Int × ν)) (k : Int) (h : (m.map (·.1)).Nodup) (v : ν) :
    (((k, v) :: m.filter (fun e => decide (e.1 ≠ k))).map (·.1)).Nodup := by
  rw [List.map_cons, List.nodup_cons]
  constructor
  · intro hk
    obtain ⟨e, he, rfl⟩ := List.mem_map.1 hk
    simp at he
  · exact h.sublist ((List.filter_sublist).map _)

theorem readZoneLines_ok {ls : List Bytes} (hs : ∀ l ∈ ls, ∀ b ∈ l, b < 256) {m r : List (Int × List Bytes)} (h : readZoneLines ls m = .ok r)
    (hm : (m.map (·.1)).Nodup) :
    (r.map (·.1)).Nodup ∧ (∀ k zs, (k, zs) ∈ r ↔ LastZones ls k zs ∨ ((∀ l ∈ ls, ∀ w, ¬ Row l k w) ∧ (k, zs) ∈ m)) := by
  induction ls generalizing m with
  | nil =>
    rw [readZoneLines] at h
    cases h
    exact ⟨hm, fun k zs => ⟨fun h => Or.inr ⟨by simp, h⟩, fun h => by
      rcases h with ⟨a, l, b, v, h, _⟩ | ⟨_, h⟩
      · simp at h
      · exact h⟩⟩
  | cons line ls ih =>
    have hs' := fun l hl => hs l (List.mem_cons_of_mem _ hl)
    rcases zone_step (hs line (by simp)) ls m with ⟨h1, h3⟩ | ⟨_, _, e, h3⟩ | ⟨k, v, h1, h2, h3⟩
    · rw [h3] at h
      obtain ⟨a, b⟩ := ih hs' h hm
      have hno : ∀ k v, ¬ Row line k v := fun k v ⟨_, hf, _⟩ => hf.1 h1
      refine ⟨a, fun k zs => ?_⟩
      rw [b, lastZones_cons]
      constructor
      · rintro (h | ⟨h, h'⟩)
        · exact Or.inl (Or.inl h)
        · refine Or.inr ⟨fun l hl w => ?_, h'⟩
          rcases List.mem_cons.1 hl with rfl | hl
          · exact hno k w
          · exact h l hl w
      · rintro ((h | ⟨_, v, h, _⟩) | ⟨h, h'⟩)
        · exact Or.inl h
        · exact absurd h (hno k v)
        · exact Or.inr ⟨fun l hl => h l (List.mem_cons_of_mem _ hl), h'⟩
    · rw [h3] at h; cases h
    · rw [h3] at h
      obtain ⟨a, b⟩ := ih hs' h (filter_keys m k hm _)
      clear h h3
      refine ⟨a, fun k' zs => ?_⟩
      rw [b, lastZones_cons]
      simp only [List.mem_cons, Prod.mk.injEq, List.mem_filter, decide_eq_true_eq]
      constructor
      · rintro (h | ⟨h, ⟨rfl, rfl⟩ | ⟨h', h''⟩⟩)
        · exact Or.inl (Or.inl h)
        · exact Or.inl (Or.inr ⟨h, v, h1, pieces_split _ _⟩)
        · refine Or.inr ⟨fun l hl w hw => ?_, h'⟩
          rcases hl with rfl | hl
          · exact h'' (h2 _ _ hw).1
          · exact h l hl w hw
      · rintro ((h | ⟨h, v', h', h''⟩) | ⟨h, h'⟩)
        · exact Or.inl h
        · obtain ⟨rfl, rfl⟩ := h2 _ _ h'
          exact Or.inr ⟨h, Or.inl ⟨rfl, ((pieces_iff _ _ _).1 h'').symm⟩⟩
        · refine Or.inr ⟨fun l hl => h l (Or.inr hl), Or.inr ⟨h', ?_⟩⟩
          rintro rfl
          exact h line (Or.inl rfl) v h1

theorem readZoneLines_total {ls : List Bytes} (hs : ∀ l ∈ ls, ∀ b ∈ l, b < 256) (m : List (Int × List Bytes)) :
    (∃ r, readZoneLines ls m = .ok r) ↔ ∀ l ∈ ls, ¬ Skipped l → ∃ k v, Row l k v := by
  induction ls generalizing m with
  | nil => exact ⟨fun _ => by simp, fun _ => ⟨m, rfl⟩⟩
  | cons line ls ih =>
    have hs' := fun l hl => hs l (List.mem_cons_of_mem _ hl)
    rcases zone_step (hs line (by simp)) ls m with ⟨h1, h3⟩ | ⟨h1, h2, e, h3⟩ | ⟨k, v, h1, h2, h3⟩
    · rw [h3, ih hs']
      simp only [List.mem_cons, forall_eq_or_imp]
      exact ⟨fun h => ⟨fun h' => absurd h1 h', h⟩, fun h => h.2⟩
    · rw [h3]
      simp only [List.mem_cons, forall_eq_or_imp]
      constructor
      · rintro ⟨r, hr⟩; cases hr
      · rintro ⟨h, _⟩
        obtain ⟨k, v, hk⟩ := h h1
        exact absurd hk (h2 k v)
    · rw [h3, ih hs']
      simp only [List.mem_cons, forall_eq_or_imp]
      exact ⟨fun h => ⟨fun _ => ⟨k, v, h1⟩, h⟩, fun h => h.2⟩

/-! ## Sizes -/

theorem pieces_length {c : Nat} {s : Bytes} : ((splitByte c s).map (fun v => v.length + 1)).sum = s.length + 1 := by
  induction s with
  | nil => rfl
  | cons b t ih =>
    simp only [splitByte]
    split
    · simp [ih]; omega
    · cases hs : splitByte c t with
      | nil => exact absurd hs (splitByte_ne c t)
      | cons v vs =>
        rw [hs] at ih
        simp only [List.map_cons, List.sum_cons, List.length_cons] at ih ⊢
        omega

theorem row_length {line : Bytes} {k : Int} {v : Bytes} (h : Row line k v) : v.length + 1 ≤ line.length := by
  obtain ⟨p, ⟨_, h2⟩, _⟩ := h
  rw [pieces_iff] at h2
  have := pieces_length (c := '|'.toNat) (s := line)
  rw [h2] at this
  simp only [List.map_cons, List.map_nil, List.sum_cons, List.sum_nil] at this
  omega

theorem lines_length (files : List Bytes) : ((files.flatMap (splitByte 10)).map (fun l => l.length)).sum ≤ (files.map (fun f => f.length)).sum := by
  induction files with
  | nil => simp
  | cons f fs ih =>
    have h1 := pieces_length (c := 10) (s := f)
    have h2 : ∀ ls : List Bytes, ls ≠ [] → (ls.map (fun v => v.length)).sum + 1 ≤ (ls.map (fun v => v.length + 1)).sum := by
      intro ls
      induction ls with
      | nil => exact fun h => absurd rfl h
      | cons l ls ih =>
        intro _
        cases ls with
        | nil => simp
        | cons l' ls => have := ih (by simp); simp only [List.map_cons, List.sum_cons] at this ⊢; omega
    have h3 := h2 _ (splitByte_ne 10 f)
    simp only [List.flatMap_cons, List.map_append, List.sum_append, List.map_cons, List.sum_cons]
    omega

theorem readMappingLines_size {ls : List Bytes} (hs : ∀ l ∈ ls, ∀ b ∈ l, b < 256) {m r : List (Int × Bytes)} (h : readMappingLines ls m = .ok r) :
    (r.map (fun e => e.2.length + 1)).sum ≤ (m.map (fun e => e.2.length + 1)).sum + (ls.map (fun l => l.length)).sum := by
  induction ls generalizing m with
  | nil => rw [readMappingLines] at h; cases h; simp
  | cons line ls ih =>
    have hs' := fun l hl => hs l (List.mem_cons_of_mem _ hl)
    simp only [List.map_cons, List.sum_cons]
    rcases mapping_step (hs line (by simp)) ls m with ⟨_, _, j⟩ | ⟨_, j⟩ | ⟨k, v, _, j1, _, _, j⟩
    · rw [j] at h
      have := ih hs' h
      omega
    · rw [j] at h; cases h
    · rw [j] at h
      split at h
      · cases h
      · have h1 := ih hs' h
        have h2 := row_length j1.1
        simp only [mapSet, List.map_cons, List.sum_cons] at h1
        omega

theorem sum_filter_le (m : List (Int × List Bytes)) (p : Int × List Bytes → Bool) (f : Int × List Bytes → Nat) :
    ((m.filter p).map f).sum ≤ (m.map f).sum := by
  induction m with
  | nil => simp
  | cons e m ih =>
    rw [List.filter_cons]
    split <;> simp only [List.map_cons, List.sum_cons] <;> omega

theorem readZoneLines_size {ls : List Bytes} (hs : ∀ l ∈ ls, ∀ b ∈ l, b < 256) {m r : List (Int × List Bytes)} (h : readZoneLines ls m = .ok r) :
    (r.map (fun e => (e.2.map (fun v => v.length + 1)).sum)).sum ≤
      (m.map (fun e => (e.2.map (fun v => v.length + 1)).sum)).sum + (ls.map (fun l => l.length)).sum := by
  induction ls generalizing m with
  | nil => rw [readZoneLines] at h; cases h; simp
  | cons line ls ih =>
    have hs' := fun l hl => hs l (List.mem_cons_of_mem _ hl)
    simp only [List.map_cons, List.sum_cons]
    rcases zone_step (hs line (by simp)) ls m with ⟨_, j⟩ | ⟨_, _, e, j⟩ | ⟨k, v, j1, _, j⟩
    · rw [j] at h
      have := ih hs' h
      omega
    · rw [j] at h; cases h
    · rw [j] at h
      have h1 := ih hs' h
      have h2 := row_length j1
      have h3 := sum_filter_le m (fun e => decide (e.1 ≠ k)) (fun e => (e.2.map (fun v => v.length + 1)).sum)
      simp only [List.map_cons, List.sum_cons, pieces_length] at h1
      omega

theorem length_le_sum {α : Type} (l : List α) (f : α → Nat) (h : ∀ a ∈ l, 1 ≤ f a) : l.length ≤ (l.map f).sum := by
  induction l with
  | nil => simp
  | cons a l ih =>
    have := h a (by simp)
    have := ih (fun b hb => h b (by simp [hb]))
    simp only [List.length_cons, List.map_cons, List.sum_cons]
    omega

theorem sum_flatMap_values (m : List (Int × List Bytes)) :
    ((m.flatMap (·.2)).map (fun v => v.length + 1)).sum = (m.map (fun e => (e.2.map (fun v => v.length + 1)).sum)).sum := by
  induction m with
  | nil => rfl
  | cons e m ih => simp [List.flatMap_cons, ih]

theorem valueLoop_congr {m m' : List (Int × Bytes)} (h : ∀ k, mapGet m k = mapGet m' k) (s : Str) (i : Nat) : valueLoop m s i = valueLoop m' s i := by
  induction i with
  | zero => rfl
  | succ i ih => simp only [valueLoop, h, ih]

theorem valueForNumber_congr {m m' : List (Int × Bytes)} (h : ∀ k, mapGet m k = mapGet m' k) (L : Nat) (s : Str) :
    valueForNumber (some m) L s = valueForNumber (some m') L s := valueLoop_congr h s _

/-- A map with a negative key cannot be written: the six bytes for the first difference are not enough. -/
theorem renderWith_negative {ν : Type} (values : List Bytes) (wr : ν → Bytes) (m : List (Int × ν)) {e : Int × ν} (he : e ∈ m) (h0 : e.1 < 0)
    (hr : ∀ e ∈ m, -2 ^ 63 ≤ e.1) : renderWith values wr m = .error .index := by
  unfold renderWith
  have hperm := List.mergeSort_perm (m.map (·.1)) (fun a b => decide (a ≤ b))
  have hsort := List.pairwise_mergeSort (le := fun (a b : Int) => decide (a ≤ b)) (by simp only [decide_eq_true_eq]; omega)
    (by simp only [Bool.or_eq_true, decide_eq_true_eq]; omega) (m.map (·.1))
  cases hk : (m.map (·.1)).mergeSort (fun a b => decide (a ≤ b)) with
  | nil =>
    rw [hk] at hperm
    have := hperm.mem_iff.2 (List.mem_map.2 ⟨e, he, rfl⟩)
    cases this
  | cons k ks =>
    rw [hk] at hperm hsort
    have hmem : k ∈ m.map (·.1) := hperm.mem_iff.1 (by simp)
    obtain ⟨e', he', hke⟩ := List.mem_map.1 hmem
    have h1 := hr e' he'
    have h2 : k ≤ e.1 := by
      have := hperm.mem_iff.2 (List.mem_map.2 ⟨e, he, rfl⟩)
      rcases List.mem_cons.1 this with h | h
      · omega
      · have := (List.pairwise_cons.1 hsort).1 _ h
        simpa using this
    have h3 : 2 ^ 42 ≤ toUint64 (k - 0) := by
      unfold toUint64
      omega
    simp only [writeEntries, putUvarint6_panic h3, bind, Except.bind]

end Verif
