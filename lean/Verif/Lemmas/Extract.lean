import Verif.Model.Normalize
import Verif.Regex.Acc
import Verif.Spec.Extract
import Verif.Lemmas.Str
/-!
# `extractPossibleNumber` is the specification `Spec.candidate`
-/
namespace Verif
open Spec

/-- Where the leftmost match of a pattern starts, in terms of a predicate on the remaining text. -/
theorem findFrom_before {r : Re} {P : Str → Bool} (hP : ∀ p s, s ≠ [] → (P s = true ↔ ∃ w e, s = w ++ e ∧ r.Acc p w e))
    (hE : ∀ p, ¬ r.Acc p [] []) (p : Nat) (s : Str) :
    match r.findFrom p s with
    | some x => p ≤ x.start ∧ before P s = s.take (x.start - p) ∧ x.start - p < s.length ∧ P (s.drop (x.start - p)) = true
    | none => before P s = s := by
  induction s generalizing p with
  | nil =>
    cases h : r.findFrom p [] with
    | none => rfl
    | some x =>
      obtain ⟨a, w, e, h1, h2, h3, h4, _⟩ := findFrom_sound h
      have : w = [] ∧ e = [] := by simp at h1; exact h1.2
      rw [this.1, this.2] at h4
      exact absurd h4 (hE _)
  | cons u t ih =>
    have hu := hP p (u :: t) (by simp)
    simp only [Re.findFrom, before]
    cases hm : r.matchAt p (u :: t) with
    | some x =>
      obtain ⟨h1, w, e, h2, h3, h4⟩ := matchAt_sound hm
      have : P (u :: t) = true := hu.2 ⟨w, e, h2, h4⟩
      simp [this, h1]
    | none =>
      have : ¬ P (u :: t) = true := fun h => by
        obtain ⟨w, e, h2, h4⟩ := hu.1 h
        exact matchAt_none hm w e h2 h4
      have ih := ih (p + 1)
      simp only [this, Bool.false_eq_true, if_false]
      cases hf : r.findFrom (p + 1) t with
      | none => rw [hf] at ih; simp only at ih ⊢; rw [ih]
      | some x =>
        rw [hf] at ih
        simp only at ih ⊢
        have e : x.start - p = (x.start - (p + 1)) + 1 := by omega
        refine ⟨by omega, ?_, ?_, ?_⟩
        · rw [ih.2.1, e]; rfl
        · rw [e]; simp; omega
        · rw [e]; simpa using ih.2.2.2

theorem before_eq_match {r : Re} {P : Str → Bool} (hP : ∀ p s, s ≠ [] → (P s = true ↔ ∃ w e, s = w ++ e ∧ r.Acc p w e))
    (hE : ∀ p, ¬ r.Acc p [] []) (s : Str) :
    (match r.find s with | some x => s.take x.start | none => s) = before P s := by
  have h := findFrom_before hP hE 0 s
  unfold Re.find
  cases hf : r.findFrom 0 s with
  | none => rw [hf] at h; exact h.symm
  | some x => rw [hf] at h; simpa using h.2.1.symm

theorem inRanges_cons_self (k : Nat) (l : List (Nat × Nat)) (c : Nat) : inRanges ((k, k) :: l) c = (decide (c = k) || inRanges l c) := by
  rw [Bool.eq_iff_iff]
  simp only [inRanges, Bool.or_eq_true, Bool.and_eq_true, Nat.ble_eq, decide_eq_true_eq]
  have : (k ≤ c ∧ c ≤ k) ↔ c = k := by omega
  rw [this]

theorem startCls_mem (u : Nat) : (⟨false, [(43, 43), (65291, 65291)], [.nd]⟩ : Cls).mem u = isStart u := by
  have inil : ∀ c, inRanges [] c = false := fun _ => rfl
  simp [Cls.mem, Cls.has, inRanges_cons_self, inil, isStart, isPlus, UProp.mem]

theorem endCls_mem (u : Nat) : (⟨true, [(35, 35)], [.n, .l]⟩ : Cls).mem u = !isEnd u := by
  have inil : ∀ c, inRanges [] c = false := fun _ => rfl
  simp [Cls.mem, Cls.has, inRanges_cons_self, inil, isEnd, UProp.mem, Bool.or_assoc]

theorem isStart_acc (p : Nat) (s : Str) (h : s ≠ []) :
    (fun t : Str => match t with | [] => false | u :: _ => isStart u) s = true ↔
      ∃ w e, s = w ++ e ∧ validStartCharPattern.Acc p w e := by
  cases s with
  | nil => exact absurd rfl h
  | cons u t =>
    show isStart u = true ↔ ∃ w e, u :: t = w ++ e ∧ ∃ v, w = [v] ∧ _
    constructor
    · intro hs; exact ⟨[u], t, rfl, u, rfl, by rw [startCls_mem]; exact hs⟩
    · rintro ⟨w, e, h1, v, rfl, h2⟩
      simp at h1
      rw [h1.1, ← startCls_mem]; exact h2

theorem before_isStart (s : Str) :
    s = before (fun t : Str => match t with | [] => false | u :: _ => isStart u) s ++ s.dropWhile (fun u => !isStart u) := by
  induction s with
  | nil => rfl
  | cons u t ih =>
    by_cases hu : isStart u = true
    · simp [before, hu]
    · simp only [before, hu, Bool.false_eq_true, if_false, Bool.not_false, List.dropWhile_cons, if_true, List.cons_append]
      rw [← ih]

theorem unwanted_acc (p : Nat) (s : Str) (h : s ≠ []) :
    s.all (fun u => !isEnd u) = true ↔ ∃ w e, s = w ++ e ∧ unwantedEndCharPattern.Acc p w e := by
  constructor
  · intro ha
    refine ⟨s, [], by simp, s, [], by simp, ?_, rfl, rfl⟩
    rw [List.all_eq_true] at ha
    exact acc_plus_cls.2 ⟨h, fun u hu => by rw [endCls_mem]; exact ha u hu⟩
  · rintro ⟨w, e, rfl, w1, w2, rfl, h1, rfl, rfl⟩
    rw [List.all_eq_true]
    intro u hu
    have := (acc_plus_cls.1 h1).2 u (by simpa using hu)
    rwa [endCls_mem] at this

theorem rune_ascii {u k : Nat} (h : rune u = k) (hk : k < 128) : u = k := by
  unfold rune at h
  split at h
  · exact h
  · subst h; exact absurd hk (by decide)

theorem secondCls_mem (u : Nat) : (⟨false, [(92, 92), (47, 47)], []⟩ : Cls).mem u = true ↔ u = 47 ∨ u = 92 := by
  simp only [Cls.mem, Cls.has, inRanges]
  constructor
  · intro h
    have h : rune u = 92 ∨ rune u = 47 := by simp at h; omega
    rcases h with h | h
    · exact .inr (rune_ascii h (by decide))
    · exact .inl (rune_ascii h (by decide))
  · rintro (rfl | rfl) <;> rfl

theorem litCls_mem (k : Nat) (hk : k < 128) (u : Nat) : (⟨false, [(k, k)], []⟩ : Cls).mem u = true ↔ u = k := by
  simp only [Cls.mem, Cls.has, inRanges]
  constructor
  · intro h
    exact rune_ascii (k := k) (by simp at h; omega) hk
  · rintro rfl
    have : rune u = u := by unfold rune; rw [if_pos (by simp [badBase]; omega)]
    simp [this]

theorem second_acc (p : Nat) (s : Str) (h : s ≠ []) :
    secondNumber s = true ↔ ∃ w e, s = w ++ e ∧ secondNumberStartPattern.Acc p w e := by
  cases s with
  | nil => exact absurd rfl h
  | cons u t =>
    have hhead : ∀ (l : Str), l.head? = some 120 → ∃ m, l = 120 :: m := by
      intro l hl; cases l with
      | nil => simp at hl
      | cons a m => simp at hl; exact ⟨m, by rw [hl]⟩
    constructor
    · intro hs
      simp only [secondNumber, Bool.and_eq_true, Bool.or_eq_true, decide_eq_true_eq, beq_iff_eq] at hs
      obtain ⟨m, hm⟩ := hhead _ hs.2
      have ht : t = t.takeWhile (fun v => v == ' '.toNat) ++ 120 :: m := by rw [← hm]; exact (List.takeWhile_append_dropWhile).symm
      refine ⟨u :: (t.takeWhile (fun v => v == ' '.toNat) ++ [120]), m, by rw [List.cons_append, List.append_assoc]; exact congrArg _ ht, ?_⟩
      refine ⟨[u], _, rfl, ⟨u, rfl, (secondCls_mem u).2 hs.1⟩, _, [120], rfl, acc_star_cls.2 ?_, 120, rfl, by decide⟩
      intro v hv
      have : v = 32 := by
        have := List.all_takeWhile (p := fun v => v == ' '.toNat) (l := t)
        rw [List.all_eq_true] at this
        simpa using this v hv
      rw [this]; decide
    · rintro ⟨w, e, h0, w1, w2, rfl, ⟨v, rfl, hv⟩, w3, w4, rfl, h3, x, rfl, hx⟩
      have h3 := acc_star_cls.1 h3
      simp only [List.cons_append, List.nil_append, List.append_assoc, List.cons.injEq] at h0
      have hx : x = 120 := (litCls_mem 120 (by decide) x).1 hx
      have h3 : ∀ v ∈ w3, v = 32 := fun v hv => (litCls_mem 32 (by decide) v).1 (h3 v hv)
      have hv := (secondCls_mem v).1 hv
      rw [h0.1, h0.2, hx]
      simp only [secondNumber, Bool.and_eq_true, Bool.or_eq_true, decide_eq_true_eq, beq_iff_eq]
      refine ⟨hv, ?_⟩
      rw [List.dropWhile_append_of_pos (fun a ha => by simp [h3 a ha])]
      rfl

/-- The model's extraction meets the specification. -/
theorem extractPossibleNumber_eq (s : Str) : extractPossibleNumber s = candidate s := by
  have hE1 : ∀ p, ¬ validStartCharPattern.Acc p [] [] := fun p h => by obtain ⟨u, h, _⟩ := h; cases h
  have hE2 : ∀ p, ¬ unwantedEndCharPattern.Acc p [] [] := by
    rintro p ⟨w1, w2, h0, h1, rfl, h3⟩
    have : w1 = [] := by simpa using h0.symm
    exact (acc_plus_cls.1 h1).1 this
  have hE3 : ∀ p, ¬ secondNumberStartPattern.Acc p [] [] := by
    rintro p ⟨w1, w2, h0, ⟨v, rfl, hv⟩, _⟩
    simp at h0
  have hs := findFrom_before isStart_acc hE1 0 s
  have hb := before_isStart s
  unfold extractPossibleNumber candidate Re.find
  cases hf : validStartCharPattern.findFrom 0 s with
  | none =>
    rw [hf] at hs
    simp only at hs
    have : s.dropWhile (fun u => !isStart u) = [] := by
      have := congrArg List.length hb
      rw [hs] at this
      simp at this
      simpa using this
    simp [this, before]
  | some x =>
    rw [hf] at hs
    simp only [Nat.sub_zero] at hs
    have hd : s.drop x.start = s.dropWhile (fun u => !isStart u) := by
      rw [hs.2.1] at hb
      have := List.take_append_drop x.start s
      exact List.append_cancel_left (this.trans hb)
    simp only
    rw [← before_eq_match second_acc hE3, ← before_eq_match unwanted_acc hE2, ← hd]
    rfl

theorem before_none {P : Str → Bool} {s : Str} (h : ∀ a u b, s = a ++ u :: b → P (u :: b) = false) : before P s = s := by
  induction s with
  | nil => rfl
  | cons u t ih =>
    have h0 := h [] u t rfl
    simp only [before, h0, Bool.false_eq_true, if_false]
    rw [ih fun a v b hs => h (u :: a) v b (by rw [hs]; rfl)]

/-- A string of ASCII digits is its own candidate. -/
theorem candidate_digits {s : Str} (h : ∀ u ∈ s, isDig u = true) : candidate s = s := by
  have hd : ∀ u, isDig u = true → 48 ≤ u ∧ u ≤ 57 := fun u hu => by simp [isDig] at hu; exact hu
  have hr : ∀ u, isDig u = true → rune u = u := fun u hu => by
    have := hd u hu; unfold rune; rw [if_pos (by simp [badBase]; omega)]
  have hst : ∀ u, isDig u = true → isStart u = true := fun u hu => by
    have := hd u hu
    rw [isStart, hr u hu, Bool.or_eq_true]
    right
    simp only [ndTable, inRanges, Bool.or_eq_true, Bool.and_eq_true, Nat.ble_eq]
    exact .inl (by omega)
  have hen : ∀ u, isDig u = true → isEnd u = true := fun u hu => by
    have := hd u hu
    rw [isEnd, hr u hu, Bool.or_eq_true, Bool.or_eq_true]
    left; right
    simp only [nTable, inRanges, Bool.or_eq_true, Bool.and_eq_true, Nat.ble_eq]
    exact .inl (by omega)
  have h1 : s.dropWhile (fun u => !isStart u) = s := by
    cases s with
    | nil => rfl
    | cons u t => simp [hst u (h u (by simp))]
  have h2 : before (fun t => t.all (fun u => !isEnd u)) s = s :=
    before_none fun a u b hs => by
      have := hen u (h u (by rw [hs]; simp))
      simp [this]
  have h3 : before secondNumber s = s :=
    before_none fun a u b hs => by
      have := hd u (h u (by rw [hs]; simp))
      simp only [secondNumber, Bool.and_eq_false_iff]
      left
      rw [Bool.or_eq_false_iff]
      simp; omega
  rw [candidate, h1, h2, h3]

end Verif
