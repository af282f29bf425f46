import Verif.Model.Format
import Verif.Regex.Uni
import Verif.Spec.Formats
/-!
# Formatting templates that use every group once, in order
-/
namespace Verif
open Spec

theorem isNameChar_follow : ∀ v ∈ [36, 32, 45, 46, 41], isNameChar v = false := by decide +kernel

theorem isNameChar_digit {d : Nat} (h : isDig d = true) : isNameChar d = true := by
  have key : ∀ i, i < 10 → isNameChar (48 + i) = true := by decide +kernel
  simp only [isDig, Bool.and_eq_true, decide_eq_true_eq] at h
  have := key (d - 48) (by omega)
  rwa [show 48 + (d - 48) = d by omega] at this

theorem isDig_36 : isDig 36 = false := by decide

/-- The digits of the expansion of a template in order are those of the groups. -/
theorem expandLoop_inOrder (x : Match) (s : Str) (hs : ∀ u ∈ s, isDig u = true) (n f : Nat) (t : Str) (k : Nat) (ht : t.length < f)
    (h : inOrder n t k = true) :
    (expandLoop x s f t).filter isDig = (List.range' k (n + 1 - k)).flatMap (x.group s) := by
  induction f generalizing t k with
  | zero => omega
  | succ f ih =>
    cases t with
    | nil =>
      simp only [inOrder, decide_eq_true_eq] at h
      subst h; simp [expandLoop]
    | cons u t =>
      cases t with
      | nil =>
        simp only [inOrder, Bool.and_eq_true, decide_eq_true_eq, Bool.not_eq_true'] at h
        obtain ⟨⟨h1, h2⟩, h3⟩ := h
        subst h3
        have hstep : expandLoop x s (f + 1) [u] = u :: expandLoop x s f [] := by
          rw [expandLoop]
          · intro t' h _; exact h1 h
          · intro t' h _; exact h1 h
          · intro h; exact h1 h
        rw [hstep, List.filter_cons_of_neg (by simp [h2])]
        cases f <;> simp [expandLoop]
      | cons d t =>
        simp only [inOrder] at h
        by_cases hu : u = 36
        · rw [if_pos hu] at h
          simp only [Bool.and_eq_true, decide_eq_true_eq] at h
          obtain ⟨⟨⟨⟨⟨h1, h2⟩, h3⟩, h4⟩, h5⟩, h6⟩ := h
          subst hu
          have hd : isDig d = true := by simp [isDig]; omega
          have hname : (d :: t).takeWhile isNameChar = [d] := by
            rw [List.takeWhile_cons_of_pos (isNameChar_digit hd)]
            cases t with
            | nil => rfl
            | cons v t =>
              simp only [decide_eq_true_eq] at h5
              rw [List.takeWhile_cons_of_neg (by rw [isNameChar_follow v h5]; simp)]
          have hstep : expandLoop x s (f + 1) (36 :: d :: t) = templateVar x s [d] ++ expandLoop x s f t := by
            have e1 : d ≠ 36 := by omega
            have e2 : d ≠ 123 := by omega
            rw [expandLoop]
            · simp only [hname]; simp
            · intro t' h; cases h; exact e1 rfl
            · intro t' h; cases h; exact e2 rfl
          have hvar : templateVar x s [d] = x.group s k := by
            unfold templateVar
            rw [if_pos (by simp [hd])]
            congr 1
            simp [digVal]; omega
          have hg : (x.group s k).filter isDig = x.group s k := by
            rw [List.filter_eq_self]
            intro v hv
            unfold Match.group at hv
            split at hv
            · exact hs v (List.mem_of_mem_drop (List.mem_of_mem_take hv))
            · cases hv
          rw [hstep, List.filter_append, hvar, hg, ih t (k + 1) (by simp at ht; omega) h6]
          rw [show n + 1 - k = (n + 1 - (k + 1)) + 1 by omega, List.range'_succ, List.flatMap_cons]
        · rw [if_neg hu] at h
          simp only [Bool.and_eq_true, Bool.not_eq_true'] at h
          have hstep : expandLoop x s (f + 1) (u :: d :: t) = u :: expandLoop x s f (d :: t) := by
            rw [expandLoop]
            · intro t' h _; exact hu h
            · intro t' h _; exact hu h
            · intro h; exact hu h
          rw [hstep, List.filter_cons_of_neg (by simp [h.1]), ih (d :: t) k (by simp at ht ⊢; omega) h.2]

/-- Looking up group `i` in captures made by a sequence of groups 1 to n. -/
theorem span_chain (spans : List (Nat × Nat)) (x : Match) (hc : x.caps = ((List.range' 1 spans.length).zip spans).reverse)
    (i : Nat) (hi : i < spans.length) : x.span (i + 1) = some spans[i] := by
  unfold Match.span
  rw [if_neg (by omega), hc]
  have : ((List.range' 1 spans.length).zip spans).reverse.find? (fun y => y.1 == i + 1) = some (i + 1, spans[i]) := by
    have hmem : (i + 1, spans[i]) ∈ ((List.range' 1 spans.length).zip spans).reverse := by
      rw [List.mem_reverse, List.mem_iff_getElem]
      refine ⟨i, by simp [hi], ?_⟩
      simp [Nat.add_comm]
    have hsome : (((List.range' 1 spans.length).zip spans).reverse.find? (fun y => y.1 == i + 1)).isSome := by
      rw [List.find?_isSome]
      exact ⟨_, hmem, by simp⟩
    obtain ⟨y, hy⟩ := Option.isSome_iff_exists.1 hsome
    have h1 := List.find?_some hy
    have h2 := List.mem_of_find?_eq_some hy
    rw [List.mem_reverse, List.mem_iff_getElem] at h2
    obtain ⟨j, hj, rfl⟩ := h2
    simp at h1
    have : j = i := by omega
    subst this
    rw [hy]; simp [Nat.add_comm]
  rw [this]; rfl

/-- The groups of such a match cover the spans. -/
theorem group_chain (s : Str) (spans : List (Nat × Nat)) (x : Match) (hc : x.caps = ((List.range' 1 spans.length).zip spans).reverse) :
    (List.range' 1 spans.length).flatMap (x.group s) = spans.flatMap (fun p => slice s p.1 p.2) := by
  have key : ∀ i, (h : i < spans.length) → x.group s (i + 1) = slice s (spans[i]).1 (spans[i]).2 := by
    intro i hi
    unfold Match.group
    rw [span_chain spans x hc i hi]
  have h2 : (List.range' 1 spans.length).map (x.group s) = spans.map (fun p => slice s p.1 p.2) := by
    apply List.ext_getElem
    · simp
    · intro i h1 h2
      simp at h1
      simp only [List.getElem_map, List.getElem_range']
      have := key i h1
      simpa [Nat.add_comm] using this
  rw [List.flatMap_def, List.flatMap_def, h2]

/-- A rule in order, applied to a string of digits that it accepts, expands its template once. -/
theorem replaceAll_expand (fm : NumberFormat) (h : formatInOrder fm = true) (s : Str) (hs : ∀ u ∈ s, isDig u = true)
    (ha : fm.pattern.re.Acc 0 s []) : ∃ x spans ns, fm.pattern.re.find s = some x ∧ fm.pattern.re.tops = some ns ∧
      ns = List.range' 1 ns.length ∧ inOrder ns.length fm.format 1 = true ∧ spans.length = ns.length ∧
      x.caps = (ns.zip spans).reverse ∧ Chain 0 spans s.length ∧ fm.pattern.re.replaceAll s fm.format = expand x s fm.format := by
  simp only [formatInOrder, Bool.and_eq_true, decide_eq_true_eq] at h
  obtain ⟨⟨⟨h1, h2⟩, h3⟩, h4⟩ := h
  obtain ⟨M, hM⟩ := Option.isSome_iff_exists.1 h3
  cases hT : fm.pattern.re.tops with
  | none => simp [hT] at h4
  | some ns =>
    simp only [hT, Bool.and_eq_true, decide_eq_true_eq] at h4
    obtain ⟨h5, h6⟩ := h4
    obtain ⟨x, spans, f1, f2, f3, f4, f5, f6⟩ := uni_match _ h1 ns hT s hs ha M hM
    have hlen : 0 < s.length := by have := minLen_acc _ _ _ _ ha; omega
    have hnone : fm.pattern.re.findFrom s.length [] = none := by
      cases hf : fm.pattern.re.findFrom s.length [] with
      | none => rfl
      | some y =>
        obtain ⟨a, w, e, e1, -, -, hacc, -⟩ := findFrom_sound hf
        have := minLen_acc _ _ _ _ hacc
        have := congrArg List.length e1
        simp at this; omega
    have hout : fm.pattern.re.replaceAll s fm.format = expand x s fm.format := by
      unfold Re.replaceAll
      rw [show s.length + 2 = (s.length + 1) + 1 from rfl, replaceLoop]
      rw [if_neg (by omega)]
      have f1' := f1
      unfold Re.find at f1'
      simp only [List.drop_zero, f1', f2, f3]
      rw [if_pos (.inl hlen)]
      rw [if_neg (by omega : ¬ (0 + 1 > s.length))]
      rw [replaceLoop, if_neg (by omega)]
      simp only [List.drop_length, hnone]
      simp [slice]
    exact ⟨x, spans, ns, f1, rfl, h5, h6, f4, f5, f6, hout⟩

/-- Applying a rule in order to a string of digits that it accepts keeps exactly the digits. -/
theorem replaceAll_inOrder (fm : NumberFormat) (h : formatInOrder fm = true) (s : Str) (hs : ∀ u ∈ s, isDig u = true)
    (ha : fm.pattern.re.Acc 0 s []) : (fm.pattern.re.replaceAll s fm.format).filter isDig = s := by
  obtain ⟨x, spans, ns, -, -, h5, h6, f4, f5, f6, hout⟩ := replaceAll_expand fm h s hs ha
  rw [hout, expand, expandLoop_inOrder x s hs ns.length _ _ 1 (by omega) h6, Nat.add_sub_cancel]
  rw [← f4, group_chain s spans x (by rw [f5]; rw [h5]; simp [f4]), f6.slices]
  simp [slice]

theorem chooseFormat_acc (fs : List NumberFormat) (nsn : Str) (p : NumberFormat) (h : chooseFormat fs nsn = some p) :
    p ∈ fs ∧ p.pattern.re.Acc 0 nsn [] := by
  induction fs with
  | nil => cases h
  | cons f fs ih =>
    unfold chooseFormat at h
    split at h
    · split at h
      · rename_i hc; cases h; exact ⟨by simp, (full_isMatch_iff _ _).1 hc.1⟩
      · have := ih h; exact ⟨by simp [this.1], this.2⟩
    · split at h
      · rename_i hc; cases h; exact ⟨by simp, (full_isMatch_iff _ _).1 hc.2⟩
      · have := ih h; exact ⟨by simp [this.1], this.2⟩

theorem formatNsn_digits (m : Metadata) (hm : intlFormatsOk m = true) (s : Str) (hs : ∀ u ∈ s, isDig u = true) :
    (formatNsn s (some m) .international []).filter isDig = s := by
  simp only [intlFormatsOk, Bool.and_eq_true] at hm
  unfold formatNsn
  simp only [reduceCtorEq, or_false]
  have hsome : (match chooseFormat (intlRules m) s with
      | none => s
      | some p => formatNsnUsingPattern s p .international []).filter isDig = s := by
    cases hc : chooseFormat (intlRules m) s with
    | none => simpa [List.filter_eq_self] using hs
    | some p =>
      obtain ⟨h1, h2⟩ := chooseFormat_acc _ _ _ hc
      simp only [formatNsnUsingPattern, reduceCtorEq, false_and, if_false]
      exact replaceAll_inOrder p (List.all_eq_true.1 hm.1 p h1) s hs h2
  exact hsome

end Verif
