import Verif.Lemmas.FormatDigits
import Verif.Lemmas.Template
import Verif.Lemmas.Written
/-!
# The end and the length of formatted numbers
-/
namespace Verif.Spec

/-- A formatting rule that ends with a group, whose groups are not empty, and that is not too long. -/
def formatEnds (f : NumberFormat) : Bool :=
  (match f.format.getLast? with | some u => isDig u | none => false) && Nat.ble f.format.length 100 &&
    (match f.pattern.re.tops with
     | some ns => ns.all fun k => (f.pattern.re.groupBodies k).all fun r => Nat.blt 0 r.minLen
     | none => false)

/-- The same for the formats other than NATIONAL of a metadata entry, which also uses only the known extension prefixes. -/
def intlEndsOk (m : Metadata) : Bool :=
  (intlRules m).all formatEnds &&
    decide (m.preferredExtnPrefix ∈ [[], (str!" x"), (str!" Anexo "), (str!" int "), (str!"#"), (str!" int. ")])

end Verif.Spec

namespace Verif
open Spec

theorem mem_templateVar_dig {x : Match} {s name : Str} (hs : ∀ u ∈ s, isDig u = true) :
    (templateVar x s name).filter (fun u => !isDig u) = [] := by
  rw [List.filter_eq_nil_iff]
  intro u hu
  simp [hs u (mem_templateVar hu)]

theorem takeWhile_name_length (t : Str) : (t.takeWhile isNameChar).length ≤ t.length := by
  induction t with
  | nil => simp
  | cons u t ih => rw [List.takeWhile_cons]; split <;> simp; omega

/-- An expanded template has no more characters that are not digits than the template. -/
theorem expandLoop_len (x : Match) (s : Str) (hs : ∀ u ∈ s, isDig u = true) (f : Nat) (t : Str) :
    ((expandLoop x s f t).filter fun u => !isDig u).length ≤ t.length := by
  have hv : ∀ name, (templateVar x s name).filter (fun u => !isDig u) = [] := fun _ => mem_templateVar_dig hs
  fun_induction expandLoop x s f t with
  | case1 | case2 => simp
  | case3 f t ih => simp only [List.filter_cons, List.length_cons]; split <;> simp <;> omega
  | case4 f t name t' h1 h2 ih => simp only [List.filter_cons, List.length_cons] at ih ⊢; split <;> simp <;> omega
  | case5 f t name t' h1 h2 ih =>
    have := congrArg List.length h1
    simp at this
    simp only [List.filter_append, hv, List.nil_append, List.length_cons]; omega
  | case6 f t name h1 ih => simp only [List.filter_cons, List.length_cons] at ih ⊢; split <;> simp <;> omega
  | case7 f t _ _ _ _ ih => simp only [List.filter_cons, List.length_cons]; split <;> simp <;> omega
  | case8 f t _ _ _ _ ih =>
    simp only [List.filter_append, hv, List.nil_append, List.length_cons]
    simp at ih; omega
  | case9 f u t _ _ _ ih => simp only [List.filter_cons, List.length_cons]; split <;> simp <;> omega

/-- A template in order that ends with a digit ends with its last group. -/
theorem expandLoop_last (x : Match) (s : Str) (n f : Nat) (t : Str) (k : Nat) (ht : t.length < f) (h : inOrder n t k = true)
    (hl : ∃ a v, t = a ++ [v] ∧ isDig v = true) : 1 ≤ n ∧ ∃ o, expandLoop x s f t = o ++ x.group s n := by
  induction f generalizing t k with
  | zero => omega
  | succ f ih =>
    cases t with
    | nil => obtain ⟨a, v, h1, -⟩ := hl; simp at h1
    | cons u t =>
      cases t with
      | nil =>
        simp only [inOrder, Bool.and_eq_true, decide_eq_true_eq, Bool.not_eq_true'] at h
        obtain ⟨a, v, h1, h2⟩ := hl
        cases a with
        | nil => simp at h1; subst h1; rw [h.1.2] at h2; cases h2
        | cons a b => simp at h1
      | cons d t =>
        simp only [inOrder] at h
        by_cases hu : u = 36
        · rw [if_pos hu] at h
          simp only [Bool.and_eq_true, decide_eq_true_eq] at h
          obtain ⟨⟨⟨⟨⟨h1, h2⟩, h3⟩, h4⟩, h5⟩, h6⟩ := h
          subst hu
          have hd : isDig d = true := by simp [isDig]; omega
          have hname : (d :: t).takeWhile isNameChar = [d] := by
            rw [List.takeWhile_cons_of_pos (isNameChar_digit hd)]
            cases t with
            | nil => rfl
            | cons v t =>
              simp only [decide_eq_true_eq] at h5
              rw [List.takeWhile_cons_of_neg (by rw [isNameChar_follow v h5]; simp)]
          have hstep : expandLoop x s (f + 1) (36 :: d :: t) = templateVar x s [d] ++ expandLoop x s f t := by
            have e1 : d ≠ 36 := by omega
            have e2 : d ≠ 123 := by omega
            rw [expandLoop]
            · simp only [hname]; simp
            · intro t' h; cases h; exact e1 rfl
            · intro t' h; cases h; exact e2 rfl
          have hvar : templateVar x s [d] = x.group s k := by
            unfold templateVar
            rw [if_pos (by simp [hd])]
            congr 1
            simp [digVal]; omega
          rw [hstep]
          cases t with
          | nil =>
            simp only [inOrder, decide_eq_true_eq] at h6
            have hk : n = k := by omega
            refine ⟨by omega, [], ?_⟩
            rw [hvar, hk]
            cases f <;> simp [expandLoop]
          | cons v t =>
            obtain ⟨a, w, h7, h8⟩ := hl
            have : ∃ b, v :: t = b ++ [w] := by
              match a, h7 with
              | [], h7 => simp at h7
              | [_], h7 => simp at h7
              | _ :: _ :: b, h7 => exact ⟨b, (List.cons.inj (List.cons.inj h7).2).2⟩
            obtain ⟨b, hb⟩ := this
            obtain ⟨i1, o, i2⟩ := ih (v :: t) (k + 1) (by simp at ht ⊢; omega) h6 ⟨b, w, hb, h8⟩
            exact ⟨i1, templateVar x s [d] ++ o, by rw [i2]; simp⟩
        · rw [if_neg hu] at h
          simp only [Bool.and_eq_true, Bool.not_eq_true'] at h
          have hstep : expandLoop x s (f + 1) (u :: d :: t) = u :: expandLoop x s f (d :: t) := by
            rw [expandLoop]
            · intro t' h _; exact hu h
            · intro t' h _; exact hu h
            · intro h; exact hu h
          obtain ⟨a, w, h7, h8⟩ := hl
          have : ∃ b, d :: t = b ++ [w] := by
            match a, h7 with
            | [], h7 => simp at h7
            | _ :: b, h7 => exact ⟨b, (List.cons.inj h7).2⟩
          obtain ⟨b, hb⟩ := this
          obtain ⟨i1, o, i2⟩ := ih (d :: t) k (by simp at ht ⊢; omega) h.2 ⟨b, w, hb, h8⟩
          exact ⟨i1, u :: o, by rw [hstep, i2]; rfl⟩

/-- The result of a rule ends with a digit, and its length is bounded. -/
theorem replaceAll_ends (fm : NumberFormat) (h : formatInOrder fm = true) (he : formatEnds fm = true) (s : Str)
    (hs : ∀ u ∈ s, isDig u = true) (ha : fm.pattern.re.Acc 0 s []) :
    (∃ a v, fm.pattern.re.replaceAll s fm.format = a ++ [v] ∧ isDig v = true) ∧
      (fm.pattern.re.replaceAll s fm.format).length ≤ s.length + 100 := by
  have hin := replaceAll_inOrder fm h s hs ha
  obtain ⟨x, spans, ns, f1, f2, h5, h6, f4, f5, f6, hout⟩ := replaceAll_expand fm h s hs ha
  simp only [formatEnds, f2, Bool.and_eq_true, Nat.ble_eq, List.all_eq_true, Nat.blt_eq] at he
  obtain ⟨⟨he1, he2⟩, he3⟩ := he
  have hl : ∃ a v, fm.format = a ++ [v] ∧ isDig v = true := by
    cases hg : fm.format.getLast? with
    | none => simp [hg] at he1
    | some v =>
      obtain ⟨a, ha⟩ := List.getLast?_eq_some_iff.1 hg
      exact ⟨a, v, ha, by simpa [hg] using he1⟩
  refine ⟨?_, ?_⟩
  · obtain ⟨hn, o, ho⟩ := expandLoop_last x s ns.length (fm.format.length + 1) fm.format 1 (by omega) h6 hl
    have hspan := span_chain spans x (by rw [f5]; rw [h5]; simp [f4]) (ns.length - 1) (by omega)
    rw [Nat.sub_add_cancel hn] at hspan
    obtain ⟨⟨a0, b0⟩, hspan⟩ : ∃ q, x.span ns.length = some q := ⟨_, hspan⟩
    have hne : x.group s ns.length ≠ [] := by
      obtain ⟨a, w, e, k1, k2, k3, k4, k5⟩ := findFrom_sound f1
      obtain ⟨r', hr', y, w', e', g1, g2, g3, g4, g5⟩ := matchAt_span k5 ns.length _ _ (by omega) hspan
      have hmin := he3 ns.length (by rw [h5]; simp; omega) r' hr'
      have hlen := minLen_acc _ _ _ _ g5
      have ha0 : x.start = a.length := by omega
      unfold Match.group
      rw [hspan]
      simp only [slice]
      intro h0
      have := congrArg List.length h0
      have e1 := congrArg List.length k1
      have e2 := congrArg List.length g1
      simp only [List.length_take, List.length_drop, List.length_append, List.length_nil] at this e1 e2
      omega
    obtain ⟨v, hv⟩ := List.getLast?_isSome.2 hne |> Option.isSome_iff_exists.1
    obtain ⟨b, hb⟩ := List.getLast?_eq_some_iff.1 hv
    refine ⟨o ++ b, v, by rw [hout, expand, ho, hb]; simp, ?_⟩
    have : v ∈ x.group s ns.length := by rw [hb]; simp
    unfold Match.group at this
    rw [hspan] at this
    exact hs v (List.mem_of_mem_drop (List.mem_of_mem_take this))
  · have h1 := expandLoop_len x s hs (fm.format.length + 1) fm.format
    rw [show expandLoop x s (fm.format.length + 1) fm.format = fm.pattern.re.replaceAll s fm.format from hout.symm] at h1
    have h2 := List.length_eq_countP_add_countP isDig (l := fm.pattern.re.replaceAll s fm.format)
    rw [List.countP_eq_length_filter, List.countP_eq_length_filter, hin] at h2
    have h3 : (fm.pattern.re.replaceAll s fm.format).filter (fun a => decide (¬ isDig a = true)) =
      (fm.pattern.re.replaceAll s fm.format).filter (fun u => !isDig u) := List.filter_congr (by intro u _; cases isDig u <;> rfl)
    rw [h3] at h2
    omega

/-- INTERNATIONAL formatting of digits: digits and separators, with a digit at the end, and not long. -/
theorem formatNsn_spaced (m : Metadata) (hm : intlFormatsOk m = true) (hl : intlLiteralsOk m = true) (he : intlEndsOk m = true)
    (s : Str) (hs : ∀ u ∈ s, isDig u = true) (hne : s ≠ []) :
    (∀ u ∈ formatNsn s (some m) .international [], isDig u = true ∨ u ∈ gapL) ∧
      (∃ a v, formatNsn s (some m) .international [] = a ++ [v] ∧ isDig v = true) ∧
      (formatNsn s (some m) .international []).length ≤ s.length + 100 := by
  simp only [intlFormatsOk, Bool.and_eq_true] at hm
  simp only [intlEndsOk, Bool.and_eq_true] at he
  unfold formatNsn
  simp only [reduceCtorEq, or_false]
  suffices k : (∀ u ∈ (match chooseFormat (intlRules m) s with
      | none => s
      | some p => formatNsnUsingPattern s p .international []), isDig u = true ∨ u ∈ gapL) ∧
      (∃ a v, (match chooseFormat (intlRules m) s with
      | none => s
      | some p => formatNsnUsingPattern s p .international []) = a ++ [v] ∧ isDig v = true) ∧
      (match chooseFormat (intlRules m) s with
      | none => s
      | some p => formatNsnUsingPattern s p .international []).length ≤ s.length + 100 from k
  cases hc : chooseFormat (intlRules m) s with
  | none =>
    obtain ⟨v, hv⟩ := List.getLast?_isSome.2 hne |> Option.isSome_iff_exists.1
    obtain ⟨b, hb⟩ := List.getLast?_eq_some_iff.1 hv
    exact ⟨fun u hu => .inl (hs u hu), ⟨b, v, hb, hs v (by rw [hb]; simp)⟩, by simp⟩
  | some p =>
    obtain ⟨h1, h2⟩ := chooseFormat_acc _ _ _ hc
    simp only [formatNsnUsingPattern, reduceCtorEq, false_and, if_false]
    obtain ⟨k1, k2⟩ := replaceAll_ends p (List.all_eq_true.1 hm.1 p h1) (List.all_eq_true.1 he.1 p h1) s hs h2
    refine ⟨fun u hu => ?_, k1, k2⟩
    rcases replaceAll_mem hu with h | h
    · exact .inl (hs u h)
    · have := List.all_eq_true.1 (List.all_eq_true.1 hl p h1) u h
      simp only [decide_eq_true_eq] at this
      exact .inr this

end Verif
