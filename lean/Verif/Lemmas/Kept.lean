import Verif.Spec.Kept
import Verif.Lemmas.Layout
import Verif.Lemmas.Vanity
import Verif.Regex.Greedy
/-!
# What is kept of a text, and rules put to its first digits
-/
namespace Verif
open Spec

theorem kept_small : ∀ c, c < 123 → groupingMap (toUpperKey c) = keptChar c := by decide +kernel

theorem kept_char (c : Nat) : groupingMap (toUpperKey c) = keptChar c := by
  by_cases h : c < 123
  · exact kept_small c h
  · by_cases h1 : c = 0x131
    · subst h1; decide +kernel
    · by_cases h2 : c = 0x17F
      · subst h2; decide +kernel
      · have e1 : upperLetter c = none := by
          unfold upperLetter
          rw [if_neg (by simp; omega), if_neg (by simp; omega), if_neg (by simpa using h1), if_neg (by simpa using h2)]
        have e2 : toUpperKey c = c := by
          unfold toUpperKey; rw [if_neg (by omega), if_neg h1, if_neg h2]
        rw [e2, keptChar, e1, groupingMap]
        have h3 : isDig c = false := by simp [isDig]; omega
        rw [if_neg (by simp [h3]; omega), if_neg (by omega)]
        conv => rhs; rw [if_neg (by simp; omega)]
        rfl

theorem normalize_kept (s : Str) : normalizeHelper groupingMap true s = kept s := by
  unfold normalizeHelper kept
  induction s with
  | nil => rfl
  | cons u s ih =>
    rw [List.flatMap_cons, ih, List.filterMap_cons, kept_char]
    cases keptChar (rune u) <;> rfl

theorem keptChar_lt {c v : Nat} (h : keptChar c = some v) : v < 91 ∧ 32 ≤ v := by
  by_cases hc : c < 123
  · have : ∀ c, c < 123 → ∀ v, keptChar c = some v → v < 91 ∧ 32 ≤ v := by
      intro c hc
      have key : ∀ c, c < 123 → (match keptChar c with | none => true | some v => Nat.blt v 91 && Nat.ble 32 v) = true := by decide +kernel
      intro v hv
      have := key c hc
      simpa [hv] using this
    exact this c hc v h
  · unfold keptChar at h
    rw [if_neg (by simp; omega)] at h
    unfold upperLetter at h
    rw [if_neg (by simp; omega), if_neg (by simp; omega)] at h
    by_cases h1 : c = 'ı'.toNat
    · rw [if_pos h1] at h; cases h; decide
    · rw [if_neg h1] at h
      by_cases h2 : c = 'ſ'.toNat
      · rw [if_pos h2] at h; cases h; decide
      · rw [if_neg h2] at h
        simp only at h
        (repeat' split at h) <;> cases h <;> decide

theorem kept_lt {s : Str} : ∀ u ∈ kept s, u < 91 ∧ 32 ≤ u := by
  intro u hu
  obtain ⟨v, -, hv⟩ := List.mem_filterMap.1 hu
  exact keptChar_lt hv

theorem from_indexOf (word text : Str) : From word text (match indexOf text word with | some i => text.drop i | none => text) := by
  cases h : indexOf text word with
  | none =>
    refine .absent fun b t' ht hp => ?_
    have := indexOf_none h b.length
    rw [ht, List.drop_left] at this
    rw [List.isPrefixOf_iff_prefix.2 hp] at this; cases this
  | some i =>
    obtain ⟨t, ht⟩ := indexOf_prefix h
    have hi : i ≤ text.length := by rcases indexOf_le h with h | h <;> omega
    refine .found (text.take i) _ (List.take_append_drop _ _).symm ⟨t, ht.symm⟩ fun b t' hb hp => ?_
    rw [List.length_take_of_le hi]
    apply Nat.le_of_not_lt
    intro hlt
    have := indexOf_first h hlt
    rw [hb, List.drop_left, List.isPrefixOf_iff_prefix.2 hp] at this; cases this

theorem From.unique {word text t t' : Str} (h : From word text t) (h' : From word text t') : t = t' := by
  cases h with
  | found b t h1 h2 h3 =>
    cases h' with
    | found b' t' h1' h2' h3' =>
      have hl : b.length = b'.length := Nat.le_antisymm (h3 _ _ h1' h2') (h3' _ _ h1 h2)
      rw [h1] at h1'
      exact (List.append_inj h1' hl).2
    | absent h4 => exact absurd h2 (h4 _ _ h1)
  | absent h4 =>
    cases h' with
    | found b' t' h1' h2' h3' => exact absurd h2' (h4 _ _ h1')
    | absent => rfl

/-! ## A rule at the first digits -/

theorem anyDigits_eq : anyDigitsPattern.re = .cat (.grp 1 (.rep (.cls ⟨false, [(48, 57)], []⟩) 1 none true))
    (.grp 2 (.rep (.cls ⟨true, [(10, 10)], []⟩) 0 none true)) := rfl

theorem first_rep_none {c : Cls} {w : Str} (hw : ∀ u ∈ w, c.mem u = true) (mn p : Nat) (e : Str) (cs : List (Nat × Nat × Nat))
    (h1 : mn ≤ w.length) (he : Stops c e) :
    First (Re.rep (.cls c) mn none true).runs ⟨p, w ++ e, cs⟩ ⟨p + w.length, e, cs⟩ := by
  have e1 : w = w.take mn ++ w.drop mn := (List.take_append_drop _ _).symm
  have hl : (w.take mn).length = mn := List.length_take_of_le h1
  have hd : (w.drop mn).length = w.length - mn := List.length_drop
  have h3 := iterL_cls_first (c := c) (w := w.take mn) (fun u hu => hw u (List.mem_of_mem_take hu)) p (w.drop mn ++ e) cs
  rw [hl] at h3
  have h4 := optL_cls_first (c := c) (w := w.drop mn) (fun u hu => hw u (List.mem_of_mem_drop hu)) (w.drop mn ++ e).length (p + mn) e cs
    (by simp) (.inr he)
  rw [hd, show p + mn + (w.length - mn) = p + w.length by omega] at h4
  rw [← List.append_assoc, ← e1] at h3
  exact head?_flatMap h3 h4

theorem first_grp {r : Re} {k : Nat} {s1 s2 : MSt} (h : First r.runs s1 s2) :
    First (Re.grp k r).runs s1 { s2 with caps := (k, s1.pos, s2.pos) :: s2.caps } := by
  unfold First at h ⊢
  simp only [Re.runs, List.head?_map, h, Option.map_some]

/-- The pattern at the first digits of a text: the digits that stand together, and the rest. -/
theorem anyDigits_find {a d e : Str} (ha : ∀ u ∈ a, isDig u = false) (hd0 : d ≠ []) (hd : ∀ u ∈ d, isDig u = true)
    (he : ∀ u, e.head? = some u → isDig u = false) (hl : ∀ u ∈ e, u < 128 ∧ u ≠ 10) :
    anyDigitsPattern.re.findFrom 0 (a ++ (d ++ e)) = some ⟨a.length, a.length + d.length + e.length,
      [(2, a.length + d.length, a.length + d.length + e.length), (1, a.length, a.length + d.length)]⟩ := by
  have hs : ∀ u, isDig u = false → anyDigitsPattern.re.canStart u = false := by
    intro u hu
    rw [anyDigits_eq]
    simp only [Re.canStart, Re.nullable, cls_dig_mem, hu]
    rw [show Nat.beq 1 0 = false from rfl]
    rfl
  rw [findFrom_skip (by decide) (fun u hu => hs u (ha u hu))]
  have hdot : ∀ u ∈ e, (⟨true, [(10, 10)], []⟩ : Cls).mem u = true := by
    intro u hu
    obtain ⟨h1, h2⟩ := hl u hu
    simp [Cls.mem, Cls.has, inRanges, rune_of_lt h1]
    rcases (by omega : u < 10 ∨ 10 < u) with h | h
    · exact .inl (Bool.eq_false_iff.2 fun hb => by have := Nat.le_of_ble_eq_true hb; omega)
    · exact .inr (Bool.eq_false_iff.2 fun hb => by have := Nat.le_of_ble_eq_true hb; omega)
  have hm : anyDigitsPattern.re.matchAt (0 + a.length) (d ++ e) = some ⟨0 + a.length, 0 + a.length + d.length + e.length,
      [(2, 0 + a.length + d.length, 0 + a.length + d.length + e.length), (1, 0 + a.length, 0 + a.length + d.length)]⟩ := by
    rw [anyDigits_eq]
    refine matchAt_first (e := []) (first_cat (first_grp (first_rep_none (fun u hu => by rw [cls_dig_mem]; exact hd u hu) 1 _ e []
      (List.length_pos_iff.2 hd0) ?_)) ?_)
    · intro u hu; rw [cls_dig_mem]; exact he u hu
    · have := first_grp (k := 2) (first_rep_none (c := ⟨true, [(10, 10)], []⟩) (w := e) hdot 0 (0 + a.length + d.length) [] [(1, 0 + a.length, 0 + a.length + d.length)]
        (by simp) (by intro u hu; cases hu))
      simpa using this
  simp only [Nat.zero_add] at hm ⊢
  cases d with
  | nil => exact absurd rfl hd0
  | cons u d => simp only [List.cons_append] at hm ⊢; simp only [Re.findFrom, hm]

/-- A template at the first digits of a text. -/
theorem anyDigits_replace {a d e t : Str} (ha : ∀ u ∈ a, isDig u = false) (hd0 : d ≠ []) (hd : ∀ u ∈ d, isDig u = true)
    (he : ∀ u, e.head? = some u → isDig u = false) (hl : ∀ u ∈ e, u < 128 ∧ u ≠ 10) (ht : templateOk 2 t = true) :
    anyDigitsPattern.re.replaceAll (a ++ (d ++ e)) t = a ++ fill [d, e] t := by
  have hf := anyDigits_find ha hd0 hd he hl
  have hdl := List.length_pos_iff.2 hd0
  generalize hs : a ++ (d ++ e) = s at hf
  have hsl : s.length = a.length + d.length + e.length := by rw [← hs]; simp; omega
  have hnone : anyDigitsPattern.re.findFrom s.length [] = none := by
    cases hf : anyDigitsPattern.re.findFrom s.length [] with
    | none => rfl
    | some y =>
      obtain ⟨a, w, e, e1, -, -, hacc, -⟩ := findFrom_sound hf
      have := minLen_acc _ _ _ _ hacc
      have h1 : anyDigitsPattern.re.minLen = 1 := by decide
      have := congrArg List.length e1
      simp at this; omega
  unfold Re.replaceAll
  rw [show s.length + 2 = (s.length + 1) + 1 from rfl, replaceLoop]
  rw [if_neg (by omega)]
  simp only [List.drop_zero, hf]
  rw [if_pos (.inl (by omega)), if_neg (by omega : ¬ (0 + 1 > a.length + d.length + e.length)), ← hsl]
  rw [replaceLoop, if_neg (by omega)]
  simp only [List.drop_length, hnone, List.append_nil]
  have h1 : slice s 0 a.length = a := by rw [← hs]; simp [slice]
  rw [h1, expand, expandLoop_fill _ s [d, e] 2 ?_ _ _ (by omega) ht]
  intro i hi
  have : i = 0 ∨ i = 1 := by omega
  rcases this with rfl | rfl
  · simp [Match.group, Match.span, slice, ← hs]
  · simp only [Match.group, Match.span, slice]
    simp only [show (1 + 1 = 0) = False by simp, if_false, List.find?, show ((2 : Nat) == 1 + 1) = true from rfl, Option.map]
    rw [hsl, ← hs, ← List.append_assoc]
    rw [show a.length + d.length = (a ++ d).length by simp, List.drop_left]
    simp

theorem fill_append_rule {d e : Str} {rule : Str} (h : templateOk 1 rule = true) :
    fill [d, e] (fill [[36, 49]] rule ++ [36, 50]) = fill [d] rule ++ e := by
  induction hl : rule.length using Nat.strongRecOn generalizing rule with
  | ind l ih =>
    cases rule with
    | nil => simp [fill]
    | cons u t =>
      by_cases hu : u = 36
      · subst hu
        cases t with
        | nil => simp [templateOk] at h
        | cons x t =>
          obtain ⟨h1, h2, h3, h4, h5⟩ := (templateOk_cons rfl).1 h
          have hx : x = 49 := by omega
          subst hx
          have := ih t.length (by rw [← hl]; simp; omega) h5 rfl
          simp only [fill, if_true, Nat.sub_self, List.getD_cons_zero, List.cons_append, List.nil_append, List.append_assoc, this]
      · rw [templateOk_tail hu] at h
        have := ih t.length (by rw [← hl]; simp) h rfl
        rw [fill_nil_tail _ _ _ hu, fill_nil_tail _ _ _ hu, List.cons_append, fill_nil_tail _ _ _ hu, this, List.cons_append]

theorem anyDigits_none {t : Str} (ht : ∀ u ∈ t, isDig u = false) (tpl : Str) : anyDigitsPattern.re.replaceAll t tpl = t := by
  have hf : anyDigitsPattern.re.findFrom 0 t = none := by
    cases hf : anyDigitsPattern.re.findFrom 0 t with
    | none => rfl
    | some y =>
      obtain ⟨a, w, e, e1, -, -, hacc, -⟩ := findFrom_sound hf
      rw [anyDigits_eq] at hacc
      have hmin := minLen_acc _ _ _ _ hacc
      cases w with
      | nil => simp [Re.minLen] at hmin
      | cons u w =>
        have hs := canStart_acc hacc
        have hu := ht u (by rw [e1]; simp)
        simp only [Re.canStart, Re.nullable, cls_dig_mem, hu] at hs
        rw [show Nat.beq 1 0 = false from rfl] at hs
        cases hs
  unfold Re.replaceAll
  rw [replaceLoop]
  simp [hf]

/-- The first digits of a text that stand together. -/
theorem digits_split (t : Str) : (∀ u ∈ t, isDig u = false) ∨ ∃ a d e, t = a ++ (d ++ e) ∧ (∀ u ∈ a, isDig u = false) ∧ d ≠ [] ∧
    (∀ u ∈ d, isDig u = true) ∧ ∀ u, e.head? = some u → isDig u = false := by
  induction t with
  | nil => exact .inl (by simp)
  | cons u t ih =>
    cases hu : isDig u with
    | true =>
      right
      rcases ih with h | ⟨a, d, e, rfl, h1, h2, h3, h4⟩
      · refine ⟨[], [u], t, rfl, by simp, by simp, by simpa using hu, ?_⟩
        intro v hv
        exact h v (List.mem_of_mem_head? (by rw [hv]; rfl))
      · cases a with
        | nil => exact ⟨[], u :: d, e, rfl, by simp, by simp, by simpa [hu] using h3, h4⟩
        | cons v a => exact ⟨[], [u], v :: a ++ (d ++ e), rfl, by simp, by simp, by simpa using hu, by
            intro w hw; cases hw; exact h1 v (by simp)⟩
    | false =>
      rcases ih with h | ⟨a, d, e, rfl, h1, h2, h3, h4⟩
      · exact .inl (by simpa [hu] using h)
      · exact .inr ⟨u :: a, d, e, rfl, by simpa [hu] using h1, h2, h3, h4⟩

/-- A text laid out by a rule with the pattern `(\d+)(.*)`. -/
theorem anyDigits_format {p : NumberFormat} (hp : templateOk 1 p.npRule = true) {t : Str} (ht : ∀ u ∈ t, u < 128 ∧ u ≠ 10) :
    RuleOnDigits p.npRule t (formatNsnUsingPattern t { p with pattern := anyDigitsPattern, format := str!"$1$2" } .national []) := by
  have hrep : templateOk 2 (str!"$1$2") = true := by decide
  by_cases hr : p.npRule = []
  · have : formatNsnUsingPattern t { p with pattern := anyDigitsPattern, format := str!"$1$2" } .national [] =
        anyDigitsPattern.re.replaceAll t (str!"$1$2") := by
      simp [formatNsnUsingPattern, hr]
    rw [this]
    have : anyDigitsPattern.re.replaceAll t (str!"$1$2") = t := by
      rcases digits_split t with h | ⟨a, d, e, rfl, h1, h2, h3, h4⟩
      · exact anyDigits_none h _
      · rw [anyDigits_replace h1 h2 h3 h4 (fun u hu => ht u (by simp [hu])) hrep]
        simp [fill]
    rw [this]
    exact .noRule t hr
  · have : formatNsnUsingPattern t { p with pattern := anyDigitsPattern, format := str!"$1$2" } .national [] =
        anyDigitsPattern.re.replaceAll t (putRule p.npRule (str!"$1$2")) := by
      rw [← replaceFirstToken_eq hrep hp]
      simp [formatNsnUsingPattern, hr]
    rw [this]
    rcases digits_split t with h | ⟨a, d, e, rfl, h1, h2, h3, h4⟩
    · rw [anyDigits_none h]; exact .noDigit t h
    · rw [anyDigits_replace h1 h2 h3 h4 (fun u hu => ht u (by simp [hu])) (templateOk_putRule hrep hp)]
      have : fill [d, e] (putRule p.npRule (str!"$1$2")) = fill [d] p.npRule ++ e := fill_append_rule hp
      rw [this]
      exact .digits a d e hr h1 h2 h3 h4

end Verif
