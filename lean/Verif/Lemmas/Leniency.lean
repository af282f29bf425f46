import Verif.Spec.Leniency
import Verif.Lemmas.MatcherPlus
import Verif.Lemmas.MatcherTotal
import Verif.Lemmas.Layout
import Verif.Props.C01
import Verif.Props.C23
import Verif.Props.C71
/-!
# Lemmas on what the leniency levels ask of a piece of text
-/
namespace Verif
open Spec

/-! ## The letter x -/

theorem isX_iff (u : Nat) : isX u = true ↔ Ex u := by
  simp only [isX, Ex, Bool.or_eq_true, beq_iff_eq]
  exact Iff.rfl

theorem exesAtEnd_cons_not {u : Nat} (h : ¬ Ex u) (a : Str) : exesAtEnd (u :: a) = exesAtEnd a := by
  unfold exesAtEnd
  rw [List.reverse_cons, List.takeWhile_append]
  split
  · rename_i hl
    simp [h, hl]
  · rfl

theorem exesAtEnd_two {u v : Nat} (hu : Ex u) (hv : Ex v) (a : Str) : exesAtEnd (u :: v :: a) % 2 = exesAtEnd a % 2 := by
  unfold exesAtEnd
  rw [List.reverse_cons, List.reverse_cons, List.append_assoc, List.takeWhile_append]
  split
  · rename_i hl
    simp [hu, hv, hl]
  · rfl

theorem digitTranscript_iff (s t : Str) : DigitTranscript s t ↔ normalizeDigitsOnly s = t :=
  ⟨fun h => (Props.C01_unique s t h).symm, fun h => h ▸ Props.C01_transcript s⟩

theorem ex_noDigit {u : Nat} (h : Ex u) (s : Str) : normalizeDigitsOnly (u :: s) = normalizeDigitsOnly s := by
  have : charDigit (rune u) = none := by
    rcases h with rfl | rfl <;> decide +kernel
  simp only [normalizeDigitsOnly, normalizeDigits, List.flatMap_cons, this]
  rfl

theorem exesOk_skip {same : Str → Prop} {ext : Str} {u : Nat} {s : Str} (h : ¬ Ex u) : ExesOk same ext (u :: s) ↔ ExesOk same ext s := by
  constructor
  · intro H a v b hs hv hp
    exact H (u :: a) v b (by rw [hs]; rfl) hv (by rw [exesAtEnd_cons_not h]; exact hp)
  · intro H a v b hs hv hp
    cases a with
    | nil =>
      simp only [List.nil_append, List.cons.injEq] at hs
      rw [hs.1] at h
      exact absurd hv h
    | cons w a =>
      simp only [List.cons_append, List.cons.injEq] at hs
      rw [← hs.1, exesAtEnd_cons_not h] at hp
      exact H a v b hs.2 hv hp

theorem exesOk_pair {same : Str → Prop} {ext : Str} {u v : Nat} {s : Str} (hu : Ex u) (hv : Ex v) :
    ExesOk same ext (u :: v :: s) ↔ same (v :: s) ∧ ExesOk same ext s := by
  constructor
  · intro H
    refine ⟨(H [] u (v :: s) rfl hu rfl (by simp)).1 v s rfl hv, ?_⟩
    intro a w b hs hw hp
    exact H (u :: v :: a) w b (by rw [hs]; rfl) hw (by rw [exesAtEnd_two hu hv]; exact hp)
  · rintro ⟨h1, H⟩ a w b hs hw hp hb
    cases a with
    | nil =>
      simp only [List.nil_append, List.cons.injEq] at hs
      rw [← hs.2]
      exact ⟨fun _ _ _ _ => h1, fun h => absurd hv (h v s rfl)⟩
    | cons x a =>
      simp only [List.cons_append, List.cons.injEq] at hs
      cases a with
      | nil =>
        rw [← hs.1] at hp
        simp [exesAtEnd, hu] at hp
      | cons y a =>
        simp only [List.cons_append, List.cons.injEq] at hs
        rw [← hs.1, ← hs.2.1, exesAtEnd_two hu hv] at hp
        exact H a w b hs.2.2 hw hp hb

theorem exesOk_single {same : Str → Prop} {ext : Str} {u v : Nat} {s : Str} (hu : Ex u) (hv : ¬ Ex v) :
    ExesOk same ext (u :: v :: s) ↔ DigitTranscript (v :: s) ext ∧ ExesOk same ext (v :: s) := by
  rw [exesOk_skip (s := s) hv]
  constructor
  · intro H
    refine ⟨(H [] u (v :: s) rfl hu rfl (by simp)).2 (fun _ _ h => by cases h; exact hv), ?_⟩
    intro a w b hs hw hp
    refine H (u :: v :: a) w b (by rw [hs]; rfl) hw ?_
    have : exesAtEnd (u :: v :: a) = exesAtEnd a := by
      unfold exesAtEnd
      rw [List.reverse_cons, List.reverse_cons, List.append_assoc, List.takeWhile_append]
      split
      · rename_i hl; simp [hv, hl]
      · rfl
    rw [this]; exact hp
  · rintro ⟨h1, H⟩ a w b hs hw hp hb
    cases a with
    | nil =>
      simp only [List.nil_append, List.cons.injEq] at hs
      rw [← hs.2]
      exact ⟨fun _ _ h hx => by cases h; exact absurd hx hv, fun _ => h1⟩
    | cons x a =>
      simp only [List.cons_append, List.cons.injEq] at hs
      cases a with
      | nil =>
        simp only [List.nil_append, List.cons.injEq] at hs
        rw [hs.2.1] at hv
        exact absurd hw hv
      | cons y a =>
        simp only [List.cons_append, List.cons.injEq] at hs
        refine H a w b hs.2.2 hw ?_ hb
        have : exesAtEnd (x :: y :: a) = exesAtEnd a := by
          rw [← hs.2.1]
          unfold exesAtEnd
          rw [List.reverse_cons, List.reverse_cons, List.append_assoc, List.takeWhile_append]
          split
          · rename_i hl; simp [hv, hl]
          · rfl
        rw [← this]; exact hp

theorem onlyValidX_iff (C : Container) (n : PhoneNumber) (s : Str) :
    onlyValidX C n s = .ok true ↔ ExesOk (fun b => numberMatchOne C n b = .ok .nsnMatch) n.ext s := by
  fun_induction onlyValidX C n s with
  | case1 u v t hu hv ih =>
    have hu := (isX_iff u).1 hu
    have hv := (isX_iff v).1 hv
    rw [exesOk_pair hu hv, ← ih]
    cases h : numberMatchOne C n (v :: t) with
    | error e => simp [bind, Except.bind]
    | ok r =>
      simp only [bind, Except.bind, Except.ok.injEq]
      by_cases hr : r = .nsnMatch
      · simp [hr]
      · simp [hr, pure, Except.pure]
  | case2 u v t hu hv hne =>
    have hu := (isX_iff u).1 hu
    have hv : ¬ Ex v := fun h => hv ((isX_iff v).2 h)
    rw [exesOk_single hu hv, digitTranscript_iff, ← ex_noDigit hu]
    simp [hne]
  | case3 u v t hu hv hne ih =>
    have hu := (isX_iff u).1 hu
    have hv : ¬ Ex v := fun h => hv ((isX_iff v).2 h)
    rw [exesOk_single hu hv, digitTranscript_iff, ← ex_noDigit hu, ← ih]
    simp only [Classical.not_not] at hne
    simp [hne]
  | case4 u v t hu ih =>
    have hu : ¬ Ex u := fun h => hu ((isX_iff u).2 h)
    rw [exesOk_skip hu, ← ih]
  | case5 s hs =>
    refine ⟨fun _ => ?_, fun _ => rfl⟩
    intro a u b h1 _ _ hb
    exfalso
    cases b with
    | nil => exact hb rfl
    | cons v b =>
      cases a with
      | nil => exact hs u v b h1
      | cons w a =>
        cases a with
        | nil => exact hs w u (v :: b) h1
        | cons x a => exact hs w x (a ++ u :: v :: b) h1

/-! ## Slashes -/

theorem contains_iff (s p : Str) : contains s p = true ↔ ∃ a b, s = a ++ (p ++ b) := by
  unfold contains
  constructor
  · intro h
    cases hi : indexOf s p with
    | none => rw [hi] at h; cases h
    | some i =>
      obtain ⟨t, ht⟩ := indexOf_prefix hi
      exact ⟨s.take i, t, by rw [← ht, List.take_append_drop]⟩
  · rintro ⟨a, b, rfl⟩
    cases hi : indexOf (a ++ (p ++ b)) p with
    | some i => rfl
    | none =>
      have := indexOf_none hi a.length
      rw [List.drop_left] at this
      have h2 : p.isPrefixOf (p ++ b) = true := List.isPrefixOf_iff_prefix.2 (List.prefix_append _ _)
      rw [h2] at this
      cases this

theorem contains_slash (s : Str) : contains s [47] = true ↔ 47 ∈ s := by
  rw [contains_iff]
  constructor
  · rintro ⟨a, b, rfl⟩; simp
  · intro h
    obtain ⟨a, b, rfl⟩ := List.append_of_mem h
    exact ⟨a, b, rfl⟩

theorem moreThanOneSlash_iff (n : PhoneNumber) (s : Str) : moreThanOneSlash n s = false ↔ SlashesOk n s := by
  have e47 : '/'.toNat = 47 := rfl
  unfold moreThanOneSlash SlashesOk
  simp only [e47]
  by_cases h1 : 47 ∈ s
  · obtain ⟨a, b, rfl, ha⟩ : ∃ a b, s = a ++ 47 :: b ∧ 47 ∉ a := List.mem_iff_append.1 h1 |> fun _ => by
      obtain ⟨as, bs, h, h'⟩ := List.eq_append_cons_of_mem h1
      exact ⟨as, bs, h, h'⟩
    have hc : a.count 47 = 0 := List.count_eq_zero.2 ha
    rw [indexOf_char ha]
    dsimp only
    have hd : (a ++ 47 :: b).drop (a.length + 1) = b := by
      rw [List.drop_append]; simp
    rw [hd]
    by_cases h2 : 47 ∈ b
    · obtain ⟨c, d, rfl, hcn⟩ := List.eq_append_cons_of_mem h2
      have hcc : c.count 47 = 0 := List.count_eq_zero.2 hcn
      rw [indexOf_char hcn]
      dsimp only
      have hd2 : (a ++ 47 :: (c ++ 47 :: d)).drop (a.length + 1 + c.length + 1) = d := by
        have : a ++ 47 :: (c ++ 47 :: d) = (a ++ 47 :: (c ++ [47])) ++ d := by simp
        rw [this, List.drop_left' (by simp; omega)]
      rw [hd2, List.take_left]
      have hcount : (a ++ 47 :: (c ++ 47 :: d)).count 47 = 2 + d.count 47 := by
        simp [List.count_append, hc, hcc]; omega
      rw [hcount]
      have hun : (∃ a' b', a ++ 47 :: (c ++ 47 :: d) = a' ++ 47 :: b' ∧ 47 ∉ a' ∧ DigitTranscript a' (decInt n.cc)) ↔
          normalizeDigitsOnly a = decInt n.cc := by
        constructor
        · rintro ⟨a', b', h, h', ht⟩
          have : a = a' := by
            have e1 := indexOf_char (x := a) (y := c ++ 47 :: d) ha
            have e2 := indexOf_char (x := a') (y := b') h'
            rw [← h, e1] at e2
            have := congrArg (List.take a.length) h
            rw [List.take_left, Option.some.inj e2, List.take_left] at this
            exact this
          rw [this]
          exact (digitTranscript_iff _ _).1 ht
        · intro h
          exact ⟨a, _, rfl, ha, (digitTranscript_iff _ _).2 h⟩
      rw [hun]
      split
      · rename_i hif
        rw [Bool.eq_false_iff, ne_eq, contains_slash, ← List.count_pos_iff]
        constructor
        · intro h
          exact .inr ⟨by omega, hif.1, hif.2⟩
        · rintro (h | h) <;> omega
      · rename_i hif
        constructor
        · intro h; cases h
        · rintro (h | h)
          · omega
          · exact absurd ⟨h.2.1, h.2.2⟩ hif
    · rw [indexOf_char_none h2]
      refine ⟨fun _ => .inl ?_, fun _ => rfl⟩
      have : b.count 47 = 0 := List.count_eq_zero.2 h2
      simp [List.count_append, hc, this]
  · rw [indexOf_char_none h1]
    refine ⟨fun _ => .inl ?_, fun _ => rfl⟩
    rw [List.count_eq_zero.2 h1]
    omega

/-! ## The national prefix -/

theorem firstGroupOnly_iff (rule : Str) : firstGroupOnlyPrefixPattern.isMatch rule = true ↔ AddsNothing rule := by
  constructor
  · intro h
    obtain ⟨a, w, e, hs, ha⟩ := (isMatch_iff _ _).1 h
    obtain ⟨w0, w', rfl, ⟨h0, rfl⟩, w1, w', rfl, h1, w2, w', rfl, ⟨u2, rfl, h2⟩, w3, w', rfl, ⟨u3, rfl, h3⟩, w4, w5, rfl, h4, rfl, rfl⟩ := ha
    have : a = [] := List.length_eq_zero_iff.1 h0
    subst this
    rw [(cls_one_mem (by decide)).1 h2, (cls_one_mem (by decide)).1 h3] at hs
    have e1 : w1 = [] ∨ w1 = [40] := by
      rcases acc_opt.1 h1 with rfl | ⟨u, rfl, hu⟩
      · exact .inl rfl
      · rw [(cls_one_mem (by decide)).1 hu]; exact .inr rfl
    have e4 : w4 = [] ∨ w4 = [41] := by
      rcases acc_opt.1 h4 with rfl | ⟨u, rfl, hu⟩
      · exact .inl rfl
      · rw [(cls_one_mem (by decide)).1 hu]; exact .inr rfl
    rw [hs]
    unfold AddsNothing
    rcases e1 with rfl | rfl <;> rcases e4 with rfl | rfl <;> decide
  · unfold AddsNothing
    intro h
    have : ∀ r ∈ [str!"$1", str!"($1", str!"$1)", str!"($1)"], firstGroupOnlyPrefixPattern.isMatch r = true := by decide +kernel
    exact this rule h

theorem prefixTakenOff_iff (m : Metadata) (d : Str) : (stripNationalPrefix d m).1 = true ↔ PrefixTakenOff m d := by
  unfold stripNationalPrefix PrefixTakenOff
  by_cases h0 : d = [] ∨ m.npParsing.src = []
  · rw [if_pos h0]
    simp only [Bool.false_eq_true, false_iff]
    rintro ⟨h1, h2, -⟩
    exact h0.elim h1 h2
  rw [if_neg h0]
  have h1 : d ≠ [] := fun h => h0 (.inl h)
  have h2 : m.npParsing.src ≠ [] := fun h => h0 (.inr h)
  cases hf : m.npParsing.re.atStart.find d with
  | none => simp
  | some x =>
    have hL : (m.npTransform = [] ∨ (m.npParsing.re.groups > 0 ∧ (x.span m.npParsing.re.groups).isNone)) ↔ LeftOut m x := by
      simp [LeftOut]
    have hgen : ∀ s, (descPat m.general).re.full.isMatch s = true ↔ InGeneral m s := full_isMatch_iff _
    have hgen' : ∀ s, (!(descPat m.general).re.full.isMatch s) = true ↔ ¬ InGeneral m s := by
      intro s
      rw [← hgen s]; simp
    simp only [ne_eq, h1, h2, not_false_eq_true, true_and, Option.some.injEq, exists_eq_left']
    by_cases hc : LeftOut m x
    · rw [if_pos (hL.2 hc)]
      simp only [hc, true_implies, not_true_eq_false, false_implies, and_true]
      split
      · rename_i hk
        simp only [Bool.false_eq_true, false_iff, Classical.not_not]
        exact ⟨(hgen _).1 hk.1, (hgen' _).1 hk.2⟩
      · rename_i hk
        simp only [true_iff]
        exact fun h => hk ⟨(hgen _).2 h.1, (hgen' _).2 h.2⟩
    · rw [if_neg (fun h => hc (hL.1 h))]
      simp only [hc, not_false_eq_true, true_implies, false_implies, true_and]
      split
      · rename_i hk
        simp only [Bool.false_eq_true, false_iff, Classical.not_not]
        exact ⟨(hgen _).1 hk.1, (hgen' _).1 hk.2⟩
      · rename_i hk
        simp only [true_iff]
        exact fun h => hk ⟨(hgen _).2 h.1, (hgen' _).2 h.2⟩

theorem nationalPrefixPresent_iff {C : Container} (hl : C.allMeta.all layoutOk = true) (n : PhoneNumber) :
    nationalPrefixPresent C n = true ↔ PrefixOk C n := by
  unfold nationalPrefixPresent PrefixOk
  by_cases hsrc : n.src = .defaultCountry
  · rw [if_neg (fun h => h hsrc)]
    cases hm : C.metaForRegion (C.mainRegion n.cc) with
    | none => simp
    | some m =>
      have hok := List.all_eq_true.1 hl m (Container.metaForRegion_mem hm)
      unfold layoutOk at hok
      rw [Bool.and_eq_true, List.all_eq_true] at hok
      have hch := chooseFormat_chosen (s := nsnOf n) hok.1 (nsnOf_isDig n)
      simp only [hsrc, true_implies, Option.some.injEq, forall_eq']
      cases hc : chooseFormat m.formats (nsnOf n) with
      | none =>
        rw [hc] at hch
        refine ⟨fun _ f hf => ?_, fun _ => rfl⟩
        cases Props.chosen_unique hch hf
      | some f =>
        rw [hc] at hch
        have hall : ∀ {P : NumberFormat → Prop}, (∀ g, Chosen m.formats (nsnOf n) (some g) → P g) ↔ P f := by
          intro P
          constructor
          · intro h; exact h f hch
          · intro h g hg
            cases Props.chosen_unique hch hg
            exact h
        rw [hall]
        dsimp only
        by_cases h1 : f.npRule = []
        · simp [h1]
        · simp only [ne_eq, h1, not_false_eq_true, if_true, true_implies]
          by_cases h2 : f.npOptional = true
          · simp [h2]
          · rw [if_neg h2]
            have h2' : f.npOptional = false := by simpa using h2
            by_cases h3 : AddsNothing f.npRule
            · have : ruleHasFirstGroupOnly f.npRule = true := by
                unfold ruleHasFirstGroupOnly
                rw [(firstGroupOnly_iff _).2 h3]; simp
              rw [if_pos this]
              simp [h3]
            · have : ruleHasFirstGroupOnly f.npRule = false := by
                unfold ruleHasFirstGroupOnly
                rw [Bool.eq_false_iff]
                simp only [h1, decide_false, Bool.false_or]
                exact fun h => h3 ((firstGroupOnly_iff _).1 h)
              rw [this]
              simp only [Bool.false_eq_true, if_false, prefixTakenOff_iff, h3, h2', not_false_eq_true, true_implies]
              constructor
              · intro h d hd
                rw [← (digitTranscript_iff _ _).1 hd]; exact h
              · intro h
                exact h _ (Props.C01_transcript _)
  · rw [if_pos hsrc]
    simp [hsrc]

/-! ## Groups -/

theorem indexOf_firstAt {s g : Str} {i : Nat} (h : indexOf s g = some i) : FirstAt s g (s.take i) (s.drop (i + g.length)) := by
  obtain ⟨t, ht⟩ := indexOf_prefix h
  have hle : i ≤ s.length := by rcases indexOf_le h with h | ⟨_, h⟩ <;> omega
  refine ⟨?_, ?_⟩
  · have : s.drop (i + g.length) = t := by rw [← List.drop_drop, ht, List.drop_left]
    rw [this, ← ht, List.take_append_drop]
  · intro a' b' e
    rw [List.length_take, Nat.min_eq_left hle]
    refine Nat.le_of_not_lt fun hl => ?_
    have := indexOf_first h hl
    rw [e, List.drop_left] at this
    rw [show g.isPrefixOf (g ++ b') = true from List.isPrefixOf_iff_prefix.2 (List.prefix_append _ _)] at this
    cases this

theorem firstAt_unique {s g a b a' b' : Str} (h : FirstAt s g a b) (h' : FirstAt s g a' b') : a = a' ∧ b = b' := by
  have h1 := h.2 _ _ h'.1
  have h2 := h'.2 _ _ h.1
  have e := h.1.symm.trans h'.1
  have := List.append_inj e (by omega)
  exact ⟨this.1, (List.append_inj this.2 rfl).2⟩

theorem indexOf_none_iff {s g : Str} : indexOf s g = none ↔ ∀ a b, s ≠ a ++ (g ++ b) := by
  have := contains_iff s g
  unfold contains at this
  constructor
  · intro h a b e
    have := this.2 ⟨a, b, e⟩
    rw [h] at this; cases this
  · intro h
    cases hi : indexOf s g with
    | none => rfl
    | some i =>
      obtain ⟨a, b, e⟩ := this.1 (by rw [hi]; rfl)
      exact absurd e (h a b)

theorem inOrder_mono {ext : Str} {gs : List Str} {s : Str} (h : InOrder ext gs s) (c : Str) : InOrder ext gs (c ++ s) := by
  cases gs with
  | nil =>
    obtain ⟨a, b, rfl⟩ := h
    exact ⟨c ++ a, b, by simp⟩
  | cons g gs =>
    obtain ⟨a, b, rfl, h⟩ := h
    exact ⟨c ++ a, b, by simp, h⟩

/-- Taking the first occurrence of every group finds the groups if they are there in order. -/
theorem groupedLoop_iff (C : Container) (n : PhoneNumber) (gs : List Str) (s : Str) : groupedLoop C n false gs s = true ↔ InOrder n.ext gs s := by
  induction gs generalizing s with
  | nil => unfold groupedLoop InOrder; rw [contains_iff]
  | cons g gs ih =>
    unfold groupedLoop InOrder
    cases hi : indexOf s g with
    | none =>
      simp only [Bool.false_eq_true, false_iff]
      rintro ⟨a, b, e, _⟩
      exact indexOf_none_iff.1 hi a b e
    | some i =>
      dsimp only
      rw [if_neg (by simp), ih]
      have hf := indexOf_firstAt hi
      constructor
      · intro h
        exact ⟨_, _, hf.1, h⟩
      · rintro ⟨a, b, e, h⟩
        have hl := hf.2 a b e
        -- the rest after the first occurrence ends with the rest after the other one
        have : ∃ c, s.drop (i + g.length) = c ++ b := by
          have e2 : s.drop (a.length + g.length) = b := by
            rw [e, ← List.append_assoc, List.drop_left' (by simp)]
          have hle : i ≤ s.length := by rcases indexOf_le hi with h | ⟨_, h⟩ <;> omega
          rw [List.length_take, Nat.min_eq_left hle] at hl
          refine ⟨(s.drop (i + g.length)).take (a.length - i), ?_⟩
          have e3 : b = (s.drop (i + g.length)).drop (a.length - i) := by
            rw [List.drop_drop, ← e2]; congr 1; omega
          rw [e3, List.take_append_drop]
        obtain ⟨c, hc⟩ := this
        rw [hc]
        exact inOrder_mono h c

theorem groupedLoop_first_iff (C : Container) (n : PhoneNumber) (gs : List Str) (s : Str) (hg : gs ≠ []) :
    groupedLoop C n true gs s = true ↔ KeptTogether C n gs s := by
  cases gs with
  | nil => exact absurd rfl hg
  | cons g gs =>
    unfold groupedLoop KeptTogether
    cases hi : indexOf s g with
    | none =>
      simp only [Bool.false_eq_true, false_iff]
      rintro ⟨g', rest, a, b, e, h, _⟩
      cases e
      exact indexOf_none_iff.1 hi a b h.1
    | some i =>
      have hf := indexOf_firstAt hi
      have hdrop : s.drop i = g ++ s.drop (i + g.length) := by
        have := congrArg (List.drop i) hf.1
        have hle : i ≤ s.length := by rcases indexOf_le hi with h | ⟨_, h⟩ <;> omega
        rw [List.drop_left' (by rw [List.length_take]; omega)] at this
        exact this
      have hex : ∀ {P : Str → Str → Str → Str → Prop}, (∃ g' rest a b, (g :: gs) = g' :: rest ∧ FirstAt s g' a b ∧ P g' a b (rest.flatten)) → True := fun _ => trivial
      have hcond : ((true = true) ∧ C.nddPrefix (C.mainRegion n.cc) true ≠ [] ∧ (s.drop (i + g.length)).head?.any (fun u => isUniDigit (rune u)) = true) ↔
          (C.nddPrefix (C.mainRegion n.cc) true ≠ [] ∧ ∃ u b' v, s.drop (i + g.length) = u :: b' ∧ UnicodeDigit (rune u) v) := by
        simp only [true_and]
        refine and_congr_right fun _ => ?_
        cases hd : s.drop (i + g.length) with
        | nil => simp
        | cons u b' =>
          simp only [List.head?_cons, Option.any_some, Aytf.isUniDigit_iff, List.cons.injEq]
          constructor
          · rintro ⟨v, hv⟩; exact ⟨u, b', v, ⟨rfl, rfl⟩, hv⟩
          · rintro ⟨_, _, v, ⟨rfl, rfl⟩, hv⟩; exact ⟨v, hv⟩
      dsimp only
      constructor
      · intro h
        refine ⟨g, gs, _, _, rfl, hf, ?_, ?_⟩
        · intro hc
          rw [if_pos (hcond.2 hc)] at h
          rw [← hdrop]
          exact List.isPrefixOf_iff_prefix.1 h
        · intro hc
          rw [if_neg (fun k => hc (hcond.1 k))] at h
          exact (groupedLoop_iff C n gs _).1 h
      · rintro ⟨g', rest, a, b, e, hab, h1, h2⟩
        cases e
        obtain ⟨rfl, rfl⟩ := firstAt_unique hab hf
        split
        · rename_i hc
          rw [hdrop]
          exact List.isPrefixOf_iff_prefix.2 (h1 (hcond.1 hc))
        · rename_i hc
          exact (groupedLoop_iff C n gs _).2 (h2 (fun k => hc (hcond.2 k)))

theorem groupsRemainGrouped_iff (C : Container) (n : PhoneNumber) (s : Str) (gs : List Str) (hg : gs ≠ []) :
    groupsRemainGrouped C n s gs = .ok true ↔ ∃ t, AfterCode n s t ∧ KeptTogether C n gs t := by
  unfold groupsRemainGrouped AfterCode
  by_cases hsrc : n.src = .defaultCountry
  · rw [if_neg (fun h => h hsrc)]
    simp only [hsrc, if_true, exists_eq_left, bind, Except.bind, pure, Except.pure, Except.ok.injEq, groupedLoop_first_iff C n gs s hg]
  · rw [if_pos hsrc]
    simp only [hsrc, if_false]
    cases hi : indexOf s (decInt n.cc) with
    | some i =>
      have hf := indexOf_firstAt hi
      simp only [bind, Except.bind, pure, Except.pure, Except.ok.injEq, groupedLoop_first_iff C n gs _ hg]
      constructor
      · intro h; exact ⟨_, .inl ⟨_, hf⟩, h⟩
      · rintro ⟨t, ⟨a, ha⟩ | ⟨ha, _⟩, h⟩
        · rw [← (firstAt_unique ha hf).2]; exact h
        · exact absurd hf.1 (ha _ _)
    | none =>
      have hn := indexOf_none_iff.1 hi
      dsimp only
      cases hd : dropBytes ((decInt n.cc).length - 1) s with
      | error e =>
        simp only [bind, Except.bind, reduceCtorEq, false_iff]
        rintro ⟨t, ⟨a, ha⟩ | ⟨_, ha⟩, _⟩
        · exact hn _ _ ha.1
        · cases ha
      | ok t =>
        simp only [bind, Except.bind, pure, Except.pure, Except.ok.injEq, groupedLoop_first_iff C n gs _ hg]
        constructor
        · intro h; exact ⟨t, .inr ⟨hn, rfl⟩, h⟩
        · rintro ⟨t', ⟨a, ha⟩ | ⟨_, ha⟩, h⟩
          · exact absurd ha.1 (hn _ _)
          · rw [ha]; exact h

/-! ## Blocks -/

/-- A list without its empty members at the end. -/
def noTail (l : List Str) : List Str := (l.reverse.dropWhile (· = [])).reverse

theorem noTail_cons (c : Str) (l : List Str) : noTail (c :: l) = if noTail l = [] ∧ c = [] then [] else c :: noTail l := by
  unfold noTail
  rw [List.reverse_cons, List.dropWhile_append]
  by_cases h : (l.reverse.dropWhile (· = [])) = []
  · simp only [h, List.isEmpty_nil, if_true, List.reverse_nil, true_and]
    by_cases hc : c = [] <;> simp [hc]
  · have : (l.reverse.dropWhile (· = [])).isEmpty = false := by
      cases hh : l.reverse.dropWhile (· = []) with
      | nil => exact absurd hh h
      | cons _ _ => rfl
    simp [this, h]

theorem noTail_pieces (P : Nat → Bool) (t : Str) :
    noTail (piecesAux P t true []) = fieldsAux (fun u => !P u) t [] ∧
    ∀ cur, cur ≠ [] → noTail (piecesAux P t false cur) = fieldsAux (fun u => !P u) t cur := by
  induction t with
  | nil => exact ⟨rfl, fun cur h => by simp [piecesAux, fieldsAux, noTail, h]⟩
  | cons u t ih =>
    obtain ⟨i1, i2⟩ := ih
    cases hu : P u with
    | true =>
      refine ⟨by simp [piecesAux, fieldsAux, hu, i1], fun cur h => ?_⟩
      simp [piecesAux, fieldsAux, hu, noTail_cons, i1, h]
    | false =>
      refine ⟨by simp [piecesAux, fieldsAux, hu, i2 [u]], fun cur h => ?_⟩
      simp [piecesAux, fieldsAux, hu, i2 (cur ++ [u])]

theorem splitNonDigits_blocks (s : Str) : splitNonDigits s = blocks s := by
  have hP : (fun u => !isDig (rune u)) = fun u => !isDig u := by funext u; rw [isDig_rune_iff]
  have hN : (fun u : Nat => !(!isDig u)) = isDig := by funext u; simp
  unfold splitNonDigits
  rw [nonDigits_plus.split, hP]
  have e : noTail (pieces (fun u => !isDig u) s) = if digitGroups s = [] then [] else (if s.head?.any isDig then [] else [[]]) ++ digitGroups s := by
    unfold pieces digitGroups fields
    cases s with
    | nil => simp [piecesAux, noTail, fieldsAux]
    | cons u t =>
      obtain ⟨h1, h2⟩ := noTail_pieces (fun u => !isDig u) t
      rw [hN] at h1 h2
      cases hu : isDig u with
      | true =>
        simp only [piecesAux, fieldsAux, hu, Bool.not_true, Bool.false_eq_true, if_false, if_true, List.nil_append, List.head?_cons, Option.any_some]
        rw [h2 [u] (by simp)]
        split
        · rename_i h; exact h
        · rfl
      | false =>
        simp only [piecesAux, fieldsAux, hu, Bool.not_false, if_true, Bool.false_eq_true, if_false, List.nil_append, List.head?_cons, Option.any_some]
        rw [noTail_cons, h1]
        simp
  unfold noTail at e
  unfold blocks
  rw [e]
  by_cases h : digitGroups s = []
  · simp [h]
  · rw [if_neg h, if_neg h]
    split
    · rename_i h'; simp [h] at h'
    · rfl

theorem exactLoop_iff (first : Str) (cs gs : List Str) : exactLoop first cs gs = true ↔ ∃ pre c, cs.reverse = pre ++ c :: gs.reverse ∧ first <:+ c := by
  fun_induction exactLoop first cs gs with
  | case1 gs =>
    simp only [Bool.false_eq_true, List.reverse_nil, false_iff]
    rintro ⟨pre, c, h, _⟩
    have := congrArg List.length h
    simp at this
  | case2 c cs =>
    unfold hasSuffix
    rw [List.isSuffixOf_iff_suffix]
    constructor
    · intro h; exact ⟨cs.reverse, c, by simp, h⟩
    · rintro ⟨pre, c', h, h'⟩
      simp only [List.reverse_cons, List.reverse_nil] at h
      have := List.append_inj' h rfl
      cases this.2
      exact h'
  | case3 c cs g gs hne =>
    simp only [Bool.false_eq_true, false_iff]
    rintro ⟨pre, c', h, _⟩
    rw [List.reverse_cons, List.reverse_cons, ← List.cons_append, ← List.append_assoc] at h
    have := List.append_inj' h rfl
    cases this.2
    exact hne rfl
  | case4 c cs g gs hne ih =>
    rw [ih]
    simp only [ne_eq, Classical.not_not] at hne
    subst hne
    refine exists_congr fun pre => exists_congr fun c' => and_congr_left fun _ => ?_
    rw [List.reverse_cons, List.reverse_cons, ← List.cons_append, ← List.append_assoc]
    constructor
    · intro h; rw [h]
    · intro h; exact (List.append_inj' h rfl).1

theorem groupsExactlyPresent_iff (n : PhoneNumber) (s : Str) (gs : List Str) (hg : gs ≠ []) :
    groupsExactlyPresent n s gs = .ok true ↔ ExactlyGrouped n gs s := by
  obtain ⟨g, rest, rfl⟩ : ∃ g rest, gs = g :: rest := by
    cases gs with
    | nil => exact absurd rfl hg
    | cons g rest => exact ⟨g, rest, rfl⟩
  unfold groupsExactlyPresent ExactlyGrouped
  rw [splitNonDigits_blocks]
  dsimp only
  have hne : blocks s ≠ [] := by
    unfold blocks
    split
    · simp
    · rename_i h; intro h'; exact h (List.append_eq_nil_iff.1 h').2
  generalize blocks s = B at hne
  by_cases h1 : B.length = 1
  · rw [if_pos h1]
    obtain ⟨b, rfl⟩ := List.length_eq_one_iff.1 h1
    simp
  · rw [if_neg h1]
    have hno : ¬ ∃ b, B = [b] := by rintro ⟨b, rfl⟩; exact h1 rfl
    simp only [hno, false_or]
    -- the blocks before that of the extension
    obtain ⟨bs, x, hB, hx, hrev⟩ : ∃ bs x, B = bs ++ x ∧ x.length = (if n.ext = [] then 0 else 1) ∧
        (if n.ext ≠ [] then B.reverse.tail else B.reverse) = bs.reverse := by
      by_cases he : n.ext = []
      · exact ⟨B, [], by simp, by simp [he], by simp [he]⟩
      · refine ⟨B.dropLast, [B.getLast hne], (List.dropLast_concat_getLast hne).symm, by simp [he], ?_⟩
        rw [if_pos he, List.tail_reverse]
    have huniq : ∀ {P : List Str → Prop}, (∃ bs' x', B = bs' ++ x' ∧ x'.length = (if n.ext = [] then 0 else 1) ∧ P bs') ↔ P bs := by
      intro P
      constructor
      · rintro ⟨bs', x', h, h', hp⟩
        rw [hB] at h
        rw [(List.append_inj' h (by rw [hx, h'])).1]; exact hp
      · intro hp; exact ⟨bs, x, hB, hx, hp⟩
    rw [huniq (P := fun bs => (∃ pre c, bs = pre ++ [c] ∧ nsnOf n <:+: c) ∨ (∃ g' rest' pre c, g :: rest = g' :: rest' ∧ bs = pre ++ c :: rest' ∧ g' <:+ c)), hrev]
    have hbs : bs ≠ [] := by
      rintro rfl
      rw [List.nil_append] at hB
      rw [← hB] at hx
      split at hx
      · exact hne (List.length_eq_zero_iff.1 hx)
      · exact h1 hx
    obtain ⟨pre0, c0, rfl⟩ : ∃ pre c, bs = pre ++ [c] := ⟨bs.dropLast, bs.getLast hbs, (List.dropLast_concat_getLast hbs).symm⟩
    rw [List.reverse_append, List.reverse_cons, List.reverse_nil, List.nil_append, List.cons_append, List.nil_append]
    dsimp only
    have hlast : (∃ pre c, pre0 ++ [c0] = pre ++ [c] ∧ nsnOf n <:+: c) ↔ contains c0 (nsnOf n) = true := by
      rw [contains_iff]
      constructor
      · rintro ⟨pre, c, h, a, b, h'⟩
        cases (List.append_inj' h rfl).2
        exact ⟨a, b, by rw [← h', List.append_assoc]⟩
      · rintro ⟨a, b, h⟩
        exact ⟨pre0, c0, rfl, a, b, by rw [h, List.append_assoc]⟩
    rw [hlast]
    split
    · rename_i h; simp [h]
    · rename_i h
      simp only [h, Bool.false_eq_true, false_or, Except.ok.injEq]
      rw [exactLoop_iff]
      simp only [List.reverse_cons, List.reverse_reverse]
      constructor
      · rintro ⟨pre, c, h, h'⟩; exact ⟨g, rest, pre, c, rfl, h, h'⟩
      · rintro ⟨g', rest', pre, c, e, h, h'⟩
        cases e
        exact ⟨pre, c, h, h'⟩

/-! ## Digits of other scripts -/

theorem asciiDigits_iff (s t : Str) : AsciiDigits s t ↔ normalizeDigits true s = t := by
  have step : ∀ u s, normalizeDigits true (u :: s) = (match charDigit (rune u) with | some v => [v] | none => [rune u]) ++ normalizeDigits true s := by
    intro u s
    unfold normalizeDigits
    rw [List.flatMap_cons]
    rfl
  constructor
  · intro h
    induction h with
    | nil => rfl
    | digit hu _ ih => rw [step, (charDigit_iff _ _).2 ⟨_, hu, rfl⟩, ih]; rfl
    | other hu _ ih => rw [step, (charDigit_none_iff _).2 hu, ih]; rfl
  · rintro rfl
    induction s with
    | nil => exact .nil
    | cons u s ih =>
      rw [step]
      cases hc : charDigit (rune u) with
      | none => exact .other ((charDigit_none_iff _).1 hc) ih
      | some v =>
        obtain ⟨w, hw, rfl⟩ := (charDigit_iff _ _).1 hc
        exact .digit hw ih

/-! ## Groupings -/

theorem alternateFormats_iff (alt : List Metadata) (cc : Int) (m : Metadata) :
    alternateFormats alt cc = some m ↔ ∃ a b, alt = a ++ m :: b ∧ m.countryCode = cc ∧ ∀ m' ∈ b, m'.countryCode ≠ cc := by
  unfold alternateFormats
  rw [List.find?_eq_some_iff_append]
  constructor
  · rintro ⟨h, a, b, e, h'⟩
    refine ⟨b.reverse, a.reverse, ?_, by simpa using h, ?_⟩
    · have := congrArg List.reverse e
      simpa using this
    · intro m' hm'
      have := h' m' (List.mem_reverse.1 hm')
      simpa using this
  · rintro ⟨a, b, rfl, h, h'⟩
    refine ⟨by simpa using h, b.reverse, a.reverse, by simp, ?_⟩
    intro m' hm'
    simpa using h' m' (List.mem_reverse.1 hm')

theorem alternateGroupings_iff {n : PhoneNumber} {checker : List Str → Go Bool} (hc : ∀ gs, gs ≠ [] → ∃ b, checker gs = .ok b)
    (fs : List NumberFormat) : alternateGroupings n checker fs = .ok true ↔
      ∃ f ∈ fs, (∀ ld, f.leadingDigits.head? = some ld → ld.re.matchesAtStart (nsnOf n) = true) ∧
        checker (nationalGroupsWith n f) = .ok true := by
  induction fs with
  | nil => simp [alternateGroupings]
  | cons f fs ih =>
    unfold alternateGroupings
    have hall : (f.leadingDigits.head?.all fun ld => ld.re.matchesAtStart (nsnOf n)) = true ↔
        ∀ ld, f.leadingDigits.head? = some ld → ld.re.matchesAtStart (nsnOf n) = true := by
      cases f.leadingDigits.head? <;> simp
    have hne : nationalGroupsWith n f ≠ [] := by
      unfold nationalGroupsWith; obtain ⟨g, gs, e⟩ := splitHyphens_cons (formatNsnUsingPattern (nsnOf n) f .rfc3966 []); rw [e]; simp
    split
    · rename_i h
      rw [hall] at h
      obtain ⟨b, hb⟩ := hc _ hne
      rw [hb]
      cases b with
      | true =>
        simp only [bind, Except.bind, pure, Except.pure, if_true, true_iff]
        exact ⟨f, by simp, h, hb⟩
      | false =>
        simp only [bind, Except.bind, pure, Except.pure, Bool.false_eq_true, if_false, ih, List.mem_cons]
        constructor
        · rintro ⟨g, hg, h'⟩; exact ⟨g, .inr hg, h'⟩
        · rintro ⟨g, rfl | hg, h'⟩
          · rw [hb] at h'; cases h'.2
          · exact ⟨g, hg, h'⟩
    · rename_i h
      rw [hall] at h
      simp only [ih, List.mem_cons]
      constructor
      · rintro ⟨g, hg, h'⟩; exact ⟨g, .inr hg, h'⟩
      · rintro ⟨g, rfl | hg, h'⟩
        · exact absurd h'.1 h
        · exact ⟨g, hg, h'⟩

theorem splitHyphens_noHyphen {s g : Str} (h : g ∈ splitHyphens s) : 45 ∉ g := by
  induction s generalizing g with
  | nil => simp [splitHyphens] at h; subst h; simp
  | cons u s ih =>
    unfold splitHyphens at h
    split at h
    · rcases List.mem_cons.1 h with rfl | h
      · simp
      · exact ih h
    · rename_i hu
      obtain ⟨g', gs', e⟩ := splitHyphens_cons s
      rw [e] at h ih
      dsimp only at h
      rcases List.mem_cons.1 h with rfl | h
      · have := ih (g := g') (by simp)
        simp only [List.mem_cons, not_or]
        exact ⟨fun e => hu e.symm, this⟩
      · exact ih (by simp [h])

theorem intercalate_splitHyphens (s : Str) : List.intercalate [45] (splitHyphens s) = s := by
  induction s with
  | nil => rfl
  | cons u s ih =>
    obtain ⟨g', gs', e⟩ := splitHyphens_cons s
    unfold splitHyphens
    split
    · rename_i hu
      subst hu
      rw [e] at ih ⊢
      rw [← ih]
      rfl
    · rw [e] at ih ⊢
      dsimp only
      rw [← ih]
      cases gs' <;> rfl

/-- The groups of a number are those of its RFC 3966 form. -/
theorem nationalGroups_form {C : Container} {n : PhoneNumber} (hcc : 0 ≤ n.cc) {gs : List Str} {ext : Str} (h0 : gs ≠ [])
    (hg : ∀ g ∈ gs, 45 ∉ g ∧ 59 ∉ g)
    (hf : format C n .rfc3966 = str!"tel:+" ++ decInt n.cc ++ str!"-" ++ List.intercalate (str!"-") gs ++ ext)
    (hx : ext = [] ∨ ext = str!";ext=" ++ n.ext) : nationalGroups C n = .ok gs := by
  have hpre : ∀ u ∈ str!"tel:+" ++ decInt n.cc, u ≠ 45 ∧ u ≠ 59 := by
    intro u hu
    rcases List.mem_append.1 hu with hu | hu
    · have : ∀ v ∈ str!"tel:+", v ≠ 45 ∧ v ≠ 59 := by decide
      exact this u hu
    · rw [decInt_nonneg hcc, ← dec_eq_decimal] at hu
      have := dec_digits _ _ hu
      constructor <;> rintro rfl <;> revert this <;> decide
  have hbody : 59 ∉ List.intercalate (str!"-") gs := by
    intro hm
    rcases mem_intercalate_hyphen hm with h | ⟨g, hg', h⟩
    · cases h
    · exact (hg g hg').2 h
  unfold nationalGroups
  rw [hf]
  generalize hP : str!"tel:+" ++ decInt n.cc = P at hpre
  generalize hB : List.intercalate (str!"-") gs = B at hbody
  have e1 : indexOf (P ++ str!"-" ++ B ++ ext) [45] = some P.length := by
    rw [List.append_assoc, List.append_assoc]
    exact indexOf_char (fun hm => (hpre _ hm).1 rfl)
  have hno : 59 ∉ P ++ str!"-" ++ B := by
    intro hm
    rcases List.mem_append.1 hm with hm | hm
    · rcases List.mem_append.1 hm with hm | hm
      · exact (hpre _ hm).2 rfl
      · revert hm; decide
    · exact hbody hm
  have e2 : (indexOf (P ++ str!"-" ++ B ++ ext) [59]).getD (P ++ str!"-" ++ B ++ ext).length = (P ++ str!"-" ++ B).length := by
    rcases hx with rfl | rfl
    · rw [List.append_nil, indexOf_char_none hno]; rfl
    · rw [show (P ++ str!"-" ++ B) ++ (str!";ext=" ++ n.ext) = (P ++ str!"-" ++ B) ++ 59 :: (str!"ext=" ++ n.ext) from rfl, indexOf_char hno]; rfl
  dsimp only
  rw [e1, e2]
  simp only [Option.map_some, Option.getD_some]
  have hl : (P ++ str!"-" ++ B).length = P.length + 1 + B.length := by simp only [List.length_append]; rfl
  rw [goSlice_of_le (by omega) (by rw [List.length_append (as := P ++ str!"-" ++ B)]; omega)]
  have e3 : slice (P ++ str!"-" ++ B ++ ext) (P.length + 1) (P ++ str!"-" ++ B).length = B := by
    unfold slice
    rw [hl, List.append_assoc (P ++ str!"-"), List.drop_left' (by rw [List.length_append]; rfl), Nat.add_sub_cancel_left, List.take_left]
  rw [e3, ← hB]
  simp only [bind, Except.bind, pure, Except.pure]
  rw [show (str!"-" : Str) = [45] from rfl, splitHyphens_intercalate h0 (fun g h => (hg g h).1)]

/-- The usual groups exist. -/
theorem usual_exists {n : PhoneNumber} (hcc : Data.container.hasCC n.cc = true) (hnn : n.nn ≠ 0) : ∃ gs ext, gs ≠ [] ∧
    (∀ g ∈ gs, 45 ∉ g ∧ 59 ∉ g) ∧
    format Data.container n .rfc3966 = str!"tel:+" ++ decInt n.cc ++ str!"-" ++ List.intercalate (str!"-") gs ++ ext ∧
    (ext = [] ∨ ext = str!";ext=" ++ n.ext) ∧ gs.flatten = nsnOf n ∧ ∀ g ∈ gs, g ≠ [] := by
  obtain ⟨body, hf, gs, h1, h2, h3, h4⟩ := Props.C17_shipped n hcc (fun h => hnn h.1)
  have hp := (Props.prefixFree_spec Props.prefixFree_shipped hcc).1
  refine ⟨gs, if n.extension.getD [] = [] then [] else str!";ext=" ++ n.extension.getD [], h1, ?_, ?_, ?_, h3, h2⟩
  · intro g hg
    have hd : ∀ u ∈ g, isDig u = true := fun u hu => nsnOf_isDig n u (by rw [← h3]; exact List.mem_flatten.2 ⟨g, hg, hu⟩)
    constructor <;> intro hm <;> have := hd _ hm <;> revert this <;> decide
  · rw [hf, h4, decInt_nonneg (by omega)]; rfl
  · unfold PhoneNumber.ext
    split <;> simp

/-- Some grouping passes the check. -/
theorem checkGrouping_iff {alt : List Metadata} {n : PhoneNumber} {s : Str} {checker : PhoneNumber → Str → List Str → Go Bool}
    {P : List Str → Str → Prop} (hcc : Data.container.hasCC n.cc = true) (hnn : n.nn ≠ 0)
    (hc : ∀ gs, gs ≠ [] → ∃ b, checker n (normalizeDigits true s) gs = .ok b)
    (hP : ∀ gs t, gs ≠ [] → (checker n t gs = .ok true ↔ P gs t)) :
    checkGrouping Data.container alt n s checker = .ok true ↔
      ∃ gs t, Grouping Data.container alt n gs ∧ AsciiDigits s t ∧ P gs t := by
  have hp := (Props.prefixFree_spec Props.prefixFree_shipped hcc).1
  have ht : ∀ {Q : Str → Prop}, (∃ t, AsciiDigits s t ∧ Q t) ↔ Q (normalizeDigits true s) := by
    intro Q
    constructor
    · rintro ⟨t, h, hq⟩; rw [(asciiDigits_iff s t).1 h]; exact hq
    · intro h; exact ⟨_, (asciiDigits_iff _ _).2 rfl, h⟩
  have hrhs : (∃ gs t, Grouping Data.container alt n gs ∧ AsciiDigits s t ∧ P gs t) ↔
      ∃ gs, Grouping Data.container alt n gs ∧ P gs (normalizeDigits true s) := by
    refine exists_congr fun gs => ?_
    rw [← ht (Q := P gs)]
    constructor
    · rintro ⟨t, h1, h2⟩; exact ⟨h1, t, h2⟩
    · rintro ⟨h1, t, h2⟩; exact ⟨t, h1, h2⟩
  rw [hrhs]
  obtain ⟨gs0, ext0, k1, k2, k3, k4, -, -⟩ := usual_exists hcc hnn
  have hn0 := nationalGroups_form (by omega) k1 k2 k3 k4
  have hu0 : Grouping Data.container alt n gs0 := .usual k1 k2 k3 k4
  have hwith : ∀ f : NumberFormat, nationalGroupsWith n f = splitHyphens (tidy .rfc3966 (f.pattern.re.replaceAll (nsnOf n) f.format)) := by
    intro f
    unfold nationalGroupsWith formatNsnUsingPattern
    rw [tidy_eq]
    rfl
  unfold checkGrouping
  rw [hn0]
  obtain ⟨b, hb⟩ := hc gs0 k1
  simp only [bind, Except.bind, pure, Except.pure, hb]
  cases b with
  | true =>
    simp only [if_true, true_iff]
    exact ⟨gs0, hu0, (hP _ _ k1).1 hb⟩
  | false =>
    simp only [Bool.false_eq_true, if_false]
    have hno : ¬ P gs0 (normalizeDigits true s) := fun h => by
      rw [(hP _ _ k1).2 h] at hb; cases hb
    -- another grouping comes from an alternate format
    have hgr : (∃ gs, Grouping Data.container alt n gs ∧ P gs (normalizeDigits true s)) ↔
        ∃ m, alternateFormats alt n.cc = some m ∧ ∃ f ∈ m.formats,
          (∀ ld, f.leadingDigits.head? = some ld → ld.re.matchesAtStart (nsnOf n) = true) ∧
          checker n (normalizeDigits true s) (nationalGroupsWith n f) = .ok true := by
      constructor
      · rintro ⟨gs, hg, h⟩
        cases hg with
        | usual j1 j2 j3 j4 =>
          have := nationalGroups_form (by omega) j1 j2 j3 j4
          rw [hn0] at this
          cases this
          exact absurd h hno
        | @alternate m f j1 j2 j3 j4 j5 j6 =>
          have e : nationalGroupsWith n f = gs := by
            rw [hwith, j6]
            exact splitHyphens_intercalate j4 j5
          exact ⟨m, (alternateFormats_iff _ _ _).2 j1, f, j2, fun ld hld => (matchesAtStart_iff _ _).2 (j3 ld hld), by
            rw [e]; exact (hP _ _ j4).2 h⟩
      · rintro ⟨m, hm, f, hf, hld, h⟩
        obtain ⟨g, gs, e⟩ := splitHyphens_cons (tidy .rfc3966 (f.pattern.re.replaceAll (nsnOf n) f.format))
        have hne : nationalGroupsWith n f ≠ [] := by rw [hwith, e]; simp
        refine ⟨nationalGroupsWith n f, ?_, (hP _ _ hne).1 h⟩
        refine .alternate ((alternateFormats_iff _ _ _).1 hm) hf (fun ld hl => (matchesAtStart_iff _ _).1 (hld ld hl)) hne ?_ ?_
        · rw [hwith]; exact fun g hg => splitHyphens_noHyphen hg
        · rw [hwith]; exact (intercalate_splitHyphens _).symm
    rw [hgr]
    cases hm : alternateFormats alt n.cc with
    | none => simp
    | some m =>
      simp only [Option.some.injEq, exists_eq_left']
      exact alternateGroupings_iff hc m.formats

end Verif
