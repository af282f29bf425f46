import Verif.Spec.Dialled
import Verif.Lemmas.National
/-!
# Numbers written with an international prefix
-/
namespace Verif
open Spec

/-! ## The text -/

/-- The characters of numbers with an international prefix. -/
def toneL : List Nat := 126 :: extL

/-- A text that is viable, is normalised to its digits, and from which exactly a written extension is taken off. -/
structure Dial (T : Str) : Prop where
  first : ∃ v b, T = v :: b ∧ isDig v = true
  last : ∃ a v, T = a ++ [v] ∧ isDig v = true
  mem : ∀ u ∈ T, rune u ∈ toneL ∧ rune u ∉ plusL
  two : 2 ≤ T.length
  norm : normalize T = T.filter isDig
  viable : ∀ y, (y = [] ∨ ∀ p e, extBody.Acc p y e) → validBody.Acc 0 (T ++ y) []
  strip : ∀ y d, ExtPart y d → stripExtension (T ++ y) = (d, T)

theorem Spaced.dial {t : Str} (ht : Spaced t) (h3 : 3 ≤ (t.filter isDig).length) : Dial t where
  first := ht.first
  last := ht.last
  mem u hu := by
    refine ⟨List.mem_cons_of_mem _ (List.mem_append_left _ (ht.sep' u hu)), ?_⟩
    rcases ht.all u hu with h | h
    · exact dig_not_plus h
    · exact gapL_plus u h
  two := by have := Spaced.length h3; omega
  norm := ht.normalize
  viable y hy := ht.validBody' h3 hy
  strip y d hy := hy.strip' ht h3

theorem toneLeads_mem : ∀ l ∈ toneLeads, ∀ u ∈ l, isDig u = true ∨ u ∈ 126 :: gapL := by decide

theorem toneGap_rune : ∀ u ∈ 126 :: gapL, rune u = u := by decide
theorem toneGap_dig : ∀ u ∈ 126 :: gapL, isDig u = false := by decide
theorem toneGap_charDigit : ∀ u ∈ 126 :: gapL, charDigit u = none := by decide +kernel
theorem toneGap_plus : ∀ u ∈ 126 :: gapL, rune u ∉ plusL := by decide
theorem toneGap_tone : ∀ u ∈ 126 :: gapL, rune u ∈ toneL := by decide

theorem extBody_noAnchor : extBody.noAnchor = true := by decide +kernel

theorem extBody_tone : pds 32 (pds 48 (pds 49 (pds 126 [extBody]))) = [] ∧ pds 32 (pds 48 (pds 126 [extBody])) = [] := by
  decide +kernel

theorem accAny_nil {w : Str} : ¬ AccAny [] w := by rintro ⟨r, hr, -⟩; cases hr

theorem accAny_drop {l : List Re} (hl : ∀ r ∈ l, r.noAnchor = true) {u : Nat} {w : Str} (h : AccAny l (u :: w)) :
    AccAny (pds u l) w ∧ ∀ r ∈ pds u l, r.noAnchor = true := ⟨pds_acc hl h, pds_noAnchor hl u⟩

/-- The tilde of a dialling prefix does not begin an extension. -/
theorem tone_not_ext {s w e : Str} {p : Nat} (h : (str!"~10 ") ++ s = w ++ e ∨ (str!"~0 ") ++ s = w ++ e) : ¬ extnPattern.Acc p w e := by
  intro ha
  rw [extnPattern_eq] at ha
  obtain ⟨w0, w9, rfl, h1, h2⟩ := ha
  obtain ⟨rfl, rfl⟩ : w9 = [] ∧ e = [] := h2
  simp only [List.append_nil] at h h1
  have h1 : AccAny [extBody] w0 := ⟨extBody, by simp, noAnchor_acc extBody_noAnchor h1⟩
  have h0 : ∀ r ∈ [extBody], r.noAnchor = true := by simp [extBody_noAnchor]
  rcases h with rfl | rfl
  · obtain ⟨a1, a2⟩ := accAny_drop h0 (u := 126) h1
    obtain ⟨b1, b2⟩ := accAny_drop a2 (u := 49) a1
    obtain ⟨c1, c2⟩ := accAny_drop b2 (u := 48) b1
    obtain ⟨d1, -⟩ := accAny_drop c2 (u := 32) c1
    rw [extBody_tone.1] at d1
    exact accAny_nil d1
  · obtain ⟨a1, a2⟩ := accAny_drop h0 (u := 126) h1
    obtain ⟨b1, b2⟩ := accAny_drop a2 (u := 48) a1
    obtain ⟨c1, -⟩ := accAny_drop b2 (u := 32) b1
    rw [extBody_tone.2] at c1
    exact accAny_nil c1

theorem ext_start_digit {v : Nat} (hv : v = 56 ∨ v = 48) {s w e : Str} {p : Nat} (h : v :: s = w ++ e) : ¬ extnPattern.Acc p w e := by
  intro ha
  have hm := minLen_acc _ _ _ _ ha
  have : 1 ≤ extnPattern.minLen := by decide +kernel
  cases w with
  | nil => simp at hm; omega
  | cons x w =>
    obtain ⟨rfl, -⟩ := List.cons.inj h
    have := canStart_acc ha
    have k : extnPattern.canStart 56 = false ∧ extnPattern.canStart 48 = false := by decide +kernel
    rcases hv with rfl | rfl
    · rw [k.1] at this; cases this
    · rw [k.2] at this; cases this

/-- A text that is cut at a place of the beginning or later. -/
theorem lead_split {l B a B2 : Str} (h : l ++ B = a ++ B2) : (∃ k, k < l.length ∧ B2 = l.drop k ++ B) ∨ ∃ c, B = c ++ B2 := by
  rcases List.append_eq_append_iff.1 h with ⟨c, rfl, h2⟩ | ⟨c, h1, h2⟩
  · exact .inr ⟨c, h2⟩
  · by_cases hc : c = []
    · subst hc; exact .inr ⟨[], by simpa using h2.symm⟩
    · refine .inl ⟨a.length, ?_, by rw [h1, List.drop_left, h2]⟩
      have := List.length_pos_iff.2 hc
      rw [h1, List.length_append]; omega

theorem gapDigits_sep {B : Str} (h : ∀ u ∈ B, isDig u = true ∨ u ∈ gapL) : ∀ u ∈ B, rune u ∈ sepL := by
  intro u hu
  rcases h u hu with h | h
  · exact List.mem_append_left _ (plainL_of_isDig h)
  · rw [gapL_rune u h]; exact List.mem_append_right _ h

/-- No extension begins in the number: places after the tilde are left to `hs`. -/
theorem toneLead_not_ext {l B s : Str} (hl : l ∈ toneLeads)
    (hs : ∀ B2 w e p, (∃ k, 1 < k ∧ B2 = l.drop k ++ B) ∨ (∃ c, B = c ++ B2) → B2 ++ s = w ++ e → ¬ extnPattern.Acc p w e)
    {a B2 w e : Str} {p : Nat} (h1 : l ++ B = a ++ B2) (h2 : B2 ++ s = w ++ e) : ¬ extnPattern.Acc p w e := by
  rcases lead_split h1 with ⟨k, hk, rfl⟩ | hc
  · by_cases h : 1 < k
    · exact hs _ _ _ _ (.inl ⟨k, h, rfl⟩) h2
    · have : k = 0 ∨ k = 1 := by omega
      simp only [toneLeads, List.mem_cons, List.not_mem_nil, or_false] at hl
      rcases this with rfl | rfl <;> rcases hl with rfl | rfl
      · exact ext_start_digit (.inl rfl) (s := (str!"~10 ") ++ (B ++ s)) (by rw [← h2]; simp)
      · exact ext_start_digit (.inr rfl) (s := (str!"~0 ") ++ (B ++ s)) (by rw [← h2]; simp)
      · exact tone_not_ext (s := B ++ s) (.inl (by rw [← h2]; simp))
      · exact tone_not_ext (s := B ++ s) (.inr (by rw [← h2]; simp))
  · exact hs _ _ _ _ (.inr hc) h2

theorem toneLead_rest : ∀ l ∈ toneLeads, ∀ k, 1 < k → ∀ u ∈ l.drop k, isDig u = true ∨ u ∈ gapL := by
  intro l hl k hk u hu
  have h : u ∈ l.drop 2 := by
    obtain ⟨j, rfl⟩ : ∃ j, k = 2 + j := ⟨k - 2, by omega⟩
    rw [← List.drop_drop] at hu
    exact List.mem_of_mem_drop hu
  exact (show ∀ l ∈ toneLeads, ∀ u ∈ l.drop 2, isDig u = true ∨ u ∈ gapL by decide) l hl u h

theorem normalizeDigitsOnly_tone (l : Str) (hl : ∀ u ∈ l, isDig u = true ∨ u ∈ 126 :: gapL) : normalizeDigitsOnly l = l.filter isDig := by
  induction l with
  | nil => rfl
  | cons u l ih =>
    have h2 := ih (fun v hv => hl v (by simp [hv]))
    unfold normalizeDigitsOnly normalizeDigits at h2 ⊢
    rw [List.flatMap_cons, h2]
    rcases hl u (by simp) with hu | hu
    · rw [rune_of_isDig hu, charDigit_of_isDig hu, List.filter_cons_of_pos hu]; rfl
    · rw [toneGap_rune u hu, toneGap_charDigit u hu, List.filter_cons_of_neg (by rw [toneGap_dig u hu]; simp)]; rfl

theorem toneLead_validBody {l t x : Str} (hl : l ∈ toneLeads) (ht : Spaced t) (h3 : 3 ≤ (t.filter isDig).length)
    (hx : x = [] ∨ ∀ p e, extBody.Acc p x e) : validBody.Acc 0 (l ++ t ++ x) [] := by
  obtain ⟨k, hk3, hk⟩ : ∃ k, 3 ≤ k ∧ ∀ (P : Nat → Str → Str → Prop),
      (∀ a u q f, (∀ v ∈ a, v ∈ 126 :: gapL) → isDig u = true → P q (a ++ [u]) f) → ∀ p e, iterP P k p (l ++ t) e := by
    have key : ∀ (P : Nat → Str → Str → Prop), (∀ a u q f, (∀ v ∈ a, v ∈ 126 :: gapL) → isDig u = true → P q (a ++ [u]) f) →
        ∀ p e, iterP P (t.filter isDig).length p ([32] ++ t) e := fun P hP p e =>
      iterP_spaced (fun a u q f ha hu => hP a u q f (fun v hv => List.mem_cons_of_mem _ (ha v hv)) hu) t ht.all [32] (by decide) ht.last p e
    simp only [toneLeads, List.mem_cons, List.not_mem_nil, or_false] at hl
    rcases hl with rfl | rfl
    · refine ⟨(t.filter isDig).length + 3, by omega, fun P hP p e => ?_⟩
      refine ⟨[56], (str!"~10 ") ++ t, by simp, hP [] 56 _ _ (by simp) (by decide), ?_⟩
      refine ⟨[126, 49], (str!"0 ") ++ t, by simp, hP [126] 49 _ _ (by simp) (by decide), ?_⟩
      exact ⟨[48], [32] ++ t, by simp, hP [] 48 _ _ (by simp) (by decide), key P hP _ _⟩
    · refine ⟨(t.filter isDig).length + 2, by omega, fun P hP p e => ?_⟩
      refine ⟨[48], (str!"~0 ") ++ t, by simp, hP [] 48 _ _ (by simp) (by decide), ?_⟩
      exact ⟨[126, 48], [32] ++ t, by simp, hP [126] 48 _ _ (by simp) (by decide), key P hP _ _⟩
  refine Or.inr ⟨[], l ++ t ++ x, rfl, ⟨0, by omega, by simp, rfl⟩, l ++ t, x, rfl,
    ⟨k, hk3, by simp, ?_⟩, [], x, by simp, ⟨0, by simp, by simp, rfl⟩, ?_⟩
  · refine hk _ ?_ _ _
    intro a u q f ha hu
    refine ⟨a, [u], rfl, acc_star_cls.2 (fun v hv => ?_), u, rfl, nd_of_isDig hu⟩
    have := ha v hv
    simp only [gapL, List.mem_cons, List.not_mem_nil, or_false] at this
    rcases this with rfl | rfl | rfl | rfl | rfl | rfl <;> decide +kernel
  · rcases hx with rfl | hx
    · exact ⟨0, by simp, by simp, rfl⟩
    · have h1 : ∀ q, validExt.Acc q x [] := fun q => by
        rw [← ungrp_acc, validExt_eq, ungrp_acc]; exact hx _ _
      exact acc_opt.2 (.inr (h1 _))

theorem toneLead_dial {l t : Str} (hl : l ∈ toneLeads) (ht : Spaced t) (h3 : 3 ≤ (t.filter isDig).length) : Dial (l ++ t) := by
  have hall : ∀ u ∈ l ++ t, isDig u = true ∨ u ∈ 126 :: gapL := by
    intro u hu
    rcases List.mem_append.1 hu with hu | hu
    · exact toneLeads_mem l hl u hu
    · exact (ht.all u hu).imp id (List.mem_cons_of_mem _)
  have hmem : ∀ u ∈ l ++ t, rune u ∈ toneL ∧ rune u ∉ plusL := by
    intro u hu
    rcases hall u hu with h | h
    · exact ⟨List.mem_cons_of_mem _ (List.mem_append_left _ (List.mem_append_left _ (plainL_of_isDig h))), dig_not_plus h⟩
    · exact ⟨toneGap_tone u h, toneGap_plus u h⟩
  refine ⟨?_, ?_, hmem, ?_, ?_, fun y hy => toneLead_validBody hl ht h3 hy, ?_⟩
  · obtain ⟨v, b, hb, hv⟩ : ∃ v b, l = v :: b ∧ isDig v = true := by
      simp only [toneLeads, List.mem_cons, List.not_mem_nil, or_false] at hl
      rcases hl with rfl | rfl
      · exact ⟨56, (str!"~10 "), rfl, rfl⟩
      · exact ⟨48, (str!"~0 "), rfl, rfl⟩
    exact ⟨v, b ++ t, by rw [hb]; rfl, hv⟩
  · obtain ⟨a, v, rfl, hv⟩ := ht.last
    exact ⟨l ++ a, v, by simp, hv⟩
  · have := Spaced.length h3
    simp; omega
  · have h1 : validAlphaPhonePattern.isMatch (l ++ t) = false := by
      have : validAlphaPhonePattern.find (l ++ t) = none :=
        find_none_of_needs (L := 126 :: sepL) (by decide +kernel) (fun u hu => by
          rcases hall u hu with h | h
          · exact List.mem_cons_of_mem _ (List.mem_append_left _ (plainL_of_isDig h))
          · exact (show ∀ u ∈ 126 :: gapL, rune u ∈ 126 :: sepL by decide) u h) 0
      simp [Re.isMatch, this]
    unfold Verif.normalize
    rw [h1]
    simp only [Bool.false_eq_true, if_false]
    exact normalizeDigitsOnly_tone _ hall
  · intro y d hy
    have hsep := ht.sep'
    have hall' := ht.all
    cases hy with
    | none =>
      rw [List.append_nil]
      unfold stripExtension
      cases hf : extnPattern.find (l ++ t) with
      | none => rfl
      | some m =>
        exfalso
        obtain ⟨a, w, e, k1, -, -, k4, -⟩ := findFrom_sound hf
        refine toneLead_not_ext (s := []) hl ?_ k1 (by simp) k4
        intro B2 w e p hB h ha
        obtain ⟨u, hu, hn⟩ := needs_acc sepL _ (by decide +kernel) _ _ _ ha
        have hu2 : u ∈ B2 := by
          have : u ∈ w ++ e := by simp [hu]
          rw [← h] at this; simpa using this
        rcases hB with ⟨k, hk, rfl⟩ | ⟨c, rfl⟩
        · rcases List.mem_append.1 hu2 with h | h
          · exact hn (gapDigits_sep (toneLead_rest l hl k hk) u h)
          · exact hn (hsep u h)
        · exact hn (hsep u (by simp [hu2]))
    | some x d hx hd h1 h2 =>
      have hv := toneLead_validBody hl ht h3 (x := []) (.inl rfl)
      have hlen := Spaced.length h3
      obtain ⟨a, v, rfl, hvd⟩ := ht.last
      have hvi : isViable ((l ++ a) ++ [v]) = true := isViable_of_acc (by simpa using hv) (by simp at hlen ⊢; omega)
      have h0 : d ≠ [] := by rintro rfl; simp at h1
      have := stripExtension_of (B := l ++ a) (v := v) hvi hx hd h1 h2 (by
        intro a' B2 w e p hs h
        refine toneLead_not_ext (s := [v] ++ (x.1 ++ d)) hl ?_ hs (by simpa using h)
        intro B2 w e p hB h
        refine ext_not_before (B := B2) (v := v) (Y := x.1 ++ d) ?_ hvd
          ⟨x.1 ++ d.dropLast, d.getLast h0, by rw [List.append_assoc, List.dropLast_concat_getLast h0], hd _ (List.getLast_mem h0)⟩ (by simpa using h)
        intro u hu
        rcases hB with ⟨k, hk, rfl⟩ | ⟨c, rfl⟩
        · rcases List.mem_append.1 hu with h | h
          · exact gapDigits_sep (toneLead_rest l hl k hk) u h
          · exact hsep u (by simp [h])
        · exact hsep u (by simp [hu]))
      simpa using this

/-! ## Parsing -/

theorem Dial.build {T y d : Str} (h : Dial T) (hy : ExtPart y d) : buildNationalNumber (T ++ y) = .ok (.ok (T ++ y)) := by
  have hmem : ∀ u ∈ T ++ y, rune u ∈ toneL := by
    intro u hu
    rcases List.mem_append.1 hu with hu | hu
    · exact (h.mem u hu).1
    · exact List.mem_cons_of_mem _ (hy.mem u hu)
  have h1 : indexOf (T ++ y) rfcPhoneContext = none :=
    indexOf_none_of_mem (c := 112) (by decide) (fun h => absurd (hmem _ h) (by decide))
  have h2 : indexOf (T ++ y) rfcIsub = none :=
    indexOf_none_of_mem (c := 98) (by decide) (fun h => absurd (hmem _ h) (by decide))
  have h3 : extractPossibleNumber (T ++ y) = T ++ y := by
    obtain ⟨x, hx, hx0⟩ := validStart_junk (junk := []) (t := T ++ y) (by simp) (by
      obtain ⟨v, b, rfl, hv⟩ := h.first
      exact ⟨v, b ++ y, rfl, hv⟩)
    obtain ⟨a, v, ha, hv⟩ : ∃ a v, T ++ y = a ++ [v] ∧ isDig v = true := by
      cases hy with
      | none =>
        obtain ⟨a, v, rfl, hv⟩ := h.last
        exact ⟨a, v, by simp, hv⟩
      | some x d hx hd g1 g2 =>
        have h0 : d ≠ [] := by rintro rfl; simp at g1
        refine ⟨T ++ (x.1 ++ d.dropLast), d.getLast h0, ?_, hd _ (List.getLast_mem h0)⟩
        conv => lhs; rw [← List.dropLast_concat_getLast h0]
        simp
    rw [List.nil_append] at hx
    unfold extractPossibleNumber
    rw [hx]
    simp only [hx0, List.length_nil, List.drop_zero]
    rw [ha, unwantedEnd_none a v hv, ← ha]
    simp only
    rw [show secondNumberStartPattern.find (T ++ y) = none from
      find_none_of_needs (L := toneL) (by decide +kernel) hmem 0]
  unfold buildNationalNumber
  simp only [h1, h3]
  simp [dropIsub, h2]

/-- Parsing a number with an international prefix that is recognised. -/
theorem parseCore_idd {C : Container} {r : Str} {m : Metadata} (hr : C.validRegion r = true) (hm : C.metaForRegion r = some m)
    {T y d rest : Str} (hT : Dial T) (hy : ExtPart y d) (h250 : blen (T ++ y) ≤ 250)
    (h : parsePrefixAsIdd m.internationalPrefix.re (T.filter isDig) = some rest) (hl : 2 < blen rest)
    (hc : (extractCC C rest).1 ≠ 0) :
    parseCore C (T ++ y) r true = (do
      match ← finishCore (extractCC C rest).2 (finishMeta C (extractCC C rest).1 r) with
      | .error e => return .error e
      | .ok (nsn, carrier) => return .ok ⟨(extractCC C rest).1, d, nsn, some .withIdd, carrier⟩) := by
  have hT0 : T ≠ [] := by obtain ⟨v, b, rfl, -⟩ := hT.first; simp
  have hvi : isViable (T ++ y) = true := isViable_of_acc (hT.viable y hy.acc) (by have := hT.two; simp; omega)
  have hone : extractOnce C T (some m) = .ok (.ok ((extractCC C rest).1, (extractCC C rest).2, .withIdd)) := by
    have hs : stripIntlPrefix T m.internationalPrefix.re = (rest, .withIdd) := by
      unfold stripIntlPrefix
      rw [if_neg hT0]
      simp only [plus_find_none T (fun u hu => (hT.mem u hu).2), hT.norm, h]
    unfold extractOnce
    simp only [hs]
    rw [if_pos (by simp), if_neg (by simp only [minLengthForNSN]; omega), if_pos hc]
  unfold parseCore
  rw [if_neg (by simp [hT0]), if_neg (by simp only [maxInputStringLength]; omega), hT.build hy]
  simp only [bind, Except.bind, hvi, checkRegion, hr, pure, Except.pure, Bool.true_or, Bool.not_true, Bool.and_false,
    Bool.false_eq_true, if_false, parseViable, hT.strip y d hy, extractCore, hm, hone, if_pos hc]
  cases finishCore (extractCC C rest).snd (finishMeta C (extractCC C rest).fst r) with
  | error p => rfl
  | ok v => cases v <;> rfl

/-! ## The static check -/

theorem capturing_digit {u : Nat} (hu : isDig u = true) (e : Str) :
    ∃ y ys, capturingDigitPattern.findAll (u :: e) = y :: ys ∧ y.start = 0 ∧ y.stop = 1 := by
  obtain ⟨c, hc⟩ : ∃ c, capturingDigitPattern = .grp 1 (.cls c) := ⟨_, rfl⟩
  have hm : c.mem u = true := by
    have : capturingDigitPattern.canStart u = true := by
      rcases isDig_cases hu with rfl | rfl | rfl | rfl | rfl | rfl | rfl | rfl | rfl | rfl <;> decide +kernel
    rw [hc] at this; exact this
  have hf : capturingDigitPattern.findFrom 0 (u :: e) = some ⟨0, 1, [(1, 0, 1)]⟩ := by
    rw [Re.findFrom, matchAt_eq, hc]
    simp [Re.runs, hm]
  refine ⟨⟨0, 1, [(1, 0, 1)]⟩, findAllLoop capturingDigitPattern (u :: e) ((u :: e).length + 1) 1 (some 1), ?_, rfl, rfl⟩
  unfold Re.findAll
  rw [show (u :: e).length + 2 = ((u :: e).length + 1) + 1 from rfl, findAllLoop, if_neg (by simp), List.drop_zero, hf]
  simp only [Nat.one_ne_zero, if_false]

/-- The international prefix is seen and nothing more or less than it is taken off. -/
theorem idd_some {idd : Re} (hi : idd.noAnchor = true) {f : Nat} {p : Str} (hp : ∀ u ∈ p, isDig u = true)
    (hf : idd.full.isMatch p = true) (h : heads (fun k _ => Nat.beq k p.length) f 0 [idd] [[afterLit p codeFirst]] = true)
    {v : Nat} {e : Str} (hv : isDig v = true) (hv0 : v ≠ 48) (he : ∀ u ∈ e, isDig u = true) :
    parsePrefixAsIdd idd (p ++ v :: e) = some (v :: e) := by
  have hall : ∀ u ∈ p ++ v :: e, isDig u = true := by
    intro u hu
    rcases List.mem_append.1 hu with hu | hu
    · exact hp u hu
    · rcases List.mem_cons.1 hu with rfl | hu
      · exact hv
      · exact he u hu
  have hna : codeFirst.noAnchor = true := by decide
  have hlang : codeFirst.Acc 0 (v :: e) [] := by
    refine ⟨[v], e, rfl, ⟨v, rfl, ?_⟩, acc_star_cls.2 fun u hu => ?_⟩
    · have := rune_of_isDig hv
      simp only [isDig, Bool.and_eq_true, decide_eq_true_eq] at hv
      simp [Cls.mem, Cls.has, inRanges, this]; omega
    · have h1 := he u hu
      have := rune_of_isDig h1
      simp only [isDig, Bool.and_eq_true, decide_eq_true_eq] at h1
      simp [Cls.mem, Cls.has, inRanges, this]; omega
  have hacc : idd.Acc 0 p (v :: e) := noAnchor_acc hi ((full_isMatch_iff _ _).1 hf)
  unfold parsePrefixAsIdd
  cases hx : idd.find (p ++ v :: e) with
  | none => exact absurd hacc (findFrom_none hx [] p (v :: e) rfl)
  | some x =>
    obtain ⟨a, w, e', h1, h2, h3, h4, -⟩ := findFrom_sound hx
    have h0 : x.start = 0 := by
      rcases Nat.eq_zero_or_pos x.start with h | h
      · exact h
      · exact absurd hacc (findFrom_leftmost hx [] p (v :: e) rfl (by simpa using h))
    have ha : a = [] := List.length_eq_zero_iff.mp (by omega)
    subst ha
    simp only [List.nil_append] at h1
    obtain ⟨Gs', k1, -, -⟩ := heads_sound h (by simpa using hi)
      (fun G hG r hr => by
        rw [List.mem_singleton.1 hG] at hr
        rw [List.mem_singleton.1 hr]
        exact afterLit_noAnchor hna) (w := w) (e := e')
      (fun u hu => hall u (by rw [h1]; simp [hu])) ⟨idd, by simp, noAnchor_acc hi h4⟩ (fun G hG => by
        rw [List.mem_singleton.1 hG, ← h1]
        exact ⟨_, by simp, afterLit_acc hp hna hlang 0⟩)
    have hw : w.length = p.length := by simpa using k1
    have hstop : x.stop = p.length := by omega
    dsimp only
    rw [if_neg (by simp [h0]), hstop, List.drop_left]
    obtain ⟨y, ys, hy, hy0, hy1⟩ := capturing_digit hv e
    rw [hy]
    simp only [hy0, hy1]
    rw [if_neg]
    simp only [slice, List.drop_zero, Nat.sub_zero, List.take_succ_cons, List.take_zero]
    rw [normalizeDigitsOnly_of_digits (by simpa using hv)]
    simpa using hv0

/-! ## Within the North American plan -/

theorem plainRules_text {M : Metadata} (h : plainRules M = true) {nsn : Str} (hd : ∀ u ∈ nsn, isDig u = true) (hne : nsn ≠ []) :
    (∀ u ∈ formatNsn nsn (some M) .national [], isDig u = true ∨ u ∈ gapL) ∧
      (∃ a v, formatNsn nsn (some M) .national [] = a ++ [v] ∧ isDig v = true) ∧
      (formatNsn nsn (some M) .national []).length ≤ nsn.length + 120 ∧
      (formatNsn nsn (some M) .national []).filter isDig = nsn := by
  unfold formatNsn
  simp only [or_true, if_true]
  cases hc : chooseFormat M.formats nsn with
  | none =>
    obtain ⟨v, hv⟩ := List.getLast?_isSome.2 hne |> Option.isSome_iff_exists.1
    obtain ⟨b, hb⟩ := List.getLast?_eq_some_iff.1 hv
    exact ⟨fun u hu => .inl (hd u hu), ⟨b, v, hb, hd v (by rw [hb]; simp)⟩, by simp, List.filter_eq_self.2 hd⟩
  | some p =>
    obtain ⟨h3, h4⟩ := chooseFormat_acc _ _ _ hc
    have h5 := List.all_eq_true.1 h p h3
    rw [Bool.and_eq_true] at h5
    obtain ⟨k1, k2, k3, k4⟩ := natRule_text h5.1 hd h4
    rw [show natDigits p = [] by simpa using h5.2, List.nil_append] at k4
    exact ⟨k1, k2, k3, k4⟩

theorem tenSafe_find {r : Re} (h : r.alts.all tenSafe = true) {u : Nat} {e : Str} (hu : isDig u = true) (h2 : 50 ≤ u) (hl : e.length = 9) :
    r.atStart.find (u :: e) = none := by
  cases hx : r.atStart.find (u :: e) with
  | none => rfl
  | some x =>
    exfalso
    obtain ⟨y, w, e', h1, h2', h3, h4, -⟩ := findFrom_sound hx
    obtain ⟨w1, w2, hw, ⟨h5, rfl⟩, h6⟩ := h4
    simp only [List.nil_append] at hw
    subst hw
    have hy : y = [] := List.length_eq_zero_iff.mp (by omega)
    subst hy
    obtain ⟨a, ha1, ha2⟩ := alts_acc h6
    have hs := List.all_eq_true.1 h a ha1
    simp only [tenSafe, Bool.and_eq_true, Bool.or_eq_true, Nat.blt_eq] at hs
    obtain ⟨hm, hs⟩ := hs
    have hmin := minLen_acc _ _ _ _ ha2
    cases w with
    | nil => simp at hmin; omega
    | cons v w =>
      simp only [List.nil_append, List.cons_append, List.cons.injEq] at h1
      obtain ⟨rfl, h1⟩ := h1
      rcases hs with ⟨h7, h8⟩ | h7
      · have he := endsEos_acc h7 ha2
        subst he
        split at h8
        · cases h8
        · rename_i ls hls
          have := lens_acc _ _ hls _ _ _ ha2
          simp only [List.append_nil] at h1
          subst h1
          simp only [Bool.not_eq_true', List.any_eq_false] at h8
          exact h8 _ this (by simp [hl])
      · have hc := canStart_acc ha2
        have hmem : u ∈ [50, 51, 52, 53, 54, 55, 56, 57] := by
          rcases isDig_cases hu with rfl | rfl | rfl | rfl | rfl | rfl | rfl | rfl | rfl | rfl <;> first | omega | decide
        have := List.all_eq_true.1 h7 u hmem
        rw [hc] at this; cases this

theorem nanpa_once {C : Container} {m : Metadata} (hm : nanpaOk m = true) (hl : lengthTablesOk m = true) {t : Str} (ht : Spaced t) {u : Nat} {e : Str}
    (hf : t.filter isDig = 49 :: u :: e) (h2 : 50 ≤ u) (h9 : e.length = 9) :
    extractOnce C t (some m) = .ok (.ok (1, u :: e, .withoutPlusSign)) := by
  have hd : ∀ v ∈ 49 :: u :: e, isDig v = true := by rw [← hf]; exact fun v hv => (List.mem_filter.1 hv).2
  obtain ⟨g, hg, h3, h4, h5, h6⟩ := lengthTablesOk_general hl
  simp only [nanpaOk, hg, Bool.and_eq_true, Bool.not_eq_true', decide_eq_true_eq, Nat.blt_eq, List.all_eq_true, Nat.ble_eq] at hm
  obtain ⟨⟨⟨⟨⟨⟨⟨⟨a1, a2⟩, a3⟩, -⟩, -⟩, a4⟩, a5⟩, a6⟩, a7⟩ := hm
  have hidd : parsePrefixAsIdd m.internationalPrefix.re (t.filter isDig) = none := by
    rw [hf]
    unfold parsePrefixAsIdd
    cases hx : m.internationalPrefix.re.find (49 :: u :: e) with
    | none => rfl
    | some x =>
      obtain ⟨a, w, e', k1, k2, k3, k4, -⟩ := findFrom_sound hx
      dsimp only
      split
      · rfl
      · rename_i h0
        exfalso
        have h0 : x.start = 0 := by simpa using h0
        have ha : a = [] := List.length_eq_zero_iff.mp (by omega)
        subst ha
        have hmin := minLen_acc _ _ _ _ k4
        cases w with
        | nil => simp at hmin; omega
        | cons v w =>
          simp only [List.nil_append, List.cons_append, List.cons.injEq] at k1
          have := canStart_acc k4
          rw [← k1.1, a5] at this; cases this
  have hlong : testNumberLength (49 :: u :: e) (some m) .unknown = .ok .tooLong := by
    obtain ⟨r, hr, hc⟩ := testLengths_spec g.lengths g.localLengths ((49 :: u :: e).length) h3 h5 h6
    have : r = .tooLong := hc.unique (.tooLong (by intro h; simp [h] at a1) (fun hmem => by
      have := a3 _ hmem
      simp [h9] at this) (fun l hl => by
      have := a2 _ hl
      simp [h9]; omega))
    subst this
    rw [← hr]
    simp [testNumberLength, testNumberLengthSimple, descByType, lengthsOf, hg, blen_digits hd, h3, bind, Except.bind]
  have hnp : (stripNationalPrefix (u :: e) m).2.1 = u :: e := by
    unfold stripNationalPrefix
    split
    · rfl
    · rw [tenSafe_find (List.all_eq_true.2 a7) (hd u (by simp)) h2 h9]
  have hs : stripIntlPrefix t m.internationalPrefix.re = (49 :: u :: e, .defaultCountry) := by
    unfold stripIntlPrefix
    have hp : plusCharsPattern.find t = none := plus_find_none t (fun u hu => by
      rcases ht.all u hu with h | h
      · exact dig_not_plus h
      · exact gapL_plus u h)
    have h0 : t ≠ [] := by obtain ⟨v, b, rfl, -⟩ := ht.first; simp
    rw [if_neg h0]
    rw [hf] at hidd
    simp only [hp, ht.normalize, hf, hidd]
  have hdec : decInt 1 = [49] := rfl
  unfold extractOnce
  simp only [hs, a4, hdec]
  rw [if_neg (by simp), if_pos (by simp [hasPrefix])]
  simp only [List.length_singleton, List.drop_succ_cons, List.drop_zero, hnp, hlong, bind, Except.bind, pure, Except.pure]
  rw [if_pos (Or.inr trivial)]

/-- Parsing a number of the North American plan written with 1 in front of it. -/
theorem parseCore_nanpa {C : Container} {r : Str} {m : Metadata} (hr : C.validRegion r = true) (hm : C.metaForRegion r = some m)
    (hok : nanpaOk m = true) (hl : lengthTablesOk m = true)
    {junk t y d e : Str} {u : Nat} (hj : ∀ u ∈ junk, u ∈ gapL) (ht : Spaced t) (hy : ExtPart y d) (h250 : blen (junk ++ (t ++ y)) ≤ 250)
    (hf : t.filter isDig = 49 :: u :: e) (h2 : 50 ≤ u) (h9 : e.length = 9) :
    parseCore C (junk ++ (t ++ y)) r true = (do
      match ← finishCore (u :: e) (finishMeta C 1 r) with
      | .error e => return .error e
      | .ok (nsn, carrier) => return .ok ⟨1, d, nsn, some .withoutPlusSign, carrier⟩) := by
  have h3 : 3 ≤ (t.filter isDig).length := by rw [hf]; simp; omega
  have hT := ht.dial h3
  have hT0 : t ≠ [] := by obtain ⟨v, b, rfl, -⟩ := hT.first; simp
  have hvi : isViable (t ++ y) = true := isViable_of_acc (hT.viable y hy.acc) (by have := hT.two; simp; omega)
  have hone := nanpa_once (C := C) hok hl ht hf h2 h9
  unfold parseCore
  rw [if_neg (by simp [hT0]), if_neg (by simp only [maxInputStringLength]; omega), build_national hj ht hy]
  simp only [bind, Except.bind, hvi, checkRegion, hr, pure, Except.pure, Bool.true_or, Bool.not_true, Bool.and_false,
    Bool.false_eq_true, if_false, parseViable, hT.strip y d hy, extractCore, hm, hone]
  rw [if_pos (by decide)]
  cases finishCore (u :: e) (finishMeta C 1 r) with
  | error p => rfl
  | ok v => cases v <;> rfl

end Verif
