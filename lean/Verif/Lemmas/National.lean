import Verif.Spec.National
import Verif.Lemmas.NationalPrefix
import Verif.Lemmas.Example
/-!
# Numbers written for use within a country
-/
namespace Verif
open Spec

/-! ## Digits with separators, without a plus sign -/

theorem Spaced.sep' {t : Str} (h : Spaced t) : ∀ u ∈ t, rune u ∈ sepL := fun u hu => h.sep u (by simp [hu])

theorem Spaced.validBody' {t x : Str} (ht : Spaced t) (h3 : 3 ≤ (t.filter isDig).length)
    (hx : x = [] ∨ ∀ p e, extBody.Acc p x e) : Verif.validBody.Acc 0 (t ++ x) [] := by
  refine Or.inr ⟨[], t ++ x, rfl, ⟨0, by omega, by simp, rfl⟩, t, x, rfl,
    ⟨(t.filter isDig).length, h3, by simp, ?_⟩, [], x, by simp, ⟨0, by simp, by simp, rfl⟩, ?_⟩
  · have := fun P hP => iterP_spaced (P := P) hP t ht.all [] (by simp) ht.last
    refine this _ ?_ _ _
    intro a u q f ha hu
    refine ⟨a, [u], rfl, acc_star_cls.2 (fun v hv => ?_), u, rfl, nd_of_isDig hu⟩
    have := ha v hv
    simp only [gapL, List.mem_cons, List.not_mem_nil, or_false] at this
    rcases this with rfl | rfl | rfl | rfl | rfl <;> decide +kernel
  · rcases hx with rfl | hx
    · exact ⟨0, by simp, by simp, rfl⟩
    · have h1 : ∀ q, validExt.Acc q x [] := fun q => by
        rw [← ungrp_acc, validExt_eq, ungrp_acc]; exact hx _ _
      exact acc_opt.2 (.inr (h1 _))

theorem Spaced.length {t : Str} (h3 : 3 ≤ (t.filter isDig).length) : 3 ≤ t.length :=
  Nat.le_trans h3 (List.length_filter_le _ _)

theorem ExtPart.last' {y d t : Str} (h : ExtPart y d) (ht : Spaced t) : ∃ a v, t ++ y = a ++ [v] ∧ isDig v = true := by
  cases h with
  | none =>
    obtain ⟨a, v, rfl, hv⟩ := ht.last
    exact ⟨a, v, by simp, hv⟩
  | some x d hx hd h1 h2 =>
    have h0 : d ≠ [] := by rintro rfl; simp at h1
    refine ⟨t ++ (x.1 ++ d.dropLast), d.getLast h0, ?_, hd _ (List.getLast_mem h0)⟩
    conv => lhs; rw [← List.dropLast_concat_getLast h0]
    simp

theorem ExtPart.strip' {y d t : Str} (h : ExtPart y d) (ht : Spaced t) (h3 : 3 ≤ (t.filter isDig).length) :
    stripExtension (t ++ y) = (d, t) := by
  cases h with
  | none =>
    rw [List.append_nil]
    unfold stripExtension
    rw [show extnPattern.find t = Option.none from find_none_of_needs (L := sepL) (by decide +kernel) ht.sep' 0]
  | some x d hx hd h1 h2 =>
    have hv := ht.validBody' h3 (.inl rfl)
    have hl := Spaced.length h3
    have hsep := ht.sep'
    obtain ⟨a, v, rfl, hvd⟩ := ht.last
    have hvi : isViable (a ++ [v]) = true := isViable_of_acc (by simpa using hv) (by omega)
    exact stripExtension_written (B := a) (v := v) (fun u hu => hsep u (by simp [hu])) hvd hvi hx hd h1 h2

theorem gapL_start : ∀ u ∈ gapL, validStartCharPattern.canStart u = false := by decide +kernel

theorem validStart_junk {junk t : Str} (hj : ∀ u ∈ junk, u ∈ gapL) (ht : ∃ v b, t = v :: b ∧ isDig v = true) :
    ∃ x, validStartCharPattern.find (junk ++ t) = some x ∧ x.start = junk.length := by
  obtain ⟨v, b, rfl, hv⟩ := ht
  obtain ⟨c, hc⟩ : ∃ c, validStartCharPattern = .cls c := ⟨_, rfl⟩
  have hm : c.mem v = true := by
    have : validStartCharPattern.canStart v = true := by
      rcases isDig_cases hv with rfl | rfl | rfl | rfl | rfl | rfl | rfl | rfl | rfl | rfl <;> decide +kernel
    rw [hc] at this; exact this
  have key : ∀ p, validStartCharPattern.findFrom p (v :: b) = some ⟨p, p + 1, []⟩ := by
    intro p
    rw [Re.findFrom, hc, Re.matchAt, cls_m_cons, if_pos hm]
  refine ⟨⟨junk.length, junk.length + 1, []⟩, ?_, rfl⟩
  unfold Re.find
  rw [findFrom_skip (by decide +kernel) (fun u hu => gapL_start u (hj u hu)), Nat.zero_add, key]

theorem extL_not' (c : Nat) (hc : rune c ∉ extL) {t y d : Str} (ht : Spaced t) (hy : ExtPart y d) : c ∉ t ++ y := by
  intro h
  rcases List.mem_append.1 h with h | h
  · exact hc (List.mem_append_left _ (ht.sep' c h))
  · exact hc (hy.mem c h)

theorem build_national {junk t y d : Str} (hj : ∀ u ∈ junk, u ∈ gapL) (ht : Spaced t) (hy : ExtPart y d) :
    buildNationalNumber (junk ++ (t ++ y)) = .ok (.ok (t ++ y)) := by
  have h1 : indexOf (junk ++ (t ++ y)) rfcPhoneContext = none :=
    indexOf_none_of_mem (c := 112) (by decide) (by
      intro h
      rcases List.mem_append.1 h with h | h
      · exact absurd (hj _ h) (by decide)
      · exact extL_not' 112 (by decide) ht hy h)
  have h2 : indexOf (t ++ y) rfcIsub = none :=
    indexOf_none_of_mem (c := 98) (by decide) (extL_not' 98 (by decide) ht hy)
  have h3 : extractPossibleNumber (junk ++ (t ++ y)) = t ++ y := by
    obtain ⟨x, hx, hx0⟩ := validStart_junk (t := t ++ y) hj (by
      obtain ⟨v, b, rfl, hv⟩ := ht.first
      exact ⟨v, b ++ y, rfl, hv⟩)
    obtain ⟨a, v, ha, hv⟩ := hy.last' ht
    unfold extractPossibleNumber
    rw [hx]
    simp only [hx0, List.drop_left]
    rw [ha, unwantedEnd_none a v hv, ← ha]
    simp only
    rw [show secondNumberStartPattern.find (t ++ y) = none from
      find_none_of_needs (L := extL) (by decide +kernel) (fun u hu => by
        rcases List.mem_append.1 hu with h | h
        · exact List.mem_append_left _ (ht.sep' u h)
        · exact hy.mem u h) 0]
  unfold buildNationalNumber
  simp only [h1, h3]
  simp [dropIsub, h2]

theorem extractOnce_spaced {C : Container} {m : Metadata} {t : Str} (ht : Spaced t)
    (h : parsePrefixAsIdd m.internationalPrefix.re (t.filter isDig) = none) (hc : takesCC m (t.filter isDig) = false) :
    extractOnce C t (some m) = .ok (.ok (0, [], .defaultCountry)) := by
  have hs : ∀ idd, parsePrefixAsIdd idd (t.filter isDig) = none →
      stripIntlPrefix t idd = stripIntlPrefix (t.filter isDig) idd := by
    intro idd h
    rw [stripIntlPrefix_plain (fun u hu => (List.mem_filter.1 hu).2) h]
    unfold stripIntlPrefix
    have hp : plusCharsPattern.find t = none := plus_find_none t (fun u hu => by
      rcases ht.all u hu with h | h
      · exact dig_not_plus h
      · exact gapL_plus u h)
    have h0 : t ≠ [] := by obtain ⟨v, b, rfl, -⟩ := ht.first; simp
    rw [if_neg h0]
    simp only [hp, ht.normalize, h]
  have := extractOnce_plain (C := C) (m := m) (d := t.filter isDig) (fun u hu => (List.mem_filter.1 hu).2) h hc
  unfold extractOnce at this ⊢
  simp only [hs _ h]
  exact this

/-- Parsing a number written for use within the region. -/
theorem parseCore_national {C : Container} {r : Str} {m : Metadata} (hr : C.validRegion r = true) (hm : C.metaForRegion r = some m)
    {junk t y d nsn c : Str} (hj : ∀ u ∈ junk, u ∈ gapL) (ht : Spaced t) (hy : ExtPart y d) (h3 : 3 ≤ (t.filter isDig).length)
    (h250 : blen (junk ++ (t ++ y)) ≤ 250) (h : parsePrefixAsIdd m.internationalPrefix.re (t.filter isDig) = none)
    (hc : takesCC m (t.filter isDig) = false) (hf : finishCore (t.filter isDig) (some m) = .ok (.ok (nsn, c))) :
    parseCore C (junk ++ (t ++ y)) r true = .ok (.ok ⟨m.countryCode, d, nsn, some .defaultCountry, c⟩) := by
  have hr0 : r ≠ [] := by rintro rfl; simp [Container.validRegion] at hr
  have hl := Spaced.length h3
  have hvi : isViable (t ++ y) = true := isViable_of_acc (ht.validBody' h3 hy.acc) (by simp; omega)
  have hx := extractOnce_spaced (C := C) ht h hc
  have hne : junk ++ (t ++ y) ≠ [] := by
    obtain ⟨v, b, rfl, -⟩ := ht.first; simp
  unfold parseCore
  rw [if_neg hne, if_neg (by simp only [maxInputStringLength]; omega), build_national hj ht hy]
  simp only [bind, Except.bind, hvi, checkRegion, hr, pure, Except.pure, Bool.true_or,
    Bool.not_true, Bool.and_false, Bool.false_eq_true, if_false, parseViable, hy.strip' ht h3, extractCore, hx, hm,
    ne_eq, not_true_eq_false, List.nil_append, ht.normalize, hf, hr0, not_false_eq_true, if_true]

/-! ## The static check -/

theorem testNumberLength_possible {m : Metadata} (hl : lengthTablesOk m = true) {s : Str} (hs : ∀ u ∈ s, isDig u = true) {g : Desc}
    (hg : m.general = some g) (h1 : (s.length : Int) ∈ g.lengths) (h2 : (s.length : Int) ∉ g.localLengths) :
    testNumberLength s (some m) .unknown = .ok .isPossible := by
  obtain ⟨g', hg', h3, h4, h5, h6⟩ := lengthTablesOk_general hl
  obtain rfl : g = g' := by rw [hg] at hg'; exact Option.some.inj hg'
  obtain ⟨r, hr, hc⟩ := testLengths_spec g.lengths g.localLengths (s.length) h3 h5 h6
  have : r = .isPossible := hc.unique (.possible h2 h1)
  subst this
  rw [← hr]
  simp [testNumberLength, testNumberLengthSimple, descByType, lengthsOf, hg, blen_digits hs, h3, bind, Except.bind]

theorem afterLit_noAnchor {b : Str} {r : Re} (h : r.noAnchor = true) : (afterLit b r).noAnchor = true := by
  induction b with
  | nil => exact h
  | cons u b ih => simpa [afterLit, Re.noAnchor] using ih

theorem afterLit_acc {b : Str} (hb : ∀ u ∈ b, isDig u = true) {r : Re} (hr : r.noAnchor = true) {w : Str} (h : r.Acc 0 w []) (p : Nat) :
    (afterLit b r).Acc p (b ++ w) [] := by
  induction b generalizing p with
  | nil => exact noAnchor_acc hr h
  | cons u b ih =>
    have hu : rune u = u := rune_of_isDig (hb u (by simp))
    exact ⟨[u], b ++ w, rfl, ⟨u, rfl, by simp [Cls.mem, Cls.has, inRanges, hu]⟩, ih (fun v hv => hb v (by simp [hv])) _⟩

theorem afterLit_any {b : Str} (hb : ∀ u ∈ b, isDig u = true) {Gs : List (List Re)} {w : Str}
    (h : ∀ G ∈ Gs, (∀ r ∈ G, r.noAnchor = true) ∧ AccAny G w) :
    ∀ G ∈ Gs.map (·.map (afterLit b)), (∀ r ∈ G, r.noAnchor = true) ∧ AccAny G (b ++ w) := by
  intro G hG
  obtain ⟨G0, h0, rfl⟩ := List.mem_map.1 hG
  obtain ⟨h1, r, hr, ha⟩ := h G0 h0
  refine ⟨fun r' hr' => ?_, afterLit b r, List.mem_map_of_mem hr, afterLit_acc hb (h1 r hr) ha 0⟩
  obtain ⟨r0, hr0, rfl⟩ := List.mem_map.1 hr'
  exact afterLit_noAnchor (h1 r0 hr0)

theorem lensApart_sound {Gs : List (List Re)} (h : lensApart Gs = true) {w : Str} : ¬ ∀ G ∈ Gs, AccAny G w := by
  intro hc
  have key : ∀ l ∈ Gs.filterMap lensAny, w.length ∈ l := by
    intro l hl
    obtain ⟨G, hG, hl⟩ := List.mem_filterMap.1 hl
    exact lensAny_acc hl (hc G hG)
  unfold lensApart at h
  split at h
  · cases h
  · rename_i l ls hls
    rw [hls] at key
    have h1 := List.all_eq_true.1 h _ (key l (by simp))
    obtain ⟨l', hl', h2⟩ := List.any_eq_true.1 h1
    simp only [Bool.not_eq_true', List.any_eq_false] at h2
    exact h2 _ (key l' (by simp [hl'])) (Nat.beq_refl _)

theorem apart_sound {f : Nat} {Gs : List (List Re)} (h : apart f Gs = true) (hG : ∀ G ∈ Gs, ∀ r ∈ G, r.noAnchor = true) {w : Str}
    (hw : ∀ u ∈ w, isDig u = true) : ¬ ∀ G ∈ Gs, AccAny G w := by
  intro hc
  induction f generalizing Gs w with
  | zero => exact lensApart_sound h hc
  | succ f ih =>
    rw [apart, Bool.or_eq_true, Bool.and_eq_true] at h
    rcases h with h | h
    · exact lensApart_sound h hc
    cases w with
    | nil =>
      have : Gs.all (·.any (·.nullable)) = true := by
        rw [List.all_eq_true]
        intro G hG
        obtain ⟨r, hr, ha⟩ := hc G hG
        exact List.any_eq_true.2 ⟨r, hr, nullable_acc ha⟩
      simp [this] at h
    | cons u w =>
      have hu := List.all_eq_true.1 h.2 u (mem_digitUnits (hw u (by simp)))
      refine ih hu (fun G hg => ?_) (w := w) (fun v hv => hw v (by simp [hv])) (fun G hg => ?_)
      · obtain ⟨G0, h0, rfl⟩ := List.mem_map.1 hg
        exact pds_noAnchor (hG G0 h0) u
      · obtain ⟨G0, h0, rfl⟩ := List.mem_map.1 hg
        exact pds_acc (hG G0 h0) (hc G0 h0)

theorem startsZero_sound {Gs : List (List Re)} (h : startsZero Gs = true) (hG : ∀ G ∈ Gs, ∀ r ∈ G, r.noAnchor = true) {w : Str}
    (hw : ∀ u ∈ w, isDig u = true) (hc : ∀ G ∈ Gs, AccAny G w) : ∃ e, w = 48 :: e := by
  simp only [startsZero, Bool.and_eq_true, Bool.not_eq_true'] at h
  cases w with
  | nil =>
    have : Gs.all (·.any (·.nullable)) = true := by
      rw [List.all_eq_true]
      intro G hG
      obtain ⟨r, hr, ha⟩ := hc G hG
      exact List.any_eq_true.2 ⟨r, hr, nullable_acc ha⟩
    rw [this] at h; cases h.1
  | cons u w =>
    by_cases hu : u = 48
    · exact ⟨w, by rw [hu]⟩
    · exfalso
      have hm : u ∈ [49, 50, 51, 52, 53, 54, 55, 56, 57] := by
        rcases isDig_cases (hw u (by simp)) with rfl | rfl | rfl | rfl | rfl | rfl | rfl | rfl | rfl | rfl <;> first | exact absurd rfl hu | decide
      have h1 := List.all_eq_true.1 h.2 u hm
      have hG' : ∀ G ∈ Gs.map (pds u), ∀ r ∈ G, r.noAnchor = true := by
        intro G hg
        obtain ⟨G0, h0, rfl⟩ := List.mem_map.1 hg
        exact pds_noAnchor (hG G0 h0) u
      have hc' : ∀ G ∈ Gs.map (pds u), AccAny G w := by
        intro G hg
        obtain ⟨G0, h0, rfl⟩ := List.mem_map.1 hg
        exact pds_acc (hG G0 h0) (hc G0 h0)
      rw [Bool.or_eq_true] at h1
      rcases h1 with h1 | h1
      · exact lensApart_sound h1 hc'
      · exact noCommon_sound h1 hG' (fun v hv => hw v (by simp [hv])) hc'

theorem capturing_zero (e : Str) : ∃ y ys, capturingDigitPattern.findAll (48 :: e) = y :: ys ∧ y.start = 0 ∧ y.stop = 1 := by
  obtain ⟨c, hc⟩ : ∃ c, capturingDigitPattern = .grp 1 (.cls c) := ⟨_, rfl⟩
  have hm : c.mem 48 = true := by
    have : capturingDigitPattern.canStart 48 = true := by decide +kernel
    rw [hc] at this; exact this
  have hf : capturingDigitPattern.findFrom 0 (48 :: e) = some ⟨0, 1, [(1, 0, 1)]⟩ := by
    rw [Re.findFrom, matchAt_eq, hc]
    simp [Re.runs, hm]
  refine ⟨⟨0, 1, [(1, 0, 1)]⟩, findAllLoop capturingDigitPattern (48 :: e) ((48 :: e).length + 1) 1 (some 1), ?_, rfl, rfl⟩
  unfold Re.findAll
  rw [show (48 :: e).length + 2 = ((48 :: e).length + 1) + 1 from rfl, findAllLoop, if_neg (by simp), List.drop_zero, hf]
  simp only [Nat.one_ne_zero, if_false]

/-- No international prefix is seen. -/
theorem idd_none {idd : Re} {Gs : List (List Re)} (hi : idd.noAnchor = true) {f : Nat}
    (h : heads (fun _ Gs => startsZero Gs) f 0 [idd] Gs = true) {s : Str} (hs : ∀ u ∈ s, isDig u = true)
    (hG : ∀ G ∈ Gs, (∀ r ∈ G, r.noAnchor = true) ∧ AccAny G s) : parsePrefixAsIdd idd s = none := by
  unfold parsePrefixAsIdd
  cases hf : idd.find s with
  | none => rfl
  | some x =>
    obtain ⟨a, w, e, h1, h2, h3, h4, -⟩ := findFrom_sound hf
    dsimp only
    split
    · rfl
    · rename_i h0
      have h0 : x.start = 0 := by simpa using h0
      have ha : a = [] := List.length_eq_zero_iff.mp (by omega)
      subst ha
      simp only [List.nil_append] at h1
      have hd : s.drop x.stop = e := by rw [h1, h3, h0]; simp
      obtain ⟨Gs', k1, k2, k3⟩ := heads_sound h (by simpa using hi) (fun G hg => (hG G hg).1) (w := w) (e := e)
        (fun u hu => hs u (by rw [h1]; simp [hu])) ⟨idd, by simp, noAnchor_acc hi h4⟩ (fun G hg => by rw [← h1]; exact (hG G hg).2)
      obtain ⟨e', rfl⟩ := startsZero_sound k1 k2 (w := e) (fun u hu => hs u (by rw [h1]; simp [hu])) k3
      obtain ⟨y, ys, hy, hy0, hy1⟩ := capturing_zero e'
      rw [hd, hy]
      simp only [hy0, hy1]
      rw [if_pos]
      simp only [slice, List.drop_zero, Nat.sub_zero, List.take_succ_cons, List.take_zero]
      decide +kernel

theorem onlyOrLong_acc {mx : Nat} {b : Str} {A : List Re} (hA : ∀ r ∈ A, r.noAnchor = true) (h : onlyOrLong mx b A = true) {y w e : Str}
    (he : b ++ y = w ++ e) (ha : AccAny A w) (hy : y.length = mx := by simp) : w.length = b.length := by
  induction b generalizing A w with
  | nil =>
    obtain ⟨r, hr, ha⟩ := ha
    have h := List.all_eq_true.1 h r hr
    cases hl : r.lens with
    | none => simp [hl] at h
    | some ls =>
      simp only [hl, List.all_eq_true, Bool.or_eq_true, Nat.beq_eq, Nat.blt_eq] at h
      have := congrArg List.length he
      simp only [List.nil_append, List.length_append] at this
      rcases h _ (lens_acc r ls hl _ _ _ ha) with h | h
      · simpa using h
      · omega
  | cons u b ih =>
    simp only [onlyOrLong, Bool.and_eq_true, Bool.not_eq_true', List.any_eq_false] at h
    cases w with
    | nil =>
      obtain ⟨r, hr, ha⟩ := ha
      exact absurd (nullable_acc ha) (h.1 r hr)
    | cons v w =>
      simp only [List.cons_append, List.cons.injEq] at he
      obtain ⟨rfl, he⟩ := he
      simp [ih (pds_noAnchor hA _) h.2 he (pds_acc hA ha)]

theorem readsBack_parts {m : Metadata} {b : Str} {Xs : List (List Re)} (h : readsBack m b Xs = true) (hb : ∀ u ∈ b, isDig u = true)
    {nsn : Str} (hd : ∀ u ∈ nsn, isDig u = true) (hX : ∀ G ∈ Xs, AccAny G nsn) (hk : OfKind m nsn) {g : Desc} (hg : m.general = some g)
    (hcc : ∀ u ∈ decInt m.countryCode, isDig u = true)
    (hl : lengthTablesOk m = true) (hloc : (nsn.length : Int) ∈ g.lengths ∧ (nsn.length : Int) ∉ g.localLengths) :
    parsePrefixAsIdd m.internationalPrefix.re (b ++ nsn) = none ∧ takesCC m (b ++ nsn) = false ∧
      ∃ c, stripStage (b ++ nsn) (some m) = .ok (nsn, c) := by
  have hbd : ∀ u ∈ b ++ nsn, isDig u = true := by
    intro u hu
    rcases List.mem_append.1 hu with hu | hu
    · exact hb u hu
    · exact hd u hu
  have hposs := testNumberLength_possible hl hd hg hloc.1 hloc.2
  have hgen : (descPat m.general).re.full.isMatch nsn = true := (full_isMatch_iff _ _).2 (matches_acc hk.1)
  unfold readsBack at h
  simp only [hg, Bool.and_eq_true] at h
  obtain ⟨⟨⟨h1, h2⟩, h3⟩, h4⟩ := h
  have hna : ∀ G ∈ kindPats m :: Xs, (∀ r ∈ G, r.noAnchor = true) ∧ AccAny G nsn := by
    intro G hG
    refine ⟨List.all_eq_true.1 (List.all_eq_true.1 h1 G hG), ?_⟩
    rcases List.mem_cons.1 hG with rfl | hG
    · exact ofKind_acc hk
    · exact hX G hG
  have hGs := afterLit_any hb hna
  refine ⟨idd_none h2 h3 hbd hGs, ?_⟩
  cases b with
  | nil =>
    simp only at h4
    refine ⟨?_, [], stripStage_leftAlone hl hd (leftAlone_of_safe (fun _ => rfl) h4 hd (fun G hG => hna G (by simp [hG])) hk)⟩
    unfold takesCC
    simp only [List.nil_append, hposs, hgen, Bool.not_true, Bool.false_and, Bool.and_false]
  | cons u0 b0 =>
    generalize hbe : u0 :: b0 = b at *
    have hbne : b ≠ [] := by rw [← hbe]; simp
    have h4 : ((heads (fun _ _ => false) 6 0 [afterLit (decInt m.countryCode) .eps] ((kindPats m :: Xs).map (·.map (afterLit b))) = true ∧
      (!m.npParsing.src.isEmpty) = true) ∧ (stripsExactly m b = true ∨ (m.npParsing.re.alts.any (fun a => a.noAnchor && a.full.isMatch b) = true ∧
      m.npParsing.re.alts.all (altStrips m g b ((kindPats m :: Xs).map (·.map (afterLit b)))) = true))) := by
      rw [← hbe] at h4 ⊢
      simpa only [Bool.and_eq_true, Bool.or_eq_true] using h4
    obtain ⟨⟨h5, h6⟩, h78⟩ := h4
    refine ⟨?_, ?_⟩
    · -- no country code
      have : hasPrefix (b ++ nsn) (decInt m.countryCode) = false := by
        rw [Bool.eq_false_iff]
        intro hp
        obtain ⟨e, he⟩ := List.isPrefixOf_iff_prefix.1 hp
        obtain ⟨_, k, -⟩ := heads_sound h5 (by simpa using afterLit_noAnchor (b := decInt m.countryCode) (r := .eps) rfl)
          (fun G hG => (hGs G hG).1) (w := decInt m.countryCode) (e := e) hcc
          ⟨_, List.mem_cons_self, by simpa using afterLit_acc hcc (r := .eps) rfl (w := []) rfl 0⟩ (fun G hG => by rw [he]; exact (hGs G hG).2)
        cases k
      simp [takesCC, this]
    · have hsrc : m.npParsing.src ≠ [] := by simpa using h6
      have hmatch : ∃ x, m.npParsing.re.atStart.find (b ++ nsn) = some x ∧ x.stop = b.length ∧ LeftOut m x := by
        rcases h78 with h78 | ⟨h7, h8⟩
        · simp only [stripsExactly, Bool.and_eq_true] at h78
          obtain ⟨⟨⟨h8, h9⟩, h10⟩, h11⟩ := h78
          split at h10
          · cases h10
          · rename_i M hM
            split at h11
            · cases h11
            · rename_i x hx
              refine ⟨x, ?_, by simpa using h11, .inl (by simpa using h8)⟩
              have hloc := matchAt_local h9 hM (Nat.le_of_ble_eq_true h10) 0 nsn
              rw [hx] at hloc
              have hs : m.npParsing.re.atStart.matchAt 0 (b ++ nsn) = some x := hloc
              rw [← hbe] at hs ⊢
              simp only [List.cons_append] at hs ⊢
              simp only [Re.find, Re.findFrom, hs]
        · obtain ⟨a, ha, h7⟩ := List.any_eq_true.1 h7
          rw [Bool.and_eq_true] at h7
          have hacc : m.npParsing.re.atStart.Acc (0 + ([] : Str).length) b nsn :=
            ⟨[], b, rfl, ⟨rfl, rfl⟩, acc_of_alts ha (noAnchor_acc h7.1 ((full_isMatch_iff _ _).1 h7.2))⟩
          cases hf : m.npParsing.re.atStart.find (b ++ nsn) with
          | none => exact absurd hacc (findFrom_none hf [] b nsn (by simp))
          | some x =>
            obtain ⟨y, w, e, k1, k2, k3, k4, -⟩ := findFrom_sound hf
            obtain ⟨w1, w2, hw, ⟨k5, rfl⟩, k6⟩ := k4
            simp only [List.nil_append] at hw
            subst hw
            have hy : y = [] := List.length_eq_zero_iff.mp (by omega)
            subst hy
            rw [k5] at k6
            simp only [List.length_nil, Nat.add_zero] at k6
            simp only [List.nil_append] at k1
            obtain ⟨a', ha', k7⟩ := alts_acc k6
            have h9 := List.all_eq_true.1 h8 a' ha'
            -- the match is `b`
            have key : w.length = b.length ∧ LeftOut m x := by
              simp only [altStrips, Bool.or_eq_true, Bool.and_eq_true] at h9
              have hlo : leavesOut m b.length w.length = true → w.length = b.length ∧ LeftOut m x := by
                intro k8
                simp only [leavesOut, Bool.and_eq_true, Nat.beq_eq] at k8
                refine ⟨k8.1, ?_⟩
                have k9 := k8.2
                split at k9
                · rename_i h11; exact .inl (by simpa using h11)
                · rw [Bool.and_eq_true, Nat.blt_eq] at k9
                  obtain ⟨k10, k11⟩ := k9
                  split at k11
                  · cases k11
                  · rename_i L hL
                    obtain ⟨c, hc1, hc2⟩ := atStart_caps (by omega) hL hf
                    have h12 := List.all_eq_true.1 k11 _ hc1
                    rw [Bool.or_eq_true] at h12
                    have h12 := h12.resolve_left (by
                      have : x.stop = w.length := by omega
                      simp [this])
                    rcases hc2 with ⟨rfl, hc2⟩ | ⟨k, b', rfl, hc2⟩
                    · exact .inr ⟨k10, hc2⟩
                    · cases h12
              rcases h9 with (⟨h9, h10⟩ | ⟨⟨h9, h10⟩, h11⟩) | ⟨h9, h10⟩
              · exfalso
                have he := endsEos_acc h9 k7
                subst he
                cases hls : a'.lens with
                | none => simp [hls] at h10
                | some ls =>
                  simp only [hls, Bool.and_eq_true, List.all_eq_true, Bool.not_eq_true', List.any_eq_false] at h10
                  have := h10.2 _ hloc.1 w.length (lens_acc a' ls hls _ _ _ k7)
                  have hlen := congrArg List.length k1
                  simp only [List.length_append, List.length_nil, Nat.add_zero] at hlen
                  apply this
                  rw [Nat.beq_eq]
                  omega
              · have hw := onlyOrLong_acc (by simpa using h9) (List.all_eq_true.1 h10 _ hloc.1) k1 ⟨a', by simp, noAnchor_acc h9 k7⟩
                rw [hw] at hlo
                rw [hw]
                exact hlo h11
              · obtain ⟨Gs', k8, -, -⟩ := heads_sound h10 (by simpa using h9) (fun G hG => (hGs G hG).1) (w := w) (e := e)
                  (fun u hu => hbd u (by rw [k1]; simp [hu])) ⟨a'.dropEos, by simp, noAnchor_acc h9 (dropEos_acc k7)⟩
                  (fun G hG => by rw [← k1]; exact (hGs G hG).2)
                rw [Nat.zero_add] at k8
                exact hlo k8
            exact ⟨x, rfl, by omega, key.2⟩
      obtain ⟨x, hf, hstop, key2⟩ := hmatch
      have hdrop : (b ++ nsn).drop x.stop = nsn := by
        rw [hstop]; simp
      have hL : (m.npTransform = [] ∨ (m.npParsing.re.groups > 0 ∧ (x.span m.npParsing.re.groups).isNone)) := by
        simpa [LeftOut] using key2
      have hstrip : (stripNationalPrefix (b ++ nsn) m).2.1 = nsn := by
        unfold stripNationalPrefix
        rw [if_neg (by simp [hbne, hsrc]), hf]
        simp only [if_pos hL, hdrop, hgen]
        rw [if_neg (by simp)]
      refine ⟨(stripNationalPrefix (b ++ nsn) m).2.2, ?_⟩
      unfold stripStage
      simp only [bind, Except.bind, pure, Except.pure, hstrip, hposs]
      rw [if_pos (by simp)]

/-! ## The national form -/

theorem spaced_split {s : Str} (h1 : ∀ u ∈ s, isDig u = true ∨ u ∈ gapL) (h2 : ∃ a v, s = a ++ [v] ∧ isDig v = true) :
    ∃ junk t, s = junk ++ t ∧ (∀ u ∈ junk, u ∈ gapL) ∧ Spaced t ∧ t.filter isDig = s.filter isDig := by
  induction s with
  | nil => obtain ⟨a, v, h, -⟩ := h2; simp at h
  | cons u s ih =>
    rcases h1 u (by simp) with hu | hu
    · exact ⟨[], u :: s, rfl, by simp, ⟨h1, ⟨u, s, rfl, hu⟩, h2⟩, rfl⟩
    · obtain ⟨a, v, h3, h4⟩ := h2
      cases a with
      | nil =>
        simp only [List.nil_append, List.cons.injEq] at h3
        rw [← h3.1, gapL_dig u hu] at h4; cases h4
      | cons x a =>
        obtain ⟨junk, t, k1, k2, k3, k4⟩ := ih (fun v hv => h1 v (by simp [hv])) ⟨a, v, (List.cons.inj h3).2, h4⟩
        refine ⟨u :: junk, t, by rw [k1]; rfl, ?_, k3, ?_⟩
        · intro v hv
          rcases List.mem_cons.1 hv with rfl | hv
          · exact hu
          · exact k2 v hv
        · rw [k4, List.filter_cons_of_neg (by rw [gapL_dig u hu]; simp)]

/-- A pattern of digit groups accepts all digit strings of its lengths. -/
theorem uni_acc {r : Re} (hr : r.uni = true) {M : Nat} (hM : r.maxLen = some M) {s : Str} (hs : ∀ u ∈ s, isDig u = true)
    (h1 : r.minLen ≤ s.length) (h2 : s.length ≤ M) : r.Acc 0 s [] := by
  obtain ⟨st', k1, k2⟩ := uni_find r hr M hM s hs 0 (by omega) 0 []
  obtain ⟨w, e1, -, a1⟩ := runs_sound r _ st' (List.mem_of_find?_eq_some k1)
  have : st'.rest = [] := by rw [k2]; simp; omega
  rw [this] at e1 a1
  simp only [List.append_nil] at e1
  rw [e1]; exact a1

theorem any_rep {s : Str} {mn : Nat} {mx : Option Nat} {g : Bool} (h1 : mn ≤ s.length) (h2 : ∀ z, mx = some z → s.length ≤ z) (p : Nat) (e : Str) :
    (Re.rep (.cls ⟨true, [], []⟩) mn mx g).Acc p s e := by
  rw [acc_rep_cls]
  refine ⟨fun u _ => by simp [Cls.mem, Cls.has, inRanges], h1, fun z hz => ?_⟩
  have := h2 z hz
  omega

theorem chooseFormat_lang {fs : List NumberFormat} {nsn : Str} {p : NumberFormat} (h : chooseFormat fs nsn = some p) :
    ∀ G ∈ ruleLang p, AccAny G nsn := by
  have hacc := (chooseFormat_acc _ _ _ h).2
  have hld : ∀ ld, p.leadingDigits.getLast? = some ld → ld.re.matchesAtStart nsn = true := by
    clear hacc
    induction fs with
    | nil => cases h
    | cons f fs ih =>
      unfold chooseFormat at h
      split at h
      · rename_i h0
        split at h
        · cases h; intro ld hl; rw [h0] at hl; cases hl
        · exact ih h
      · rename_i ld h0
        split at h
        · rename_i hc; cases h; intro ld' hl; rw [h0] at hl; cases hl; exact hc.1
        · exact ih h
  intro G hG
  unfold ruleLang at hG
  rcases List.mem_cons.1 hG with rfl | hG
  · exact ⟨_, by simp, hacc⟩
  · split at hG
    · cases hG
    · rename_i ld h0
      rw [List.mem_singleton] at hG
      subst hG
      obtain ⟨w, e, rfl, ha⟩ := (matchesAtStart_iff _ _).1 (hld ld h0)
      exact ⟨_, List.mem_cons_self, w, e, rfl, by simpa using ha, any_rep (by omega) (by simp) _ _⟩

theorem notSeq_noAnchor (cs : List Cls) : ∀ r ∈ notSeq cs, r.noAnchor = true := by
  induction cs with
  | nil => simp [notSeq]
  | cons c cs ih =>
    intro r hr
    simp only [notSeq, List.mem_cons, List.mem_map] at hr
    rcases hr with rfl | rfl | ⟨x, hx, rfl⟩
    · rfl
    · rfl
    · simp [Re.noAnchor, ih x hx]

/-- What a sequence of characters accepts. -/
theorem clsSeq_acc {r : Re} {cs : List Cls} (h : clsSeq r = some cs) :
    ∀ w p e, w.length = cs.length → (∀ x ∈ cs.zip w, x.1.mem x.2 = true) → r.Acc p w e := by
  induction r generalizing cs with
  | eps =>
    intro w p e hl _
    simp only [clsSeq, Option.some.injEq] at h; subst h
    exact List.length_eq_zero_iff.1 hl
  | cls c =>
    intro w p e hl hz
    simp only [clsSeq, Option.some.injEq] at h; subst h
    match w, hl with
    | [u], _ => exact ⟨u, rfl, hz (c, u) (by simp)⟩
  | cat a b iha ihb =>
    intro w p e hl hz
    simp only [clsSeq] at h
    split at h
    · rename_i x y hx hy
      obtain rfl := Option.some.inj h
      rw [List.length_append] at hl
      refine ⟨w.take x.length, w.drop x.length, by simp, iha hx _ _ _ (by simp; omega) ?_, ihb hy _ _ _ (by simp; omega) ?_⟩
      · intro z hzm
        refine hz z ?_
        rw [show w = w.take x.length ++ w.drop x.length by simp, List.zip_append (by simp; omega)]
        exact List.mem_append_left _ hzm
      · intro z hzm
        refine hz z ?_
        rw [show w = w.take x.length ++ w.drop x.length by simp, List.zip_append (by simp; omega)]
        exact List.mem_append_right _ hzm
    · cases h
  | _ => simp [clsSeq] at h

theorem notSeq_any {cs : List Cls} {s : Str} (h30 : s.length ≤ 30) :
    AccAny (notSeq cs) s ∨ ∃ w e, s = w ++ e ∧ w.length = cs.length ∧ ∀ x ∈ cs.zip w, x.1.mem x.2 = true := by
  induction cs generalizing s with
  | nil => exact .inr ⟨[], s, rfl, rfl, by simp⟩
  | cons c cs ih =>
    cases s with
    | nil => exact .inl ⟨.eps, by simp [notSeq], rfl⟩
    | cons v s =>
      simp only [List.length_cons] at h30
      by_cases hv : c.mem v = true
      · rcases ih (s := s) (by omega) with ⟨r, hr, ha⟩ | ⟨w, e, rfl, hw, hz⟩
        · refine .inl ⟨.cat (.cls c) r, ?_, [v], s, rfl, ⟨v, rfl, hv⟩, noAnchor_acc (notSeq_noAnchor cs r hr) ha⟩
          simp only [notSeq, List.mem_cons, List.mem_map]
          exact .inr (.inr ⟨r, hr, rfl⟩)
        · refine .inr ⟨v :: w, e, rfl, by simp [hw], fun x hx => ?_⟩
          rw [List.zip_cons_cons] at hx
          rcases List.mem_cons.1 hx with rfl | hx
          · exact hv
          · exact hz x hx
      · refine .inl ⟨.cat (.cls ⟨!c.neg, c.ranges, c.props⟩) (.rep (.cls ⟨true, [], []⟩) 0 (some 30) true),
          by simp only [notSeq, List.mem_cons]; exact .inr (.inl trivial), [v], s, rfl,
          ⟨v, rfl, ?_⟩, any_rep (by omega) (by intro z hz; cases hz; omega) _ _⟩
        simp only [Cls.mem, Cls.has] at hv ⊢
        cases hx : (inRanges c.ranges (rune v) || c.props.any (·.mem (rune v))) <;> cases hng : c.neg <;> simp_all

theorem notSeq_or {r : Re} {cs : List Cls} (h : ∀ w p e, w.length = cs.length → (∀ x ∈ cs.zip w, x.1.mem x.2 = true) → r.Acc p w e)
    {s : Str} (h30 : s.length ≤ 30) : AccAny (notSeq cs) s ∨ ∃ w e, s = w ++ e ∧ ∀ p e, r.Acc p w e := by
  rcases notSeq_any (cs := cs) h30 with h1 | ⟨w, e, rfl, hw, hz⟩
  · exact .inl h1
  · exact .inr ⟨w, e, rfl, fun p e => h w p e hw hz⟩

theorem chooseFormat_none {fs : List NumberFormat} {nsn : Str} (h : chooseFormat fs nsn = none) (hd : ∀ u ∈ nsn, isDig u = true)
    (h30 : nsn.length ≤ 30) : ∀ G ∈ fs.flatMap notRule, AccAny G nsn := by
  intro G hG0
  obtain ⟨p, hp, hG⟩ := List.mem_flatMap.1 hG0
  clear hG0
  have hno : ∀ ld, p.leadingDigits.getLast? = some ld → ¬ (ld.re.matchesAtStart nsn = true ∧ p.pattern.re.full.isMatch nsn = true) := by
    clear hG
    induction fs with
    | nil => cases hp
    | cons f fs ih =>
      unfold chooseFormat at h
      split at h
      · rename_i h0
        split at h
        · cases h
        · rcases List.mem_cons.1 hp with rfl | hp
          · intro ld hl; rw [h0] at hl; cases hl
          · exact ih h hp
      · rename_i ld h0
        split at h
        · cases h
        · rename_i hc
          rcases List.mem_cons.1 hp with rfl | hp
          · intro ld' hl; rw [h0] at hl; cases hl; exact hc
          · exact ih h hp
  unfold notRule at hG
  split at hG
  · cases hG
  · rename_i ld h0
    have hno := hno ld h0
    split at hG
    · rename_i c mx hc hmx
      split at hG
      · rename_i hu
        rw [Bool.and_eq_true, Nat.ble_eq] at hu
        rw [List.mem_singleton] at hG
        subst hG
        rcases notSeq_or (clsSeq_acc hc) h30 with ⟨G, hG, ha⟩ | ⟨w, e, rfl, ha⟩
        · exact ⟨G, List.mem_append_left _ hG, ha⟩
        · have hm : ld.re.matchesAtStart (w ++ e) = true := (matchesAtStart_iff _ _).2 ⟨w, e, rfl, ha _ _⟩
          have hn : ¬ (p.pattern.re.minLen ≤ (w ++ e).length ∧ (w ++ e).length ≤ mx) := fun ⟨k1, k2⟩ =>
            hno ⟨hm, (full_isMatch_iff _ _).2 (uni_acc hu.1 hmx hd k1 k2)⟩
          generalize w ++ e = nsn at *
          by_cases hlt : p.pattern.re.minLen ≤ nsn.length
          · exact ⟨.rep (.cls ⟨true, [], []⟩) (mx + 1) (some 30) true, by simp, any_rep (by omega) (by
              intro z hz; cases hz; omega) _ _⟩
          · exact ⟨.rep (.cls ⟨true, [], []⟩) 0 (some (p.pattern.re.minLen - 1)) true, by simp, any_rep (by omega) (by
              intro z hz; cases hz; omega) _ _⟩
      · cases hG
    · cases hG

/-- A rule applied with any template. -/
theorem replaceAll_any (fm : NumberFormat) (h : formatInOrder fm = true) {s : Str} (hs : ∀ u ∈ s, isDig u = true)
    (ha : fm.pattern.re.Acc 0 s []) : ∃ x, ∀ t, fm.pattern.re.replaceAll s t = expand x s t := by
  simp only [formatInOrder, Bool.and_eq_true, decide_eq_true_eq] at h
  obtain ⟨⟨⟨h1, h2⟩, h3⟩, h4⟩ := h
  obtain ⟨M, hM⟩ := Option.isSome_iff_exists.1 h3
  cases hT : fm.pattern.re.tops with
  | none => simp [hT] at h4
  | some ns =>
    obtain ⟨x, spans, f1, f2, f3, f4, f5, f6⟩ := uni_match _ h1 ns hT s hs ha M hM
    have hlen : 0 < s.length := by have := minLen_acc _ _ _ _ ha; omega
    have hnone : fm.pattern.re.findFrom s.length [] = none := by
      cases hf : fm.pattern.re.findFrom s.length [] with
      | none => rfl
      | some y =>
        obtain ⟨a, w, e, e1, -, -, hacc, -⟩ := findFrom_sound hf
        have := minLen_acc _ _ _ _ hacc
        have := congrArg List.length e1
        simp at this; omega
    refine ⟨x, fun t => ?_⟩
    unfold Re.replaceAll
    rw [show s.length + 2 = (s.length + 1) + 1 from rfl, replaceLoop]
    rw [if_neg (by omega)]
    have f1' := f1
    unfold Re.find at f1'
    simp only [List.drop_zero, f1', f2, f3]
    rw [if_pos (.inl hlen)]
    rw [if_neg (by omega : ¬ (0 + 1 > s.length))]
    rw [replaceLoop, if_neg (by omega)]
    simp only [List.drop_length, hnone]
    simp [slice]

/-- What a rule writes for NATIONAL. -/
theorem natRule_text {p : NumberFormat} (h : natTextOk p = true) {s : Str} (hs : ∀ u ∈ s, isDig u = true)
    (ha : p.pattern.re.Acc 0 s []) :
    (∀ u ∈ formatNsnUsingPattern s p .national [], isDig u = true ∨ u ∈ gapL) ∧
      (∃ a v, formatNsnUsingPattern s p .national [] = a ++ [v] ∧ isDig v = true) ∧
      (formatNsnUsingPattern s p .national []).length ≤ s.length + 120 ∧
      (formatNsnUsingPattern s p .national []).filter isDig = natDigits p ++ s := by
  simp only [natTextOk, Bool.and_eq_true, Nat.ble_eq] at h
  obtain ⟨⟨⟨⟨h1, h2⟩, h3⟩, h4⟩, h5⟩ := h
  have ha' : (natRule p).pattern.re.Acc 0 s [] := ha
  obtain ⟨x, hx⟩ := replaceAll_any _ h3 hs ha'
  have hx : ∀ t, p.pattern.re.replaceAll s t = expand x s t := hx
  have htext : formatNsnUsingPattern s p .national [] = natLead p ++ (natRule p).pattern.re.replaceAll s (natRule p).format := by
    have e0 : formatNsnUsingPattern s p .national [] = p.pattern.re.replaceAll s (natTemplate p) := by
      simp only [formatNsnUsingPattern, natTemplate, ne_eq, not_true_eq_false, false_and, and_false, if_false, true_and, reduceCtorEq]
      by_cases h0 : p.npRule = [] <;> simp [h0]
    have e1 : natTemplate p = natLead p ++ (natRule p).format := List.takeWhile_append_dropWhile.symm
    rw [e0, show (natRule p).pattern = p.pattern from rfl, hx, hx, expand, expand, e1]
    rw [expandLoop_front x s (fun u hu => ?_) _ (by omega)]
    · congr 2
      simp; omega
    · have := List.all_eq_true.1 (List.all_takeWhile (l := natTemplate p) (p := fun u => !Nat.beq u 36)) u hu
      simp only [Bool.not_eq_true'] at this
      exact Nat.ne_of_beq_eq_false this
  obtain ⟨k1, k2⟩ := replaceAll_ends _ h3 h4 s hs ha'
  have k3 := replaceAll_inOrder _ h3 s hs ha'
  rw [htext]
  refine ⟨fun u hu => ?_, ?_, ?_, ?_⟩
  · rcases List.mem_append.1 hu with hu | hu
    · have := List.all_eq_true.1 h1 u hu
      simpa using this
    · rcases replaceAll_mem hu with h | h
      · exact .inl (hs u h)
      · have := List.all_eq_true.1 h5 u h
        simp only [decide_eq_true_eq] at this
        exact .inr this
  · obtain ⟨a, v, k, hv⟩ := k1
    exact ⟨natLead p ++ a, v, by rw [k]; simp, hv⟩
  · rw [List.length_append]; omega
  · rw [List.filter_append, k3]; rfl

/-- The national form of a number that passes the check for its region and the main region. -/
theorem national_text {M m : Metadata} (h : nationalOk M m = true) {nsn : Str} (hd : ∀ u ∈ nsn, isDig u = true) (hne : nsn ≠ [])
    (h30 : nsn.length ≤ 30) (hk : OfKind m nsn) (hamb : ∀ b ∈ natAmbiguousFor m.countryCode.toNat, ¬ b <+: nsn) :
    (∀ u ∈ formatNsn nsn (some M) .national [], isDig u = true ∨ u ∈ gapL) ∧
      (∃ a v, formatNsn nsn (some M) .national [] = a ++ [v] ∧ isDig v = true) ∧
      (formatNsn nsn (some M) .national []).length ≤ nsn.length + 120 ∧
      ∃ b Xs, (formatNsn nsn (some M) .national []).filter isDig = b ++ nsn ∧ (∀ u ∈ b, isDig u = true) ∧ readsBack m b Xs = true ∧
        ∀ G ∈ Xs, AccAny G nsn := by
  simp only [nationalOk, Bool.and_eq_true, Bool.or_eq_true, List.all_eq_true] at h
  obtain ⟨⟨-, h1⟩, h2⟩ := h
  have hA : ∀ G ∈ (natAmbiguousFor m.countryCode.toNat).map notStart, AccAny G nsn := by
    intro G hG
    obtain ⟨b, hb, rfl⟩ := List.mem_map.1 hG
    exact notStart_acc hd (hamb b hb)
  unfold formatNsn
  simp only [or_true, if_true]
  cases hc : chooseFormat M.formats nsn with
  | none =>
    obtain ⟨v, hv⟩ := List.getLast?_isSome.2 hne |> Option.isSome_iff_exists.1
    obtain ⟨b, hb⟩ := List.getLast?_eq_some_iff.1 hv
    refine ⟨fun u hu => .inl (hd u hu), ⟨b, v, hb, hd v (by rw [hb]; simp)⟩, by simp, ?_⟩
    rcases h1 with (h1 | h1) | ⟨h1, h3⟩
    · exact ⟨[], _, by simpa [List.filter_eq_self] using hd, by simp, h1, hA⟩
    · refine ⟨[], _, by simpa [List.filter_eq_self] using hd, by simp, h1, fun G hG => ?_⟩
      rcases List.mem_append.1 hG with hG | hG
      · exact hA G hG
      · exact chooseFormat_none hc hd h30 G hG
    · cases nsn with
      | nil => exact absurd rfl hne
      | cons u nsn =>
        refine absurd (fun G hG => ?_) (apart_sound (w := nsn) (h3 u (mem_digitUnits (hd u (by simp)))) (fun G hG => ?_) (fun v hv => hd v (by simp [hv])))
        · obtain ⟨G0, h0, rfl⟩ := List.mem_map.1 hG
          refine pds_acc (h1 G0 h0) ?_
          rcases List.mem_cons.1 h0 with rfl | h0
          · exact ofKind_acc hk
          · exact chooseFormat_none hc hd h30 _ h0
        · obtain ⟨G0, h0, rfl⟩ := List.mem_map.1 hG
          exact pds_noAnchor (h1 G0 h0) u
  | some p =>
    obtain ⟨h3, h4⟩ := chooseFormat_acc _ _ _ hc
    obtain ⟨h5, h6⟩ := h2 p h3
    obtain ⟨k1, k2, k3, k4⟩ := natRule_text h5 hd h4
    refine ⟨k1, k2, k3, natDigits p, _, k4, fun u hu => (List.mem_filter.1 hu).2, h6, fun G hG => ?_⟩
    rcases List.mem_append.1 hG with hG | hG
    · exact hA G hG
    · exact chooseFormat_lang hc G hG

end Verif
