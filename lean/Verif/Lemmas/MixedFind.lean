import Verif.Lemmas.ExtFind
import Verif.Lemmas.LocalFind
import Verif.Lemmas.LocalExt
import Verif.Spec.Mixed
/-!
# Several numbers in one text, written in different ways, are all found
-/
namespace Verif
open Spec

/-- The text ends the number before it. -/
structure Ends (b : Str) : Prop where
  stops : Stops ndC b
  blk : ∀ q, blockRe.runs ⟨q, b, []⟩ = []
  ext : ∀ q, extX.runs ⟨q, b, []⟩ = []
  stamp : timeStampsSuffix.matchesAtStart b = false

theorem ends_quiet {b : Str} (hb : Quiet b) : Ends b :=
  ⟨quiet_stops hb, fun _ => runs_nil fun _ _ h => must_quiet (by decide +kernel) (by decide +kernel) hb h,
    fun _ => runs_nil fun _ _ h => must_quiet (by decide +kernel) (by decide +kernel) hb h, quiet_stamp hb⟩

/-! ## Commas -/

/-- A class of signs of a word for an extension. -/
def labelCls (c : Cls) : Bool := !c.neg && c.props.isEmpty && c.ranges.all fun r => decide (r.1 = r.2) && labelSigns.contains r.1

theorem labelCls_mem {c : Cls} (h : labelCls c = true) {u : Nat} (hu : c.mem u = true) : rune u ∈ labelSigns := by
  simp only [labelCls, Bool.and_eq_true, Bool.not_eq_true', List.isEmpty_iff, List.all_eq_true, decide_eq_true_eq, List.contains_iff_mem] at h
  obtain ⟨⟨h1, h2⟩, h3⟩ := h
  have hu : inRanges c.ranges (rune u) = true := by simpa [Cls.mem, Cls.has, h1, h2] using hu
  obtain ⟨r, hr, k1, k2⟩ := (inRanges_iff _ _).1 hu
  obtain ⟨k3, k4⟩ := h3 r hr
  rwa [show rune u = r.1 by omega]

/-- What comes before the digits of the alternative has a sign of a word, or no tab, comma or semicolon. -/
def commaOk (a : Re) : Bool :=
  branchOk a && (match a.splitGrp with
    | none => false
    | some (A, _, _, _) => A.must labelCls || A.allCls fun c => splitSigns.all fun u => !c.mem u)

theorem commas_ok : extX.alts.all commaOk = true := by decide +kernel

theorem split_digit {u : Nat} (h : u ∈ splitSigns) : punctC.mem u = false := by
  have : ∀ u ∈ splitSigns, punctC.mem u = false := by decide +kernel
  exact this u h

theorem stamp_shape : ∃ B, timeStampsSuffix = .cat (.cls ⟨false, [(58, 58)], []⟩) B ∧
    B.allCls (fun c => decide (c = ⟨false, [(48, 57)], []⟩) || decide (c = ⟨false, [(48, 53)], []⟩)) = true ∧ B.minLen = 2 := ⟨_, rfl, by decide, by decide⟩

theorem stamp_parts {p : Nat} {w e : Str} (h : timeStampsSuffix.Acc p w e) : ∃ w1 w2, w = w1 ++ w2 ∧ (∀ u ∈ w1, u = 58) ∧ 1 ≤ w2.length ∧
    ∀ u ∈ w2, ndC.mem u = true := by
  obtain ⟨B, hB, h1, h2⟩ := stamp_shape
  rw [hB] at h
  obtain ⟨w1, w2, rfl, k1, k2⟩ := h
  refine ⟨w1, w2, rfl, ?_, ?_, ?_⟩
  · exact allCls_acc (P := fun c => decide (c = ⟨false, [(58, 58)], []⟩)) (Q := fun u => u = 58) (fun c hc u hu => by
      have : c = ⟨false, [(58, 58)], []⟩ := by simpa using hc
      rw [this] at hu
      exact (litCls_mem 58 (by decide) u).1 hu) (.cls ⟨false, [(58, 58)], []⟩) (by decide) _ _ _ k1
  · have := minLen_acc B _ _ _ k2
    omega
  · refine allCls_acc (Q := fun u => ndC.mem u = true) (fun c hc u hu => ?_) B h1 _ _ _ k2
    simp only [Bool.or_eq_true, decide_eq_true_eq] at hc
    have hm : (48 ≤ rune u) ∧ rune u ≤ 57 := by
      rcases hc with rfl | rfl
      · simpa [Cls.mem, Cls.has, inRanges] using hu
      · have : 48 ≤ rune u ∧ rune u ≤ 53 := by simpa [Cls.mem, Cls.has, inRanges] using hu
        omega
    rw [ndC_nd]
    exact (inRanges_iff _ _).2 ⟨(48, 57), by decide, by simpa using hm⟩

/-- A text with a tab, comma or semicolon, no digit and no sign of a word before the first digit. -/
theorem ends_comma {a c : Str} {v : Nat} (hv : isDig v = true) (ha : NoDigit a) (h1 : ∃ u ∈ a, u ∈ splitSigns) (h2 : ∀ u ∈ a, rune u ∉ labelSigns) :
    Ends (a ++ v :: c) := by
  have hnd : ∀ u ∈ a, ndC.mem u = false := fun u hu => by rw [ndC_nd]; exact ha u hu
  obtain ⟨w, hw, hws⟩ := h1
  refine ⟨?_, fun q => not_block hnd ⟨w, hw, split_digit hws⟩ q, fun q => ?_, ?_⟩
  · intro u hu
    cases a with
    | nil => cases hw
    | cons x a => cases hu; exact hnd _ (by simp)
  · rw [alts_eq, List.flatMap_eq_nil_iff]
    intro r hr
    have hok := List.all_eq_true.1 commas_ok r hr
    unfold commaOk branchOk at hok
    rw [Bool.and_eq_true] at hok
    obtain ⟨hok, hcm⟩ := hok
    split at hcm
    · cases hcm
    · rename_i A k D T hs
      rw [hs] at hok
      simp only [Bool.and_eq_true, beq_iff_eq] at hok
      obtain ⟨⟨⟨g1, g2⟩, g3⟩, g4⟩ := hok
      split at g4
      · rename_i c' m
        have hc : c' = ndC := by simpa using g4
        subst hc
        rw [splitGrp_eq hs, List.flatMap_eq_nil_iff]
        intro z hz
        rcases branch_runs (e := [v]) (b := c) g3 g1 hnd (by simpa using hv) (by simp) q m z hz with h | h
        · exfalso
          rw [Bool.or_eq_true] at hcm
          rcases hcm with hcm | hcm
          · obtain ⟨u, hu, d, hd, hm⟩ := must_acc A hcm _ _ _ h.2
            exact h2 u hu (labelCls_mem hd hm)
          · refine allCls_acc (P := fun c => splitSigns.all fun u => !c.mem u) (Q := fun u => u ∉ splitSigns) (fun d hd u hu hsu => ?_) A hcm _ _ _ h.2 w hw hws
            have := List.all_eq_true.1 hd u hsu
            rw [hu] at this
            cases this
        · rw [h]; rfl
      · cases g4
  · cases h : timeStampsSuffix.matchesAtStart (a ++ v :: c) with
    | false => rfl
    | true =>
      exfalso
      obtain ⟨w', e, k1, k2⟩ := (matchesAtStart_iff _ _).1 h
      obtain ⟨w1, w2, rfl, hwc, k4⟩ := stamp_parts k2
      rw [List.append_assoc] at k1
      rcases List.append_eq_append_iff.1 k1 with ⟨d, k5, k6⟩ | ⟨d, k5, k6⟩
      · have := hwc w (by rw [k5]; simp [hw])
        rw [this] at hws
        exact absurd hws (by decide)
      · cases w2 with
        | nil => exact absurd k4.1 (by simp)
        | cons x w2 =>
          cases d with
          | nil =>
            rw [List.append_nil] at k5
            have := hwc w (by rw [← k5]; exact hw)
            rw [this] at hws
            exact absurd hws (by decide)
          | cons y d =>
            have h5 : x = y := by simpa using congrArg List.head? k6
            subst h5
            have := hnd x (by rw [k5]; simp)
            rw [k4.2 x (by simp)] at this
            cases this

/-! ## The ways of writing -/

/-- The preferred match at the beginning of a number with something after it. -/
theorem matchAt_lead {c0 : Nat} (hc0 : leadC.mem c0 = true) {plus : Bool} {d Y b : Str} {l : List (Str × Str)} {k : Nat} (hd : Block d) (hl : ∀ x ∈ l, PGap x.1 ∧ Block x.2)
    (hlen : l.length ≤ 20) (hY : Stops ndC Y) (hblk : l.length = 20 ∨ ∀ q, blockRe.runs ⟨q, Y, []⟩ = [])
    (hX : ∀ q, ∃ cs, First (Re.rep extX 0 (some 1) true).runs ⟨q, Y, []⟩ ⟨q + k, b, cs⟩) (p : Nat) :
    ∃ cs, matcherPattern.matchAt p ((if plus then [c0] else []) ++ (d ++ (l.flatMap fun x => x.1 ++ x.2)) ++ Y) =
      some ⟨p, p + ((if plus then [c0] else []) ++ (d ++ (l.flatMap fun x => x.1 ++ x.2)) : Str).length + k, cs⟩ := by
  have key : ∀ q, ∃ cs, First (Re.cat (.rep (.cls ndC) 1 (some 20) true) (.cat (.rep blockRe 0 (some 20) true) (.rep extX 0 (some 1) true))).runs
        ⟨q, d ++ ((l.flatMap fun x => x.1 ++ x.2) ++ Y), []⟩ ⟨q + (d ++ l.flatMap fun x => x.1 ++ x.2).length + k, b, cs⟩ := by
    intro q
    rw [List.length_append, ← Nat.add_assoc]
    obtain ⟨cs, h⟩ := hX (q + d.length + (l.flatMap fun x => x.1 ++ x.2).length)
    exact ⟨cs, first_cat (first_rep_cls (fun u hu => ndC_digit (hd.2.2 u hu)) 1 20 q _ [] hd.1 hd.2.1 (.inr (stops_pblocks hl hY)))
      (first_cat (first_rep0 (first_pblocks hl hY 20 _ hlen hblk)) h)⟩
  obtain ⟨v, t, hv, hvd⟩ := block_cons hd
  have hstop : ∀ q, (Re.cat (.cls leadC) (.rep (.cls punctC) 0 (some 4) true)).runs ⟨q, d ++ ((l.flatMap fun x => x.1 ++ x.2) ++ Y), []⟩ = [] := by
    intro q
    have : (Re.cls leadC).runs ⟨q, d ++ ((l.flatMap fun x => x.1 ++ x.2) ++ Y), []⟩ = [] := runs_cls_stop (by
      intro u h
      rw [hv] at h
      cases h
      exact (digit_punct hvd).2)
    simp only [Re.runs] at this ⊢
    rw [this]
    rfl
  rw [matcherPattern_shape3]
  cases plus with
  | false =>
    obtain ⟨cs, hk⟩ := key p
    refine ⟨cs, matchAt_first (e := b) ?_⟩
    have := first_cat (first_rep0_stop (n := 2) (hstop p)) hk
    simpa [List.append_assoc] using this
  | true =>
    have f1 : First (Re.cat (.cls leadC) (.rep (.cls punctC) 0 (some 4) true)).runs
        ⟨p, c0 :: (d ++ ((l.flatMap fun x => x.1 ++ x.2) ++ Y)), []⟩ ⟨p + 1, d ++ ((l.flatMap fun x => x.1 ++ x.2) ++ Y), []⟩ := by
      refine first_cat (first_cls hc0) ?_
      exact first_rep_cls (c := punctC) (w := []) (by simp) 0 4 (p + 1) _ [] (by simp) (by simp) (.inr (by
        intro u h
        rw [hv] at h
        cases h
        exact (digit_punct hvd).1))
    obtain ⟨cs, hk⟩ := key (p + 1)
    refine ⟨cs, matchAt_first (e := b) ?_⟩
    have := first_cat (first_rep0 (optL_step (n := 1) f1 (by simp) (optL_stop (hstop _)))) hk
    have e : p + 1 + (d ++ l.flatMap fun x => x.1 ++ x.2).length + k = p + (c0 :: (d ++ l.flatMap fun x => x.1 ++ x.2)).length + k := by
      simp only [List.length_cons]; omega
    rw [e] at this
    simpa [List.append_assoc] using this

/-- The preferred match at the beginning of a number with an extension is the whole of it. -/
theorem matchAt_label {c0 : Nat} (hc0 : leadC.mem c0 = true) {plus : Bool} {d ext b : Str} {l : List (Str × Str)} {x : Str × Nat} (hd : Block d)
    (hl' : ∀ x ∈ l, PGap x.1 ∧ Block x.2) (hlen : l.length ≤ 20) (hx : x ∈ extensionLabels) (he1 : 1 ≤ ext.length) (he2 : ext.length ≤ x.2)
    (he3 : ∀ u ∈ ext, isDig u = true) (hb : Ends b) (hh : b.head? ≠ some 35) (p : Nat) :
    ∃ cs, matcherPattern.matchAt p ((if plus then [c0] else []) ++ (d ++ (l.flatMap fun x => x.1 ++ x.2)) ++ (x.1 ++ ext) ++ b) =
      some ⟨p, p + ((if plus then [c0] else []) ++ (d ++ (l.flatMap fun x => x.1 ++ x.2)) ++ (x.1 ++ ext) : Str).length, cs⟩ := by
  have hok := List.all_eq_true.1 labels_ok x hx
  simp only [labelOk, Bool.and_eq_true, List.all_eq_true, Bool.not_eq_true', Nat.ble_eq, Bool.or_eq_true, List.isEmpty_eq_false_iff,
    List.any_eq_true] at hok
  obtain ⟨⟨⟨⟨c1, c2⟩, c3⟩, c4⟩, c5⟩ := hok
  have hnd : ∀ u ∈ x.1, ndC.mem u = false := fun u hu => (c1 u hu).1.1
  have hbs := hb.stops
  have hstop : Stops ndC (x.1 ++ (ext ++ b)) := by
    intro u hu
    cases hx1 : x.1 with
    | nil => exact absurd hx1 c3
    | cons v t =>
      rw [hx1] at hu
      cases hu
      exact hnd _ (by rw [hx1]; simp)
  have hX : ∀ q, ∃ cs, First (Re.rep extX 0 (some 1) true).runs ⟨q, x.1 ++ (ext ++ b), []⟩ ⟨q + (x.1.length + ext.length), b, cs⟩ := by
    intro q
    obtain ⟨cs, h⟩ := labelPick_first hnd he3 he1 he2 hbs hh q extX.alts c2
    rw [← alts_eq] at h
    exact ⟨cs, first_rep0 (optL_step (n := 0) h (by simp only [List.length_append]; omega) rfl)⟩
  have hcase : (∃ u ∈ x.1, punctC.mem u = false) ∨ (x.1.length ≤ 4 ∧ ∀ u ∈ x.1, punctC.mem u = true) := by
    by_cases h : ∃ u ∈ x.1, punctC.mem u = false
    · exact .inl h
    · refine .inr ⟨c5.resolve_left h, fun u hu => ?_⟩
      cases hp : punctC.mem u with
      | true => rfl
      | false => exact absurd ⟨u, hu, hp⟩ h
  by_cases h20 : l.length = 20
  · obtain ⟨cs, h⟩ := matchAt_lead hc0 (plus := plus) hd hl' hlen hstop (.inl h20) hX p
    refine ⟨cs, ?_⟩
    simp only [List.append_assoc, List.length_append, Nat.add_assoc] at h ⊢
    exact h
  · rcases hcase with hcase | hcase
    · obtain ⟨cs, h⟩ := matchAt_lead hc0 (plus := plus) hd hl' hlen hstop (.inr fun q => not_block hnd hcase q) hX p
      refine ⟨cs, ?_⟩
      simp only [List.append_assoc, List.length_append, Nat.add_assoc] at h ⊢
      exact h
    · -- the label is a gap
      obtain ⟨cs, h⟩ := matchAt_lead hc0 (plus := plus) (Y := b) (b := b) (k := 0) (l := l ++ [(x.1, ext)]) hd (by
          intro y hy
          rcases List.mem_append.1 hy with hy | hy
          · exact hl' y hy
          · rw [List.mem_singleton] at hy
            subst hy
            exact ⟨⟨List.length_pos_iff.2 c3, hcase.1, fun u hu => ⟨hcase.2 u hu, hnd u hu⟩⟩, he1, by dsimp only; omega, he3⟩)
        (by simp only [List.length_append, List.length_cons, List.length_nil]; omega) hbs
        (.inr hb.blk)
        (fun q => ⟨[], first_rep0_stop (hb.ext q)⟩) p
      refine ⟨cs, ?_⟩
      simp only [List.flatMap_append, List.flatMap_cons, List.flatMap_nil, List.append_nil, List.append_assoc, List.length_append, Nat.add_assoc,
        Nat.add_zero] at h ⊢
      exact h

theorem matchAt_ext_ends {plus : Bool} {s ext b : Str} (hs : WithExtension plus s ext) (hb : Ends b) (hh : b.head? ≠ some 35) (p : Nat) :
    ∃ cs, matcherPattern.matchAt p (s ++ b) = some ⟨p, p + s.length, cs⟩ := by
  obtain ⟨w, x, rfl, ⟨d, l, rfl, hd, hlen, hl⟩, hx, he1, he2, he3⟩ := hs
  exact matchAt_label (c0 := 43) (by decide) hd (fun y hy => ⟨pGap_of (hl y hy).1, (hl y hy).2⟩) hlen hx he1 he2 he3 hb hh p

theorem pGap_local {p : Str} (h : LocalGap p) : PGap p := ⟨h.1, h.2.1, fun u hu => ⟨(localGap_punct (h.2.2 u hu)).1, (localGap_punct (h.2.2 u hu)).2.1⟩⟩

theorem matchAt_localExt {lead : Bool} {s ext b : Str} (hs : LocalExtension lead s ext) (hb : Ends b) (hh : b.head? ≠ some 35) (p : Nat) :
    ∃ cs, matcherPattern.matchAt p (s ++ b) = some ⟨p, p + s.length, cs⟩ := by
  obtain ⟨w, x, rfl, ⟨d, l, rfl, hd, hlen, hl, -⟩, hx, he1, he2, he3⟩ := hs
  exact matchAt_label (c0 := 40) (by decide) hd (fun y hy => ⟨pGap_local (hl y hy).1, (hl y hy).2⟩) hlen hx he1 he2 he3 hb hh p

/-- The preferred match at the beginning of a number, however it is written, is the whole of it. -/
theorem matchAt_writes {lead : Bool} {s b : Str} (hs : Writes lead s) (hb : Ends b) (hh : b.head? ≠ some 35) (p : Nat) :
    ∃ cs, matcherPattern.matchAt p (s ++ b) = some ⟨p, p + s.length, cs⟩ := by
  rcases hs with ⟨d, l, rfl, hd, hlen, hl⟩ | ⟨ext, hs⟩ | ⟨d, l, rfl, hd, hlen, hl, -⟩ | ⟨ext, hs⟩
  · exact matchAt_lead (c0 := 43) (by decide) (k := 0) hd (fun x hx => ⟨pGap_of (hl x hx).1, (hl x hx).2⟩) hlen hb.stops (.inr hb.blk)
      (fun q => ⟨[], first_rep0_stop (hb.ext q)⟩) p
  · exact matchAt_ext_ends hs hb hh p
  · exact matchAt_lead (c0 := 40) (by decide) (k := 0) hd (fun x hx => ⟨pGap_local (hl x hx).1, (hl x hx).2⟩) hlen hb.stops (.inr hb.blk)
      (fun q => ⟨[], first_rep0_stop (hb.ext q)⟩) p
  · exact matchAt_localExt hs hb hh p

theorem ext_ne {plus : Bool} {s ext : Str} (hs : WithExtension plus s ext) : s ≠ [] := by
  obtain ⟨w, x, rfl, -, -, he, -⟩ := hs
  have := List.length_pos_iff.1 he
  simp [this]

theorem writes_ne {lead : Bool} {s : Str} (hs : Writes lead s) : s ≠ [] := by
  rcases hs with hs | ⟨ext, hs⟩ | hs | ⟨ext, hs⟩
  · exact written_ne hs
  · exact ext_ne hs
  · exact local_ne hs
  · exact localExt_ne hs

theorem writes_brackets {lead : Bool} {s : Str} (hs : Writes lead s) : matchingBrackets.isMatch s = true := by
  rcases hs with hs | ⟨ext, hs⟩ | hs | ⟨ext, hs⟩
  · exact written_brackets hs
  · exact piece_brackets (ext_ne hs) (ext_chars hs)
  · exact local_brackets hs
  · exact paired_brackets (localExt_ne hs) (localExt_chars hs) (localExt_paired hs)

theorem writes_pages {lead : Bool} {s : Str} (hs : Writes lead s) : pubPages.isMatch s = false := by
  rcases hs with hs | ⟨ext, hs⟩ | hs | ⟨ext, hs⟩
  · exact written_pages hs
  · exact piece_pages (ext_chars hs)
  · exact local_pages hs
  · exact paired_pages (localExt_paired hs)

theorem writes_date {lead : Bool} {s : Str} (hs : Writes lead s) : slashSeparatedDates.isMatch s = false := by
  rcases hs with hs | ⟨ext, hs⟩ | hs | ⟨ext, hs⟩
  · exact written_date hs
  · exact piece_date (ext_chars hs)
  · exact local_date hs
  · exact localChar_date (localExt_chars hs)

theorem writes_trim {lead : Bool} {s : Str} (hs : Writes lead s) : trimAfterFirstMatch secondNumberStartPattern s = s := by
  rcases hs with hs | ⟨ext, hs⟩ | hs | ⟨ext, hs⟩
  · exact written_trim hs
  · exact piece_trim (ext_chars hs)
  · exact local_trim hs
  · exact localChar_trim (localExt_chars hs)

theorem ext_plus {s ext : Str} (hs : WithExtension true s ext) : ∃ t, s = 43 :: t := by
  obtain ⟨w, x, rfl, ⟨d, l, rfl, -⟩, -⟩ := hs
  exact ⟨_, rfl⟩

/-- How a number begins. -/
theorem writes_start {lead : Bool} {s : Str} (hs : Writes lead s) : ∃ (v : Nat) (t : Str), isDig v = true ∧
    s = (if lead then [if s.head? = some 43 then 43 else 40] else []) ++ v :: t := by
  have key : ∀ {plus : Bool} {s : Str}, WrittenNumber plus s → ∃ (v : Nat) (t : Str), isDig v = true ∧ s = (if plus then [43] else []) ++ v :: t := by
    rintro plus s ⟨d, l, rfl, hd, -, -⟩
    obtain ⟨v, t, rfl, hv⟩ := block_cons hd
    exact ⟨v, t ++ l.flatMap fun x => x.1 ++ x.2, hv, by simp⟩
  rcases hs with hs | ⟨ext, w, x, e, hs, -⟩ | ⟨d, l, e, hd, -, -, -⟩ | ⟨ext, w, x, e, ⟨d, l, e', hd, -, -, -⟩, -⟩
  · obtain ⟨v, t, hv, e⟩ := key hs
    refine ⟨v, t, hv, ?_⟩
    cases lead
    · exact e
    · have : s.head? = some 43 := by rw [e]; rfl
      rw [this]; exact e
  · obtain ⟨v, t, hv, e'⟩ := key hs
    refine ⟨v, t ++ (x.1 ++ ext), hv, ?_⟩
    cases lead
    · rw [e, e']; simp
    · have : s.head? = some 43 := by rw [e, e']; rfl
      rw [this, e, e']; simp
  · obtain ⟨v, t, rfl, hv⟩ := block_cons hd
    refine ⟨v, t ++ l.flatMap fun x => x.1 ++ x.2, hv, ?_⟩
    cases lead
    · rw [e]; simp
    · have : s.head? = some 40 := by rw [e]; rfl
      rw [this, e]; simp
  · obtain ⟨v, t, rfl, hv⟩ := block_cons hd
    refine ⟨v, t ++ (l.flatMap fun x => x.1 ++ x.2) ++ (x.1 ++ ext), hv, ?_⟩
    cases lead
    · rw [e, e']; simp
    · have : s.head? = some 40 := by rw [e, e']; rfl
      rw [this, e, e']; simp

theorem writes_plus {lead : Bool} {s : Str} (hs : Writes lead s) (h : s.head? = some 43) : lead = true := by
  obtain ⟨v, t, hv, e⟩ := writes_start hs
  cases lead with
  | true => rfl
  | false =>
    rw [e] at h
    cases h
    cases hv

theorem splits_nil : ¬ Splits [] := by
  rintro (⟨u, hu, -⟩ | ⟨⟨u, hu, -⟩, -⟩) <;> cases hu

namespace Finder

theorem neighbours_writes {F : Finder} {lead : Bool} {a s b : Str} (ht : F.text = a ++ (s ++ b)) (hs : Writes lead s)
    (hc : Clear lead a b) : F.neighboursOk s a.length = true := by
  rcases hs with hs | ⟨ext, hs⟩ | hs | ⟨ext, hs⟩
  · exact neighbours_written ht hs hc
  · exact neighbours_piece ht (by rintro rfl; exact ext_plus hs) hc
  · exact neighbours_local ht hs hc
  · exact neighbours_localExt ht (by
      rintro rfl
      obtain ⟨w, x, rfl, ⟨d, l, rfl, -⟩, -⟩ := hs
      exact ⟨_, rfl⟩) hc

/-- The search from the end of the number before finds the next number. -/
theorem find_next_mixed {F : Finder} {plus : Bool} {pre a s b : Str} {n : PhoneNumber} (ht : F.text = pre ++ (a ++ (s ++ b))) (ha : NoStart a)
    (hs : Writes plus s) (hb : Ends b) (hh : b.head? ≠ some 35) (hc : F.leniency ≠ .possible → Clear plus (pre ++ a) b)
    (hp : parseKeepRaw F.C s F.region = .ok (none, n)) (hv : F.leniency.verify F.C F.alt n s = .ok true) (t : Tries) (hk : 0 < t.left) :
    F.find pre.length t = .ok (some ⟨pre.length + a.length, s, Spec.Plain n⟩, t) := by
  have ht2 : F.text = (pre ++ a) ++ (s ++ b) := by rw [ht, List.append_assoc]
  have hl : (pre ++ a).length = pre.length + a.length := List.length_append
  have hpv : F.parseAndVerify s (pre.length + a.length) = .ok (some ⟨pre.length + a.length, s, Spec.Plain n⟩) := by
    rw [← hl]
    unfold parseAndVerify
    rw [writes_brackets hs, writes_pages hs]
    simp only [Bool.not_true, Bool.or_false, Bool.false_eq_true, if_false]
    rw [if_neg (by
      rintro ⟨h1, h2⟩
      rw [neighbours_writes ht2 hs (hc h1)] at h2
      cases h2)]
    have hp' : parseKeepRawToNumber F.C s F.region {} = .ok (none, n) := hp
    simp only [hp', hv, bind, Except.bind, pure, Except.pure]
    rfl
  have e2 : F.text.drop (pre.length + a.length + s.length) = b := by
    rw [ht2, ← List.append_assoc]
    exact List.drop_left' (by simp [Nat.add_assoc])
  have hem : F.extractMatch s (pre.length + a.length) t = .ok (some ⟨pre.length + a.length, s, Spec.Plain n⟩, t) := by
    unfold extractMatch looksLikeDate
    rw [writes_date hs, e2, hb.stamp, hpv, Bool.and_false, Bool.or_false, if_neg (by decide)]
    rfl
  have hsl : slice (a ++ (s ++ b)) a.length (a.length + s.length) = s := by
    unfold slice
    rw [List.drop_left, show a.length + s.length - a.length = s.length by omega, List.take_left]
  have hkl : ¬ t.left ≤ 0 := by omega
  obtain ⟨cs, hfind⟩ := find_piece ha (fun p => matchAt_writes hs hb hh p)
  unfold find
  rw [findLoop_succ, show F.text.drop pre.length = a ++ (s ++ b) by rw [ht, List.drop_left], hfind]
  simp only [hkl, if_false, hsl, writes_trim hs, hem]
  rfl

/-- What follows a number ends it. -/
theorem ends_of {l : List Mention} {rest : Str} (h1 : ∀ x ∈ l, NoStart x.before ∧ Writes x.plus x.raw)
    (h2 : ∀ x, l.head? = some x → x.raw.head? = some 43 ∨ Splits x.before) (hr : NoDigit rest) : Ends (textOf l rest) := by
  cases l with
  | nil => exact ends_quiet ⟨rest, [], by simp [textOf], hr, by simp⟩
  | cons x l =>
    obtain ⟨ha, hs⟩ := h1 x (by simp)
    obtain ⟨v, t, hv, e⟩ := writes_start hs
    rcases h2 x rfl with hp | ⟨u, hu, hw⟩ | ⟨hc, hn⟩
    · refine ends_quiet ⟨x.before, x.raw ++ textOf l rest, by simp [textOf], ha.1, ?_⟩
      intro w hw
      rw [List.head?_append, hp] at hw
      cases hw
      exact ⟨by decide +kernel, by decide +kernel⟩
    · obtain ⟨p, q, e⟩ := List.append_of_mem hu
      refine ends_quiet ⟨p, u :: q ++ (x.raw ++ textOf l rest), by simp [textOf, e], fun v hv => ha.1 v (by rw [e]; simp [hv]), ?_⟩
      intro v hv
      cases hv
      exact hw
    · by_cases h43 : x.raw.head? = some 43
      · refine ends_quiet ⟨x.before, x.raw ++ textOf l rest, by simp [textOf], ha.1, ?_⟩
        intro w hw
        rw [List.head?_append, h43] at hw
        cases hw
        exact ⟨by decide +kernel, by decide +kernel⟩
      · rw [if_neg h43] at e
        have et : textOf (x :: l) rest = (x.before ++ (if x.plus then [40] else [])) ++ v :: (t ++ textOf l rest) := by
          rw [show textOf (x :: l) rest = x.before ++ (x.raw ++ textOf l rest) by simp [textOf], e]
          simp
        rw [et]
        refine ends_comma hv ?_ ?_ ?_
        · intro u hu
          rcases List.mem_append.1 hu with h | h
          · exact ha.1 u h
          · split at h
            · rw [List.mem_singleton] at h; subst h; decide +kernel
            · cases h
        · obtain ⟨u, hu, hs⟩ := hc
          exact ⟨u, List.mem_append_left _ hu, hs⟩
        · intro u hu
          rcases List.mem_append.1 hu with h | h
          · exact hn u h
          · split at h
            · rw [List.mem_singleton] at h; subst h; decide
            · cases h

/-- The iteration returns all the numbers. -/
theorem iterate_mixed {F : Finder} {rest : Str} (hr : NoDigit rest) (hrh : rest.head? ≠ some 35) (hrs : F.leniency ≠ .possible → ∀ u, rest.head? = some u → ¬ Sticky u)
    (t : Tries) (hk : 0 < t.left) (l : List Mention) : ∀ (pre : Str) (fuel : Nat), l.length < fuel → F.text = pre ++ textOf l rest →
    (∀ x ∈ l, NoStart x.before ∧ Writes x.plus x.raw) → (∀ x ∈ l.tail, x.raw.head? = some 43 ∨ Splits x.before) → (∀ x ∈ l.tail, x.before.head? ≠ some 35) →
    (F.leniency ≠ .possible → ∀ x ∈ l, x.plus = false → ∀ u, x.before.getLast? = some u → ¬ Sticky u) →
    (pre ≠ [] → ∀ x, l.head? = some x → x.plus = false → x.before ≠ []) →
    (F.leniency ≠ .possible → ∀ x ∈ l.tail, ∀ u, x.before.head? = some u → ¬ Sticky u) →
    (∀ x ∈ l, parseKeepRaw F.C x.raw F.region = .ok (none, x.number) ∧ F.leniency.verify F.C F.alt x.number x.raw = .ok true) →
    ∃ ms c, F.iterate fuel ⟨.notReady, pre.length, t⟩ = .ok (ms, c) ∧
      ms.map (fun m => (m.start F.text, m.raw, m.number)) = expected (blen pre) l := by
  induction l with
  | nil =>
    intro pre fuel hf ht _ _ _ _ _ _ _
    obtain ⟨f, rfl⟩ : ∃ f, fuel = f + 1 := ⟨fuel - 1, by simp at hf; omega⟩
    have hf2 : F.find pre.length t = .ok (none, t) := by
      unfold find
      rw [findLoop_succ, show F.text.drop pre.length = rest by rw [ht, List.drop_left]; rfl, find_noDigit hr]
      simp only [show ¬ t.left ≤ 0 by omega, if_false]
    rw [iterate_succ, hf2]
    exact ⟨[], _, rfl, rfl⟩
  | cons x l ih =>
    intro pre fuel hf ht h1 h2 h2' h3 h4 h5 h6
    obtain ⟨f, rfl⟩ : ∃ f, fuel = f + 1 := ⟨fuel - 1, by simp at hf; omega⟩
    obtain ⟨ha, hs⟩ := h1 x (by simp)
    obtain ⟨hp, hv⟩ := h6 x (by simp)
    have ht1 : F.text = pre ++ (x.before ++ (x.raw ++ textOf l rest)) := by rw [ht]; simp [textOf]
    have hq : Ends (textOf l rest) := ends_of (fun y hy => h1 y (by simp [hy])) (fun y hy => h2 y (List.mem_of_mem_head? hy)) hr
    have hh : (textOf l rest).head? ≠ some 35 := by
      cases l with
      | nil => exact hrh
      | cons y l =>
        cases hb : y.before with
        | nil =>
          have hy := h2 y (by simp)
          rw [hb] at hy
          rcases hy with hy | hy
          · simp [textOf, hb, List.head?_append, hy]
          · exact absurd hy splits_nil
        | cons v q =>
          have := h2' y (by simp)
          rw [hb] at this
          simp only [textOf, List.flatMap_cons, hb]
          exact this
    have hcl : F.leniency ≠ .possible → Clear x.plus (pre ++ x.before) (textOf l rest) := by
      intro hlen
      refine ⟨?_, ?_⟩
      · cases l with
        | nil => exact fun u hu => hrs hlen u hu
        | cons y l =>
          intro u hu
          cases hb : y.before with
          | nil =>
            have hy := h2 y (by simp)
            rw [hb] at hy
            rcases hy with hy | hy
            · simp [textOf, hb, List.head?_append, hy] at hu
              subst hu
              exact fun h => absurd ((Props.sticky_iff 43).2 h) (by decide +kernel)
            · exact absurd hy splits_nil
          | cons v q =>
            simp [textOf, hb] at hu
            subst hu
            exact h5 hlen y (by simp) _ (by rw [hb]; rfl)
      · intro hpl u hu
        by_cases hb : x.before = []
        · by_cases hpre : pre = []
          · rw [hb, hpre] at hu; cases hu
          · exact absurd hb (h4 hpre x rfl hpl)
        · rw [List.getLast?_append] at hu
          obtain ⟨v, hv⟩ := Option.isSome_iff_exists.1 (List.getLast?_isSome.2 hb)
          rw [hv] at hu
          cases hu
          exact h3 hlen x (by simp) hpl _ hv
    have hf1 := find_next_mixed ht1 ha hs hq hh hcl hp hv t hk
    rw [iterate_succ, hf1]
    obtain ⟨ms, c, hi, he⟩ := ih (pre ++ (x.before ++ x.raw)) f (by simp at hf; omega) (by rw [ht1]; simp)
      (fun y hy => h1 y (by simp [hy])) (fun y hy => h2 y (List.mem_of_mem_tail hy)) (fun y hy => h2' y (List.mem_of_mem_tail hy)) (fun hl y hy => h3 hl y (by simp [hy]))
      (fun _ y hy hpl hb => by
        rcases h2 y (List.mem_of_mem_head? hy) with h | h
        · exact absurd (writes_plus (h1 y (List.mem_cons_of_mem _ (List.mem_of_mem_head? hy))).2 h) (by rw [hpl]; decide)
        · rw [hb] at h; exact splits_nil h)
      (fun hl y hy => h5 hl y (List.mem_of_mem_tail hy)) (fun y hy => h6 y (by simp [hy]))
    refine ⟨⟨pre.length + x.before.length, x.raw, Spec.Plain x.number⟩ :: ms, c, ?_, ?_⟩
    · show (F.iterate f ⟨.notReady, pre.length + x.before.length + x.raw.length, t⟩ >>= _) = _
      rw [show pre.length + x.before.length + x.raw.length = (pre ++ (x.before ++ x.raw)).length by simp [Nat.add_assoc], hi]
      rfl
    · rw [List.map_cons, he, expected.eq_2]
      have e1 : F.text.take (pre.length + x.before.length) = pre ++ x.before := by
        rw [ht1, ← List.append_assoc]
        exact List.take_left' (by simp)
      simp only [FoundNumber.start, e1]
      simp

end Finder
end Verif
