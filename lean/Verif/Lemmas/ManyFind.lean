import Verif.Lemmas.MatcherFind
import Verif.Lemmas.MatcherTotal
import Verif.Spec.Mentions
/-!
# Several numbers in one text are all found
-/
namespace Verif
open Spec

/-- No digit before the end of the text or a character that ends a number. -/
def Quiet (b : Str) : Prop := ∃ b1 b2, b = b1 ++ b2 ∧ NoDigit b1 ∧ ∀ u, b2.head? = some u → Wall u

/-- A class of glue. -/
def glueCls (c : Cls) : Bool := !c.neg && c.props.isEmpty && c.ranges.all fun r => glue.any fun g => Nat.ble g.1 r.1 && Nat.ble r.2 g.2

theorem glueCls_mem {c : Cls} (h : glueCls c = true) {u : Nat} (hu : c.mem u = true) : inRanges glue (rune u) = true := by
  simp only [glueCls, Bool.and_eq_true, Bool.not_eq_true', List.isEmpty_iff, List.all_eq_true, List.any_eq_true, Nat.ble_eq] at h
  obtain ⟨⟨h1, h2⟩, h3⟩ := h
  have hu : inRanges c.ranges (rune u) = true := by simpa [Cls.mem, Cls.has, h1, h2] using hu
  obtain ⟨r, hr, k1, k2⟩ := (inRanges_iff _ _).1 hu
  obtain ⟨g, hg, k3, k4⟩ := h3 r hr
  exact (inRanges_iff _ _).2 ⟨g, hg, by omega, by omega⟩

/-- Every class is the class of digits or one of glue. -/
def gluey (r : Re) : Bool := r.allCls fun c => decide (c = ndC) || glueCls c

theorem gluey_acc {r : Re} (hr : gluey r = true) {p : Nat} {w e : Str} (h : r.Acc p w e) : ∀ u ∈ w, ¬ Wall u := by
  refine allCls_acc ?_ r hr p w e h
  intro c hc u hu hw
  simp only [Bool.or_eq_true, decide_eq_true_eq] at hc
  rcases hc with rfl | hc
  · rw [ndC_nd, hw.1] at hu; cases hu
  · have h2 := hw.2; rw [glueCls_mem hc hu] at h2; cases h2

theorem quiet_prefix {b w e : Str} (hb : Quiet b) (h : b = w ++ e) (hw : ∀ u ∈ w, ¬ Wall u) : NoDigit w := by
  obtain ⟨b1, b2, rfl, h1, h2⟩ := hb
  rcases List.append_eq_append_iff.1 h with ⟨c, h3, h4⟩ | ⟨c, h3, h4⟩
  · cases c with
    | nil => rw [h3, List.append_nil]; exact h1
    | cons v c =>
      exact absurd (h2 v (by rw [h4]; rfl)) (hw v (by rw [h3]; simp))
  · intro u hu
    exact h1 u (by rw [h3]; simp [hu])

theorem must_quiet {r : Re} (hr : r.must (fun c => decide (c = ndC)) = true) (hg : gluey r = true) {p : Nat} {b w e : Str} (hb : Quiet b)
    (h : b = w ++ e) : ¬ r.Acc p w e := by
  intro ha
  have hn := quiet_prefix hb h (gluey_acc hg ha)
  obtain ⟨u, hu, c, hc, hm⟩ := must_acc r hr _ _ _ ha
  have : c = ndC := by simpa using hc
  rw [this, ndC_nd, hn u hu] at hm
  cases hm

theorem quiet_stops {b : Str} (hb : Quiet b) : Stops ndC b := by
  obtain ⟨b1, b2, rfl, h1, h2⟩ := hb
  intro u h
  rw [ndC_nd]
  cases b1 with
  | nil => exact (h2 u h).1
  | cons v b1 => cases h; exact h1 _ (by simp)

theorem matcherPattern_shape2 : ∃ X, matcherPattern =
    .cat (.rep (.cat (.cls leadC) (.rep (.cls punctC) 0 (some 4) true)) 0 (some 2) true)
      (.cat (.rep (.cls ndC) 1 (some 20) true)
        (.cat (.rep (.cat (.rep (.cls punctC) 0 (some 4) true) (.rep (.cls ndC) 1 (some 20) true)) 0 (some 20) true)
          (.rep X 0 (some 1) true))) ∧ X.must (fun c => decide (c = ndC)) = true ∧ gluey X = true :=
  ⟨_, rfl, by decide +kernel, by decide +kernel⟩

theorem stops_blocks_quiet {l : List (Str × Str)} (hl : ∀ x ∈ l, Gap x.1 ∧ Block x.2) {b : Str} (hb : Quiet b) :
    Stops ndC ((l.flatMap fun x => x.1 ++ x.2) ++ b) := by
  cases l with
  | nil => exact quiet_stops hb
  | cons x l =>
    obtain ⟨v, t, hv, hg⟩ := gap_cons (hl x (by simp)).1
    intro u h
    rw [List.flatMap_cons, hv] at h
    cases h
    exact (gap_punct hg).2.1

theorem first_blocks_quiet {l : List (Str × Str)} (hl : ∀ x ∈ l, Gap x.1 ∧ Block x.2) {b : Str} (hb : Quiet b) (n p : Nat) (hn : l.length ≤ n) :
    First (optL (Re.cat (.rep (.cls punctC) 0 (some 4) true) (.rep (.cls ndC) 1 (some 20) true)).runs true n)
      ⟨p, (l.flatMap fun x => x.1 ++ x.2) ++ b, []⟩ ⟨p + (l.flatMap fun x => x.1 ++ x.2).length, b, []⟩ := by
  induction l generalizing n p with
  | nil => exact optL_stop (runs_nil fun w e h => must_quiet (by decide +kernel) (by decide +kernel) hb h)
  | cons x l ih =>
    cases n with
    | zero => simp at hn
    | succ n =>
      obtain ⟨hg, hk⟩ := hl x (by simp)
      have hl' := fun y hy => hl y (List.mem_cons_of_mem x hy)
      rw [List.flatMap_cons, List.append_assoc, List.append_assoc]
      have f1 := first_rep_cls (c := punctC) (w := x.1) (fun u hu => (gap_punct (hg.2.2 u hu)).1) 0 4 p
        (x.2 ++ ((l.flatMap fun x => x.1 ++ x.2) ++ b)) [] (by omega) hg.2.1 (.inr (by
          obtain ⟨v, t, hv, hd⟩ := block_cons hk
          intro u h
          rw [hv] at h
          cases h
          exact (digit_punct hd).1))
      have f2 := first_rep_cls (c := ndC) (w := x.2) (fun u hu => ndC_digit (hk.2.2 u hu)) 1 20 (p + x.1.length)
        ((l.flatMap fun x => x.1 ++ x.2) ++ b) [] hk.1 hk.2.1 (.inr (stops_blocks_quiet hl' hb))
      refine optL_step (first_cat f1 f2) ?_ ?_
      · have := hk.1
        simp only [List.length_append]; omega
      · have := ih hl' n (p + x.1.length + x.2.length) (by simpa using hn)
        rw [show p + x.1.length + x.2.length + (l.flatMap fun x => x.1 ++ x.2).length =
          p + (x.1 ++ x.2 ++ l.flatMap fun x => x.1 ++ x.2).length by simp only [List.length_append]; omega] at this
        exact this

/-- The preferred match at the beginning of a written number is the whole number. -/
theorem matchAt_quiet {plus : Bool} {s b : Str} (hs : WrittenNumber plus s) (hb : Quiet b) (p : Nat) :
    matcherPattern.matchAt p (s ++ b) = some ⟨p, p + s.length, []⟩ := by
  obtain ⟨X, hX, hm, hgx⟩ := matcherPattern_shape2
  obtain ⟨d, l, rfl, hd, hlen, hl⟩ := hs
  refine matchAt_first (e := b) ?_
  rw [hX]
  have key : ∀ q, First (Re.cat (.rep (.cls ndC) 1 (some 20) true)
        (.cat (.rep (.cat (.rep (.cls punctC) 0 (some 4) true) (.rep (.cls ndC) 1 (some 20) true)) 0 (some 20) true)
          (.rep X 0 (some 1) true))).runs ⟨q, d ++ ((l.flatMap fun x => x.1 ++ x.2) ++ b), []⟩
        ⟨q + (d ++ l.flatMap fun x => x.1 ++ x.2).length, b, []⟩ := by
    intro q
    rw [List.length_append, ← Nat.add_assoc]
    exact first_cat (first_rep_cls (fun u hu => ndC_digit (hd.2.2 u hu)) 1 20 q _ [] hd.1 hd.2.1 (.inr (stops_blocks_quiet hl hb)))
      (first_cat (first_rep0 (first_blocks_quiet hl hb 20 _ hlen)) (first_rep0_stop (runs_nil fun w e h => must_quiet hm hgx hb h)))
  obtain ⟨v, t, hv, hvd⟩ := block_cons hd
  have hstop : ∀ q, (Re.cat (.cls leadC) (.rep (.cls punctC) 0 (some 4) true)).runs ⟨q, d ++ ((l.flatMap fun x => x.1 ++ x.2) ++ b), []⟩ = [] := by
    intro q
    have : (Re.cls leadC).runs ⟨q, d ++ ((l.flatMap fun x => x.1 ++ x.2) ++ b), []⟩ = [] := runs_cls_stop (by
      intro u h
      rw [hv] at h
      cases h
      exact (digit_punct hvd).2)
    simp only [Re.runs] at this ⊢
    rw [this]
    rfl
  cases plus with
  | false =>
    have := first_cat (first_rep0_stop (n := 2) (hstop p)) (key p)
    simpa [List.append_assoc] using this
  | true =>
    have f1 : First (Re.cat (.cls leadC) (.rep (.cls punctC) 0 (some 4) true)).runs
        ⟨p, 43 :: (d ++ ((l.flatMap fun x => x.1 ++ x.2) ++ b)), []⟩ ⟨p + 1, d ++ ((l.flatMap fun x => x.1 ++ x.2) ++ b), []⟩ := by
      refine first_cat (first_cls (by decide)) ?_
      exact first_rep_cls (c := punctC) (w := []) (by simp) 0 4 (p + 1) _ [] (by simp) (by simp) (.inr (by
        intro u h
        rw [hv] at h
        cases h
        exact (digit_punct hvd).1))
    have := first_cat (first_rep0 (optL_step (n := 1) f1 (by simp) (optL_stop (hstop _)))) (key (p + 1))
    have e : p + 1 + (d ++ l.flatMap fun x => x.1 ++ x.2).length = p + (43 :: (d ++ l.flatMap fun x => x.1 ++ x.2)).length := by
      simp only [List.length_cons]; omega
    rw [e] at this
    simpa [List.append_assoc] using this

/-- The search of a text gives its first number. -/
theorem find_quiet {plus : Bool} {a s b : Str} (ha : NoStart a) (hs : WrittenNumber plus s) (hb : Quiet b) :
    matcherPattern.find (a ++ (s ++ b)) = some ⟨a.length, a.length + s.length, []⟩ := by
  unfold Re.find
  rw [findFrom_skip (by rw [Finder.matcherPattern_minLen]; omega) (fun u hu => noStart_canStart (by rw [ndC_nd]; exact ha.1 u hu) (ha.2 u hu))]
  have hm := matchAt_quiet hs hb (0 + a.length)
  rw [Nat.zero_add] at hm ⊢
  cases hsb : s ++ b with
  | nil => rw [hsb] at hm; unfold Re.findFrom; exact hm
  | cons u t => rw [hsb] at hm; unfold Re.findFrom; rw [hm]

theorem quiet_stamp {b : Str} (hb : Quiet b) : timeStampsSuffix.matchesAtStart b = false := by
  cases h : timeStampsSuffix.matchesAtStart b with
  | false => rfl
  | true =>
    obtain ⟨w, e, h1, h2⟩ := (matchesAtStart_iff _ _).1 h
    have hdig : ∀ c : Cls, (c = ⟨false, [(48, 57)], []⟩ ∨ c = ⟨false, [(48, 53)], []⟩) → ∀ u, c.mem u = true → inRanges ndTable (rune u) = true := by
      intro c hc u hm
      have hm : (48 ≤ rune u) ∧ rune u ≤ 57 := by
        rcases hc with rfl | rfl
        · simpa [Cls.mem, Cls.has, inRanges] using hm
        · have : 48 ≤ rune u ∧ rune u ≤ 53 := by simpa [Cls.mem, Cls.has, inRanges] using hm
          omega
      exact (inRanges_iff _ _).2 ⟨(48, 57), by decide, by simpa using hm⟩
    have hw : ∀ u ∈ w, ¬ Wall u := by
      refine allCls_acc (P := fun c => decide (c = ⟨false, [(48, 57)], []⟩) || decide (c = ⟨false, [(48, 53)], []⟩) || glueCls c) ?_
        timeStampsSuffix (by decide +kernel) _ w e h2
      intro c hc u hu hw
      simp only [Bool.or_eq_true, decide_eq_true_eq] at hc
      rcases hc with hc | hc
      · have h3 := hw.1; rw [hdig c hc u hu] at h3; cases h3
      · have h3 := hw.2; rw [glueCls_mem hc hu] at h3; cases h3
    obtain ⟨u, hu, c, hc, hm⟩ := must_acc (P := fun c => decide (c = ⟨false, [(48, 57)], []⟩)) timeStampsSuffix (by decide +kernel) _ _ _ h2
    have hn := quiet_prefix hb h1 hw u hu
    rw [hdig c (.inl (by simpa using hc)) u hm] at hn
    cases hn

namespace Finder

/-- The search from the end of the number before finds the next number. -/
theorem find_next {F : Finder} {plus : Bool} {pre a s b : Str} {n : PhoneNumber} (ht : F.text = pre ++ (a ++ (s ++ b))) (ha : NoStart a)
    (hs : WrittenNumber plus s) (hb : Quiet b) (hc : F.leniency ≠ .possible → Clear plus (pre ++ a) b)
    (hp : parseKeepRaw F.C s F.region = .ok (none, n)) (hv : F.leniency.verify F.C F.alt n s = .ok true) (t : Tries) (hk : 0 < t.left) :
    F.find pre.length t = .ok (some ⟨pre.length + a.length, s, Spec.Plain n⟩, t) := by
  have ht2 : F.text = (pre ++ a) ++ (s ++ b) := by rw [ht, List.append_assoc]
  have hl : (pre ++ a).length = pre.length + a.length := List.length_append
  have hpv : F.parseAndVerify s (pre.length + a.length) = .ok (some ⟨pre.length + a.length, s, Spec.Plain n⟩) := by
    rw [← hl]
    unfold parseAndVerify
    rw [written_brackets hs, written_pages hs]
    simp only [Bool.not_true, Bool.or_false, Bool.false_eq_true, if_false]
    rw [if_neg (by
      rintro ⟨h1, h2⟩
      rw [neighbours_written ht2 hs (hc h1)] at h2
      cases h2)]
    have hp' : parseKeepRawToNumber F.C s F.region {} = .ok (none, n) := hp
    simp only [hp', hv, bind, Except.bind, pure, Except.pure]
    rfl
  have e2 : F.text.drop (pre.length + a.length + s.length) = b := by
    rw [ht2, ← List.append_assoc]
    exact List.drop_left' (by simp [Nat.add_assoc])
  have hem : F.extractMatch s (pre.length + a.length) t = .ok (some ⟨pre.length + a.length, s, Spec.Plain n⟩, t) := by
    unfold extractMatch looksLikeDate
    rw [written_date hs, e2, quiet_stamp hb, hpv, Bool.and_false, Bool.or_false, if_neg (by decide)]
    rfl
  have hsl : slice (a ++ (s ++ b)) a.length (a.length + s.length) = s := by
    unfold slice
    rw [List.drop_left, show a.length + s.length - a.length = s.length by omega, List.take_left]
  have hkl : ¬ t.left ≤ 0 := by omega
  unfold find
  rw [findLoop_succ, show F.text.drop pre.length = a ++ (s ++ b) by rw [ht, List.drop_left], find_quiet ha hs hb]
  simp only [hkl, if_false, hsl, written_trim hs, hem]
  rfl

/-- What follows a number keeps it apart. -/
theorem quiet_of {l : List Mention} {rest : Str} (h1 : ∀ x ∈ l, NoStart x.before ∧ WrittenNumber x.plus x.raw)
    (h2 : ∀ x, l.head? = some x → x.plus = true ∨ ∃ u ∈ x.before, Wall u) (hr : NoDigit rest) : Quiet (textOf l rest) := by
  cases l with
  | nil => exact ⟨rest, [], by simp [textOf], hr, by simp⟩
  | cons x l =>
    obtain ⟨ha, hs⟩ := h1 x (by simp)
    rcases h2 x rfl with hp | ⟨u, hu, hw⟩
    · refine ⟨x.before, x.raw ++ textOf l rest, by simp [textOf], ha.1, ?_⟩
      obtain ⟨d, m, e, -⟩ := hs
      intro v hv
      rw [e, hp] at hv
      cases hv
      exact ⟨by decide +kernel, by decide +kernel⟩
    · obtain ⟨p, q, e⟩ := List.append_of_mem hu
      refine ⟨p, u :: q ++ (x.raw ++ textOf l rest), by simp [textOf, e], fun v hv => ha.1 v (by rw [e]; simp [hv]), ?_⟩
      intro v hv
      cases hv
      exact hw

/-- The iteration returns all the numbers. -/
theorem iterate_mentions {F : Finder} {rest : Str} (hr : NoDigit rest) (hrs : F.leniency ≠ .possible → ∀ u, rest.head? = some u → ¬ Sticky u)
    (t : Tries) (hk : 0 < t.left) (l : List Mention) : ∀ (pre : Str) (fuel : Nat), l.length < fuel → F.text = pre ++ textOf l rest →
    (∀ x ∈ l, NoStart x.before ∧ WrittenNumber x.plus x.raw) → (∀ x ∈ l.tail, x.plus = true ∨ ∃ u ∈ x.before, Wall u) →
    (F.leniency ≠ .possible → ∀ x ∈ l, x.plus = false → ∀ u, x.before.getLast? = some u → ¬ Sticky u) →
    (pre ≠ [] → ∀ x, l.head? = some x → x.plus = false → x.before ≠ []) →
    (F.leniency ≠ .possible → ∀ x ∈ l.tail, ∀ u, x.before.head? = some u → ¬ Sticky u) →
    (∀ x ∈ l, parseKeepRaw F.C x.raw F.region = .ok (none, x.number) ∧ F.leniency.verify F.C F.alt x.number x.raw = .ok true) →
    ∃ ms c, F.iterate fuel ⟨.notReady, pre.length, t⟩ = .ok (ms, c) ∧
      ms.map (fun m => (m.start F.text, m.raw, m.number)) = expected (blen pre) l := by
  induction l with
  | nil =>
    intro pre fuel hf ht _ _ _ _ _ _
    obtain ⟨f, rfl⟩ : ∃ f, fuel = f + 1 := ⟨fuel - 1, by simp at hf; omega⟩
    have hf2 : F.find pre.length t = .ok (none, t) := by
      unfold find
      rw [findLoop_succ, show F.text.drop pre.length = rest by rw [ht, List.drop_left]; rfl, find_noDigit hr]
      simp only [show ¬ t.left ≤ 0 by omega, if_false]
    rw [iterate_succ, hf2]
    exact ⟨[], _, rfl, rfl⟩
  | cons x l ih =>
    intro pre fuel hf ht h1 h2 h3 h4 h5 h6
    obtain ⟨f, rfl⟩ : ∃ f, fuel = f + 1 := ⟨fuel - 1, by simp at hf; omega⟩
    obtain ⟨ha, hs⟩ := h1 x (by simp)
    obtain ⟨hp, hv⟩ := h6 x (by simp)
    have ht1 : F.text = pre ++ (x.before ++ (x.raw ++ textOf l rest)) := by rw [ht]; simp [textOf]
    have hq : Quiet (textOf l rest) := quiet_of (fun y hy => h1 y (by simp [hy])) (fun y hy => h2 y (List.mem_of_mem_head? hy)) hr
    have hcl : F.leniency ≠ .possible → Clear x.plus (pre ++ x.before) (textOf l rest) := by
      intro hlen
      refine ⟨?_, ?_⟩
      · cases l with
        | nil => exact fun u hu => hrs hlen u hu
        | cons y l =>
          intro u hu
          cases hb : y.before with
          | nil =>
            have hy := h2 y (by simp)
            rw [hb] at hy
            rcases hy with hy | ⟨v, hv, -⟩
            · obtain ⟨d, m, e, -⟩ := (h1 y (by simp)).2
              rw [hy] at e
              simp [textOf, hb, e] at hu
              subst hu
              exact fun h => absurd ((Props.sticky_iff 43).2 h) (by decide +kernel)
            · cases hv
          | cons v q =>
            simp [textOf, hb] at hu
            subst hu
            exact h5 hlen y (by simp) _ (by rw [hb]; rfl)
      · intro hpl u hu
        by_cases hb : x.before = []
        · by_cases hpre : pre = []
          · rw [hb, hpre] at hu; cases hu
          · exact absurd hb (h4 hpre x rfl hpl)
        · rw [List.getLast?_append] at hu
          obtain ⟨v, hv⟩ := Option.isSome_iff_exists.1 (List.getLast?_isSome.2 hb)
          rw [hv] at hu
          cases hu
          exact h3 hlen x (by simp) hpl _ hv
    have hf1 := find_next ht1 ha hs hq hcl hp hv t hk
    rw [iterate_succ, hf1]
    obtain ⟨ms, c, hi, he⟩ := ih (pre ++ (x.before ++ x.raw)) f (by simp at hf; omega) (by rw [ht1]; simp)
      (fun y hy => h1 y (by simp [hy])) (fun y hy => h2 y (List.mem_of_mem_tail hy)) (fun hl y hy => h3 hl y (by simp [hy]))
      (fun _ y hy hpl hb => by
        rcases h2 y (List.mem_of_mem_head? hy) with h | ⟨u, hu, -⟩
        · rw [hpl] at h; cases h
        · rw [hb] at hu; cases hu)
      (fun hl y hy => h5 hl y (List.mem_of_mem_tail hy)) (fun y hy => h6 y (by simp [hy]))
    refine ⟨⟨pre.length + x.before.length, x.raw, Spec.Plain x.number⟩ :: ms, c, ?_, ?_⟩
    · show (F.iterate f ⟨.notReady, pre.length + x.before.length + x.raw.length, t⟩ >>= _) = _
      rw [show pre.length + x.before.length + x.raw.length = (pre ++ (x.before ++ x.raw)).length by simp [Nat.add_assoc], hi]
      rfl
    · rw [List.map_cons, he, expected.eq_2]
      have e1 : F.text.take (pre.length + x.before.length) = pre ++ x.before := by
        rw [ht1, ← List.append_assoc]
        exact List.take_left' (by simp)
      simp only [FoundNumber.start, e1]
      simp

end Finder
end Verif
