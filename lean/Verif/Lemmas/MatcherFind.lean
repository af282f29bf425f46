import Verif.Lemmas.Matcher
import Verif.Lemmas.Context
import Verif.Regex.Greedy
import Verif.Regex.Acc
import Verif.Props.C63
/-!
# A number written in a text without other digits is found
-/
namespace Verif
open Spec

/-- The class of `leadClass`. -/
def leadC : Cls := ⟨false, [(40, 40), (91, 91), (65288, 65288), (65339, 65339), (43, 43), (65291, 65291)], []⟩

/-- The class of `matcherPunctuation`. -/
def punctC : Cls := ⟨false, [(45, 45), (88, 88), (120, 120), (8208, 8213), (8722, 8722), (12540, 12540), (65293, 65295), (32, 32),
  (160, 160), (173, 173), (8203, 8203), (8288, 8288), (12288, 12288), (40, 40), (41, 41), (65288, 65288), (65289, 65289),
  (65339, 65339), (65341, 65341), (46, 46), (91, 91), (93, 93), (47, 47), (126, 126), (8275, 8275), (8764, 8764), (65374, 65374)], []⟩

theorem matcherPattern_shape : ∃ X, matcherPattern =
    .cat (.rep (.cat (.cls leadC) (.rep (.cls punctC) 0 (some 4) true)) 0 (some 2) true)
      (.cat (.rep (.cls ndC) 1 (some 20) true)
        (.cat (.rep (.cat (.rep (.cls punctC) 0 (some 4) true) (.rep (.cls ndC) 1 (some 20) true)) 0 (some 20) true)
          (.rep X 0 (some 1) true))) ∧ X.must (fun c => decide (c = ndC)) = true :=
  ⟨_, rfl, by decide +kernel⟩

theorem ndC_nd (u : Nat) : ndC.mem u = inRanges ndTable (rune u) := by
  simp [ndC, Cls.mem, Cls.has, inRanges, UProp.mem]

theorem ndC_digit {u : Nat} (h : isDig u = true) : ndC.mem u = true := by
  rw [ndC_nd]
  have hu : 48 ≤ u ∧ u ≤ 57 := by simpa [isDig] using h
  rw [Props.rune_of_lt (by simp [badBase]; omega)]
  exact (inRanges_iff _ _).2 ⟨(48, 57), by decide, by simpa using hu⟩

theorem noDigit_cons {u : Nat} {s : Str} (h : NoDigit (u :: s)) : ndC.mem u = false := by
  rw [ndC_nd]; exact h u (by simp)

theorem must_noDigit {r : Re} (hr : r.must (fun c => decide (c = ndC)) = true) {p : Nat} {w e : Str} (h : NoDigit (w ++ e)) : ¬ r.Acc p w e := by
  intro ha
  obtain ⟨u, hu, c, hc, hm⟩ := must_acc r hr _ _ _ ha
  have : c = ndC := by simpa using hc
  rw [this, ndC_nd, h u (by simp [hu])] at hm
  cases hm

theorem gap_punct {u : Nat} (h : u = 32 ∨ u = 45 ∨ u = 46) : punctC.mem u = true ∧ ndC.mem u = false ∧ isDig u = false := by
  rcases h with rfl | rfl | rfl <;> decide +kernel

theorem digit_punct {u : Nat} (h : isDig u = true) : punctC.mem u = false ∧ leadC.mem u = false := by
  have hu : 48 ≤ u ∧ u ≤ 57 := by simpa [isDig] using h
  have hall : ∀ v ∈ List.range' 48 10, punctC.mem v = false ∧ leadC.mem v = false := by decide +kernel
  exact hall u (by rw [List.mem_range'_1]; omega)

theorem block_cons {d : Str} (h : Block d) : ∃ u t, d = u :: t ∧ isDig u = true := by
  cases d with
  | nil => exact absurd h.1 (by simp)
  | cons u t => exact ⟨u, t, rfl, h.2.2 u (by simp)⟩

theorem gap_cons {d : Str} (h : Gap d) : ∃ u t, d = u :: t ∧ (u = 32 ∨ u = 45 ∨ u = 46) := by
  cases d with
  | nil => exact absurd h.1 (by simp)
  | cons u t => exact ⟨u, t, rfl, h.2.2 u (by simp)⟩

/-- What follows a block of digits does not start with a digit. -/
theorem stops_blocks {l : List (Str × Str)} (hl : ∀ x ∈ l, Gap x.1 ∧ Block x.2) {b : Str} (hb : NoDigit b) :
    Stops ndC ((l.flatMap fun x => x.1 ++ x.2) ++ b) := by
  cases l with
  | nil =>
    cases b with
    | nil => intro u h; cases h
    | cons v b => intro u h; cases h; exact noDigit_cons hb
  | cons x l =>
    obtain ⟨v, t, hv, hg⟩ := gap_cons (hl x (by simp)).1
    intro u h
    rw [List.flatMap_cons, hv] at h
    cases h
    exact (gap_punct hg).2.1

theorem first_blocks {l : List (Str × Str)} (hl : ∀ x ∈ l, Gap x.1 ∧ Block x.2) {b : Str} (hb : NoDigit b) (n p : Nat) (hn : l.length ≤ n) :
    First (optL (Re.cat (.rep (.cls punctC) 0 (some 4) true) (.rep (.cls ndC) 1 (some 20) true)).runs true n)
      ⟨p, (l.flatMap fun x => x.1 ++ x.2) ++ b, []⟩ ⟨p + (l.flatMap fun x => x.1 ++ x.2).length, b, []⟩ := by
  induction l generalizing n p with
  | nil =>
    refine optL_stop (runs_nil fun w e h => ?_)
    refine must_noDigit (by decide +kernel) ?_
    have h : b = w ++ e := h
    rw [← h]; exact hb
  | cons x l ih =>
    cases n with
    | zero => simp at hn
    | succ n =>
      obtain ⟨hg, hk⟩ := hl x (by simp)
      have hl' := fun y hy => hl y (List.mem_cons_of_mem x hy)
      rw [List.flatMap_cons, List.append_assoc, List.append_assoc]
      have f1 := first_rep_cls (c := punctC) (w := x.1) (fun u hu => (gap_punct (hg.2.2 u hu)).1) 0 4 p
        (x.2 ++ ((l.flatMap fun x => x.1 ++ x.2) ++ b)) [] (by omega) hg.2.1 (.inr (by
          obtain ⟨v, t, hv, hd⟩ := block_cons hk
          intro u h
          rw [hv] at h
          cases h
          exact (digit_punct hd).1))
      have f2 := first_rep_cls (c := ndC) (w := x.2) (fun u hu => ndC_digit (hk.2.2 u hu)) 1 20 (p + x.1.length)
        ((l.flatMap fun x => x.1 ++ x.2) ++ b) [] hk.1 hk.2.1 (.inr (stops_blocks hl' hb))
      refine optL_step (first_cat f1 f2) ?_ ?_
      · have := hk.1
        simp only [List.length_append]; omega
      · have := ih hl' n (p + x.1.length + x.2.length) (by simpa using hn)
        rw [show p + x.1.length + x.2.length + (l.flatMap fun x => x.1 ++ x.2).length =
          p + (x.1 ++ x.2 ++ l.flatMap fun x => x.1 ++ x.2).length by simp only [List.length_append]; omega] at this
        exact this

/-- The preferred match at the beginning of a written number is the whole number. -/
theorem matchAt_written {plus : Bool} {s b : Str} (hs : WrittenNumber plus s) (hb : NoDigit b) (p : Nat) :
    matcherPattern.matchAt p (s ++ b) = some ⟨p, p + s.length, []⟩ := by
  obtain ⟨X, hX, hm⟩ := matcherPattern_shape
  obtain ⟨d, l, rfl, hd, hlen, hl⟩ := hs
  refine matchAt_first (e := b) ?_
  rw [hX]
  have key : ∀ q, First (Re.cat (.rep (.cls ndC) 1 (some 20) true)
        (.cat (.rep (.cat (.rep (.cls punctC) 0 (some 4) true) (.rep (.cls ndC) 1 (some 20) true)) 0 (some 20) true)
          (.rep X 0 (some 1) true))).runs ⟨q, d ++ ((l.flatMap fun x => x.1 ++ x.2) ++ b), []⟩
        ⟨q + (d ++ l.flatMap fun x => x.1 ++ x.2).length, b, []⟩ := by
    intro q
    rw [List.length_append, ← Nat.add_assoc]
    refine first_cat (first_rep_cls (fun u hu => ndC_digit (hd.2.2 u hu)) 1 20 q _ [] hd.1 hd.2.1 (.inr (stops_blocks hl hb)))
      (first_cat (first_rep0 (first_blocks hl hb 20 _ hlen)) (first_rep0_stop (runs_nil fun w e h => ?_)))
    refine must_noDigit hm ?_
    have h : b = w ++ e := h
    rw [← h]; exact hb
  obtain ⟨v, t, hv, hvd⟩ := block_cons hd
  have hstop : ∀ q, (Re.cat (.cls leadC) (.rep (.cls punctC) 0 (some 4) true)).runs ⟨q, d ++ ((l.flatMap fun x => x.1 ++ x.2) ++ b), []⟩ = [] := by
    intro q
    have : (Re.cls leadC).runs ⟨q, d ++ ((l.flatMap fun x => x.1 ++ x.2) ++ b), []⟩ = [] := runs_cls_stop (by
      intro u h
      rw [hv] at h
      cases h
      exact (digit_punct hvd).2)
    simp only [Re.runs] at this ⊢
    rw [this]
    rfl
  cases plus with
  | false =>
    have := first_cat (first_rep0_stop (n := 2) (hstop p)) (key p)
    simpa [List.append_assoc] using this
  | true =>
    have f1 : First (Re.cat (.cls leadC) (.rep (.cls punctC) 0 (some 4) true)).runs
        ⟨p, 43 :: (d ++ ((l.flatMap fun x => x.1 ++ x.2) ++ b)), []⟩ ⟨p + 1, d ++ ((l.flatMap fun x => x.1 ++ x.2) ++ b), []⟩ := by
      refine first_cat (first_cls (by decide)) ?_
      exact first_rep_cls (c := punctC) (w := []) (by simp) 0 4 (p + 1) _ [] (by simp) (by simp) (.inr (by
        intro u h
        rw [hv] at h
        cases h
        exact (digit_punct hvd).1))
    have := first_cat (first_rep0 (optL_step (n := 1) f1 (by simp) (optL_stop (hstop _)))) (key (p + 1))
    have e : p + 1 + (d ++ l.flatMap fun x => x.1 ++ x.2).length = p + (43 :: (d ++ l.flatMap fun x => x.1 ++ x.2)).length := by
      simp only [List.length_cons]; omega
    rw [e] at this
    simpa [List.append_assoc] using this

theorem noStart_canStart {u : Nat} (h1 : ndC.mem u = false) (h2 : u ∉ openings ∧ u ≠ 43 ∧ u ≠ 0xFF0B) :
    matcherPattern.canStart u = false := by
  obtain ⟨X, hX, _⟩ := matcherPattern_shape
  have h3 : leadC.mem u = false := by
    cases hc : leadC.mem u with
    | false => rfl
    | true =>
      have := ((Props.cls_mem_list [40, 91, 65288, 65339, 43, 65291] (by decide) u).1 hc).2
      simp only [openings, List.mem_cons, List.not_mem_nil, or_false] at this h2
      omega
  rw [hX]
  simp [Re.canStart, Re.nullable, h1, h3]

/-- The search of a text with one written number gives that number. -/
theorem find_written {plus : Bool} {a s b : Str} (ha : NoStart a) (hs : WrittenNumber plus s) (hb : NoDigit b) :
    matcherPattern.find (a ++ (s ++ b)) = some ⟨a.length, a.length + s.length, []⟩ := by
  unfold Re.find
  rw [findFrom_skip (by rw [Finder.matcherPattern_minLen]; omega) (fun u hu => noStart_canStart (by rw [ndC_nd]; exact ha.1 u hu) (ha.2 u hu))]
  have hm := matchAt_written hs hb (0 + a.length)
  rw [Nat.zero_add] at hm ⊢
  cases hsb : s ++ b with
  | nil => rw [hsb] at hm; unfold Re.findFrom; exact hm
  | cons u t => rw [hsb] at hm; unfold Re.findFrom; rw [hm]

theorem find_noDigit {b : Str} (hb : NoDigit b) : matcherPattern.find b = none := by
  cases hf : matcherPattern.find b with
  | none => rfl
  | some x =>
    obtain ⟨a, w, e, h1, _, _, h4, _⟩ := findFrom_sound hf
    refine absurd h4 (must_noDigit (by decide +kernel) fun u hu => hb u ?_)
    rw [h1]; exact List.mem_append_right _ hu

/-- The characters of a written number. -/
theorem written_mem {plus : Bool} {s : Str} (hs : WrittenNumber plus s) : ∀ u ∈ s, isDig u = true ∨ u = 43 ∨ u = 32 ∨ u = 45 ∨ u = 46 := by
  obtain ⟨d, l, rfl, hd, _, hl⟩ := hs
  intro u hu
  rcases List.mem_append.1 hu with h | h
  · cases plus with
    | false => cases h
    | true => right; left; simpa using h
  · rcases List.mem_append.1 h with h | h
    · exact .inl (hd.2.2 u h)
    · obtain ⟨x, hx, h⟩ := List.mem_flatMap.1 h
      rcases List.mem_append.1 h with h | h
      · right; right; exact (hl x hx).1.2.2 u h
      · exact .inl ((hl x hx).2.2.2 u h)

theorem written_small {u : Nat} (h : isDig u = true ∨ u = 43 ∨ u = 32 ∨ u = 45 ∨ u = 46) : 32 ≤ u ∧ u ≤ 57 ∧ u ≠ 40 ∧ u ≠ 41 ∧ u ≠ 47 := by
  rcases h with h | h
  · have : 48 ≤ u ∧ u ≤ 57 := by simpa [isDig] using h
    omega
  · omega

theorem written_ne {plus : Bool} {s : Str} (hs : WrittenNumber plus s) : s ≠ [] := by
  obtain ⟨d, l, rfl, hd, _, _⟩ := hs
  obtain ⟨v, t, rfl, _⟩ := block_cons hd
  simp

/-- No accepted word can lie in a text if each has a unit of a class that the text has none of. -/
theorem no_match_must {r : Re} {P : Cls → Bool} (hr : r.must P = true) {s : Str} (hs : ∀ u ∈ s, ∀ c, P c = true → c.mem u = false) :
    r.isMatch s = false := by
  cases h : r.isMatch s with
  | false => rfl
  | true =>
    obtain ⟨a, w, e, h1, h2⟩ := (isMatch_iff _ _).1 h
    obtain ⟨u, hu, c, hc, hm⟩ := must_acc r hr _ _ _ h2
    rw [hs u (by rw [h1]; simp [hu]) c hc] at hm
    cases hm

theorem written_brackets {plus : Bool} {s : Str} (hs : WrittenNumber plus s) : matchingBrackets.isMatch s = true := by
  refine (isMatch_iff _ _).2 ⟨[], s, [], by simp, ?_⟩
  refine ⟨[], s, rfl, ⟨rfl, rfl⟩, [], s, rfl, acc_opt.2 (.inl rfl), [], s, rfl, acc_opt.2 (.inl rfl), s, [], by simp, ?_, [], [], rfl,
    ⟨0, by simp, by simp, rfl⟩, [], [], rfl, acc_star_cls.2 (by simp), rfl, rfl⟩
  refine acc_plus_cls.2 ⟨written_ne hs, fun u hu => ?_⟩
  have hx := written_small (written_mem hs u hu)
  have e : rune u = u := Props.rune_of_lt (by simp [badBase]; omega)
  simp only [Cls.mem, Cls.has, e, inRanges_cons_self, show ∀ c, inRanges [] c = false from fun _ => rfl]
  simp
  omega

theorem written_pages {plus : Bool} {s : Str} (hs : WrittenNumber plus s) : pubPages.isMatch s = false := by
  refine no_match_must (P := fun c => decide (c = ⟨false, [(40, 40)], []⟩)) (by decide +kernel) fun u hu c hc => ?_
  have : c = ⟨false, [(40, 40)], []⟩ := by simpa using hc
  have hx := written_small (written_mem hs u hu)
  cases hm : c.mem u with
  | false => rfl
  | true => rw [this] at hm; have := (litCls_mem 40 (by decide) u).1 hm; omega

theorem written_date {plus : Bool} {s : Str} (hs : WrittenNumber plus s) : slashSeparatedDates.isMatch s = false := by
  refine no_match_must (P := fun c => decide (c = ⟨false, [(47, 47)], []⟩)) (by decide +kernel) fun u hu c hc => ?_
  have : c = ⟨false, [(47, 47)], []⟩ := by simpa using hc
  have hx := written_small (written_mem hs u hu)
  cases hm : c.mem u with
  | false => rfl
  | true => rw [this] at hm; have := (litCls_mem 47 (by decide) u).1 hm; omega

theorem written_trim {plus : Bool} {s : Str} (hs : WrittenNumber plus s) : trimAfterFirstMatch secondNumberStartPattern s = s := by
  unfold trimAfterFirstMatch
  split
  · rename_i x hx
    obtain ⟨a, w, e, h1, _, _, h4, _⟩ := findFrom_sound hx
    have hl : secondNumberStartPattern.minLen ≤ w.length := minLen_acc _ _ _ _ h4
    cases w with
    | nil => exact absurd hl (by decide)
    | cons u w =>
      have h5 := written_small (written_mem hs u (by rw [h1]; simp))
      have := Finder.second_start (canStart_acc h4)
      omega
  · rfl

theorem noDigit_stamp {b : Str} (hb : NoDigit b) : timeStampsSuffix.matchesAtStart b = false := by
  cases h : timeStampsSuffix.matchesAtStart b with
  | false => rfl
  | true =>
    obtain ⟨w, e, h1, h2⟩ := (matchesAtStart_iff _ _).1 h
    obtain ⟨u, hu, c, hc, hm⟩ := must_acc (P := fun c => decide (c = ⟨false, [(48, 57)], []⟩)) timeStampsSuffix (by decide +kernel) _ _ _ h2
    have hc : c = ⟨false, [(48, 57)], []⟩ := by simpa using hc
    have hd : ndC.mem u = true := by
      rw [ndC_nd]
      rw [hc] at hm
      have hm : (48 ≤ rune u) ∧ rune u ≤ 57 := by simpa [Cls.mem, Cls.has, inRanges] using hm
      exact (inRanges_iff _ _).2 ⟨(48, 57), by decide, by simpa using hm⟩
    rw [ndC_nd, hb u (by rw [h1]; simp [hu])] at hd
    cases hd

namespace Finder

/-- The neighbours of the number do not show that it is part of something else. -/
def Clear (plus : Bool) (a b : Str) : Prop :=
  (∀ u, b.head? = some u → ¬ Sticky u) ∧ (plus = false → ∀ u, a.getLast? = some u → ¬ Sticky u)

theorem neighbours_written {F : Finder} {plus : Bool} {a s b : Str} (ht : F.text = a ++ (s ++ b)) (hs : WrittenNumber plus s)
    (hc : Clear plus a b) : F.neighboursOk s a.length = true := by
  have hst : ∀ u, ¬ Sticky u → (isInvalidPunctuation (rune u) || isLatinLetter (rune u)) = false := fun u h =>
    Bool.eq_false_iff.2 fun h' => h ((Props.sticky_iff u).1 h')
  unfold neighboursOk
  dsimp only
  have e1 : F.text.take a.length = a := by rw [ht, List.take_left]
  have e2 : F.text.drop (a.length + s.length) = b := by
    rw [ht, ← List.append_assoc]
    exact List.drop_left' (by simp)
  rw [e1, e2]
  split
  · rename_i h
    exfalso
    obtain ⟨_, h2, h3⟩ := h
    cases plus with
    | true =>
      have : leadClassPattern.isMatch s = true := by
        obtain ⟨d, l, rfl, _⟩ := hs
        refine (isMatch_iff _ _).2 ⟨[], [43], d ++ l.flatMap fun x => x.1 ++ x.2, rfl, [], [43], rfl, ⟨rfl, rfl⟩, 43, rfl, by decide⟩
      unfold Re.isMatch at this
      cases hf : leadClassPattern.find s with
      | none => rw [hf] at this; cases this
      | some x => rw [hf] at h2; cases h2
    | false =>
      cases hl : a.getLast? with
      | none => rw [hl] at h3; cases h3
      | some u => rw [hl] at h3; simp [hst u (hc.2 rfl u hl)] at h3
  · cases hh : b.head? with
    | none => rfl
    | some u => simp [hst u (hc.1 u hh)]

/-- A number written in a text without other digits is found, if parsing and the leniency accept it, and nothing else is. -/
theorem findNumbers_written {F : Finder} {plus : Bool} {a s b : Str} {n : PhoneNumber} (ht : F.text = a ++ (s ++ b)) (ha : NoStart a)
    (hs : WrittenNumber plus s) (hb : NoDigit b) (hc : F.leniency ≠ .possible → Clear plus a b)
    (hp : parseKeepRaw F.C s F.region = .ok (none, n)) (hv : F.leniency.verify F.C F.alt n s = .ok true) (k : Int) (hk : 0 < k) :
    ∃ c, F.findNumbers k = .ok ([⟨a.length, s, Plain n⟩], c) := by
  have hpv : F.parseAndVerify s a.length = .ok (some ⟨a.length, s, Plain n⟩) := by
    unfold parseAndVerify
    rw [written_brackets hs, written_pages hs]
    simp only [Bool.not_true, Bool.or_false, Bool.false_eq_true, if_false]
    rw [if_neg (by
      rintro ⟨h1, h2⟩
      rw [neighbours_written ht hs (hc h1)] at h2
      cases h2)]
    have hp' : parseKeepRawToNumber F.C s F.region {} = .ok (none, n) := hp
    simp only [hp', hv, bind, Except.bind, pure, Except.pure]
    rfl
  have e2 : F.text.drop (a.length + s.length) = b := by
    rw [ht, ← List.append_assoc]
    exact List.drop_left' (by simp)
  have hem : ∀ t, F.extractMatch s a.length t = .ok (some ⟨a.length, s, Plain n⟩, t) := by
    intro t
    unfold extractMatch looksLikeDate
    rw [written_date hs, e2, noDigit_stamp hb, hpv, Bool.and_false, Bool.or_false, if_neg (by decide)]
    rfl
  have hsl : slice F.text a.length (a.length + s.length) = s := by
    rw [ht]
    unfold slice
    rw [List.drop_left, show a.length + s.length - a.length = s.length by omega, List.take_left]
  have hk0 : (if k < 0 then 0 else k) = k := if_neg (by omega)
  have hkl : ¬ k ≤ 0 := by omega
  have hf1 : F.find 0 ⟨k, 0, 0⟩ = .ok (some ⟨a.length, s, Plain n⟩, ⟨k, 0, 0⟩) := by
    unfold find
    rw [findLoop_succ, List.drop_zero, ht, find_written ha hs hb, ← ht]
    simp only [hkl, if_false, hsl, written_trim hs, Nat.zero_add, hem]
    rfl
  have hf2 : F.find (a.length + s.length) ⟨k, 0, 0⟩ = .ok (none, ⟨k, 0, 0⟩) := by
    unfold find
    rw [findLoop_succ, e2, find_noDigit hb]
    simp only [hkl, if_false]
  have hlen : 0 < F.text.length := by
    rw [ht]
    have := List.length_pos_iff.2 (written_ne hs)
    simp only [List.length_append]; omega
  obtain ⟨m, hm⟩ : ∃ m, F.text.length = m + 1 := ⟨F.text.length - 1, by omega⟩
  refine ⟨⟨.done, a.length + s.length, ⟨k, 0, 0⟩⟩, ?_⟩
  unfold findNumbers new
  rw [hk0, iterate_succ, hf1]
  show (F.iterate F.text.length ⟨.notReady, a.length + s.length, ⟨k, 0, 0⟩⟩ >>= _) = _
  rw [hm, iterate_succ, hf2]
  rfl

end Finder
end Verif
