import Verif.Spec.Local
import Verif.Lemmas.MatcherFind
/-!
# A number written as within a country, in a text without other digits, is found
-/
namespace Verif
open Spec

theorem localGap_punct {u : Nat} (h : u ∈ (str!" -.()")) : punctC.mem u = true ∧ ndC.mem u = false ∧ isDig u = false := by
  have : ∀ u ∈ (str!" -.()"), punctC.mem u = true ∧ ndC.mem u = false ∧ isDig u = false := by decide +kernel
  exact this u h

theorem localGap_cons {d : Str} (h : LocalGap d) : ∃ u t, d = u :: t ∧ u ∈ (str!" -.()") := by
  cases d with
  | nil => exact absurd h.1 (by simp)
  | cons u t => exact ⟨u, t, rfl, h.2.2 u (by simp)⟩

theorem stops_local {l : List (Str × Str)} (hl : ∀ x ∈ l, LocalGap x.1 ∧ Block x.2) {b : Str} (hb : NoDigit b) :
    Stops ndC ((l.flatMap fun x => x.1 ++ x.2) ++ b) := by
  cases l with
  | nil =>
    cases b with
    | nil => intro u h; cases h
    | cons v b => intro u h; cases h; exact noDigit_cons hb
  | cons x l =>
    obtain ⟨v, t, hv, hg⟩ := localGap_cons (hl x (by simp)).1
    intro u h
    rw [List.flatMap_cons, hv] at h
    cases h
    exact (localGap_punct hg).2.1

theorem first_local {l : List (Str × Str)} (hl : ∀ x ∈ l, LocalGap x.1 ∧ Block x.2) {b : Str} (hb : NoDigit b) (n p : Nat) (hn : l.length ≤ n) :
    First (optL (Re.cat (.rep (.cls punctC) 0 (some 4) true) (.rep (.cls ndC) 1 (some 20) true)).runs true n)
      ⟨p, (l.flatMap fun x => x.1 ++ x.2) ++ b, []⟩ ⟨p + (l.flatMap fun x => x.1 ++ x.2).length, b, []⟩ := by
  induction l generalizing n p with
  | nil =>
    refine optL_stop (runs_nil fun w e h => ?_)
    refine must_noDigit (by decide +kernel) ?_
    have h : b = w ++ e := h
    rw [← h]; exact hb
  | cons x l ih =>
    cases n with
    | zero => simp at hn
    | succ n =>
      obtain ⟨hg, hk⟩ := hl x (by simp)
      have hl' := fun y hy => hl y (List.mem_cons_of_mem x hy)
      rw [List.flatMap_cons, List.append_assoc, List.append_assoc]
      have f1 := first_rep_cls (c := punctC) (w := x.1) (fun u hu => (localGap_punct (hg.2.2 u hu)).1) 0 4 p
        (x.2 ++ ((l.flatMap fun x => x.1 ++ x.2) ++ b)) [] (by omega) hg.2.1 (.inr (by
          obtain ⟨v, t, hv, hd⟩ := block_cons hk
          intro u h
          rw [hv] at h
          cases h
          exact (digit_punct hd).1))
      have f2 := first_rep_cls (c := ndC) (w := x.2) (fun u hu => ndC_digit (hk.2.2 u hu)) 1 20 (p + x.1.length)
        ((l.flatMap fun x => x.1 ++ x.2) ++ b) [] hk.1 hk.2.1 (.inr (stops_local hl' hb))
      refine optL_step (first_cat f1 f2) ?_ ?_
      · have := hk.1
        simp only [List.length_append]; omega
      · have := ih hl' n (p + x.1.length + x.2.length) (by simpa using hn)
        rw [show p + x.1.length + x.2.length + (l.flatMap fun x => x.1 ++ x.2).length =
          p + (x.1 ++ x.2 ++ l.flatMap fun x => x.1 ++ x.2).length by simp only [List.length_append]; omega] at this
        exact this

theorem matchAt_locally {lead : Bool} {s b : Str} (hs : WrittenLocally lead s) (hb : NoDigit b) (p : Nat) :
    matcherPattern.matchAt p (s ++ b) = some ⟨p, p + s.length, []⟩ := by
  obtain ⟨X, hX, hm⟩ := matcherPattern_shape
  obtain ⟨d, l, rfl, hd, hlen, hl, -⟩ := hs
  refine matchAt_first (e := b) ?_
  rw [hX]
  have key : ∀ q, First (Re.cat (.rep (.cls ndC) 1 (some 20) true)
        (.cat (.rep (.cat (.rep (.cls punctC) 0 (some 4) true) (.rep (.cls ndC) 1 (some 20) true)) 0 (some 20) true)
          (.rep X 0 (some 1) true))).runs ⟨q, d ++ ((l.flatMap fun x => x.1 ++ x.2) ++ b), []⟩
        ⟨q + (d ++ l.flatMap fun x => x.1 ++ x.2).length, b, []⟩ := by
    intro q
    rw [List.length_append, ← Nat.add_assoc]
    refine first_cat (first_rep_cls (fun u hu => ndC_digit (hd.2.2 u hu)) 1 20 q _ [] hd.1 hd.2.1 (.inr (stops_local hl hb)))
      (first_cat (first_rep0 (first_local hl hb 20 _ hlen)) (first_rep0_stop (runs_nil fun w e h => ?_)))
    refine must_noDigit hm ?_
    have h : b = w ++ e := h
    rw [← h]; exact hb
  obtain ⟨v, t, hv, hvd⟩ := block_cons hd
  have hstop : ∀ q, (Re.cat (.cls leadC) (.rep (.cls punctC) 0 (some 4) true)).runs ⟨q, d ++ ((l.flatMap fun x => x.1 ++ x.2) ++ b), []⟩ = [] := by
    intro q
    have : (Re.cls leadC).runs ⟨q, d ++ ((l.flatMap fun x => x.1 ++ x.2) ++ b), []⟩ = [] := runs_cls_stop (by
      intro u h
      rw [hv] at h
      cases h
      exact (digit_punct hvd).2)
    simp only [Re.runs] at this ⊢
    rw [this]
    rfl
  cases lead with
  | false =>
    have := first_cat (first_rep0_stop (n := 2) (hstop p)) (key p)
    simpa [List.append_assoc] using this
  | true =>
    have f1 : First (Re.cat (.cls leadC) (.rep (.cls punctC) 0 (some 4) true)).runs
        ⟨p, 40 :: (d ++ ((l.flatMap fun x => x.1 ++ x.2) ++ b)), []⟩ ⟨p + 1, d ++ ((l.flatMap fun x => x.1 ++ x.2) ++ b), []⟩ := by
      refine first_cat (first_cls (by decide)) ?_
      exact first_rep_cls (c := punctC) (w := []) (by simp) 0 4 (p + 1) _ [] (by simp) (by simp) (.inr (by
        intro u h
        rw [hv] at h
        cases h
        exact (digit_punct hvd).1))
    have := first_cat (first_rep0 (optL_step (n := 1) f1 (by simp) (optL_stop (hstop _)))) (key (p + 1))
    have e : p + 1 + (d ++ l.flatMap fun x => x.1 ++ x.2).length = p + (40 :: (d ++ l.flatMap fun x => x.1 ++ x.2)).length := by
      simp only [List.length_cons]; omega
    rw [e] at this
    simpa [List.append_assoc] using this

theorem find_local {lead : Bool} {a s b : Str} (ha : NoStart a) (hs : WrittenLocally lead s) (hb : NoDigit b) :
    matcherPattern.find (a ++ (s ++ b)) = some ⟨a.length, a.length + s.length, []⟩ := by
  unfold Re.find
  rw [findFrom_skip (by rw [Finder.matcherPattern_minLen]; omega) (fun u hu => noStart_canStart (by rw [ndC_nd]; exact ha.1 u hu) (ha.2 u hu))]
  have hm := matchAt_locally hs hb (0 + a.length)
  rw [Nat.zero_add] at hm ⊢
  cases hsb : s ++ b with
  | nil => rw [hsb] at hm; unfold Re.findFrom; exact hm
  | cons u t => rw [hsb] at hm; unfold Re.findFrom; rw [hm]

theorem local_mem {lead : Bool} {s : Str} (hs : WrittenLocally lead s) : ∀ u ∈ s, isDig u = true ∨ u ∈ (str!" -.()") := by
  obtain ⟨d, l, rfl, hd, _, hl, -⟩ := hs
  intro u hu
  rcases List.mem_append.1 hu with h | h
  · cases lead with
    | false => cases h
    | true => right; simp at h; subst h; decide
  · rcases List.mem_append.1 h with h | h
    · exact .inl (hd.2.2 u h)
    · obtain ⟨x, hx, h⟩ := List.mem_flatMap.1 h
      rcases List.mem_append.1 h with h | h
      · right; exact (hl x hx).1.2.2 u h
      · exact .inl ((hl x hx).2.2.2 u h)

theorem local_small {u : Nat} (h : isDig u = true ∨ u ∈ (str!" -.()")) : 32 ≤ u ∧ u ≤ 57 ∧ u ≠ 47 := by
  rcases h with h | h
  · have : 48 ≤ u ∧ u ≤ 57 := by simpa [isDig] using h
    omega
  · have : ∀ u ∈ (str!" -.()"), 32 ≤ u ∧ u ≤ 57 ∧ u ≠ 47 := by decide
    exact this u h

theorem local_ne {lead : Bool} {s : Str} (hs : WrittenLocally lead s) : s ≠ [] := by
  obtain ⟨d, l, rfl, hd, _, _⟩ := hs
  obtain ⟨v, t, rfl, _⟩ := block_cons hd
  simp

theorem local_brackets {lead : Bool} {s : Str} (hs : WrittenLocally lead s) : matchingBrackets.isMatch s = true := by
  have hmem := local_mem hs
  have hne := local_ne hs
  obtain ⟨d, l, hsd, hd, hl20, hl, hp⟩ := hs
  refine (isMatch_iff _ _).2 ⟨[], s, [], by simp, ?_⟩
  have non : ∀ (c : Cls), c = ⟨true, [(40, 40), (91, 91), (65288, 65288), (65339, 65339), (41, 41), (93, 93), (65289, 65289), (65341, 65341)], []⟩ →
      ∀ u, (isDig u = true ∨ u ∈ (str!" -.()")) → u ≠ 40 → u ≠ 41 → c.mem u = true := by
    rintro c rfl u hu h1 h2
    have hx := local_small hu
    have e : rune u = u := Props.rune_of_lt (by simp [badBase]; omega)
    simp only [Cls.mem, Cls.has, e, inRanges_cons_self, show ∀ c, inRanges [] c = false from fun _ => rfl]
    simp
    omega
  rcases hp with ⟨h1, h2⟩ | ⟨x, y, z, rfl, hxyz, -, hy, hz⟩
  · refine ⟨[], s, rfl, ⟨rfl, rfl⟩, [], s, rfl, acc_opt.2 (.inl rfl), [], s, rfl, acc_opt.2 (.inl rfl), s, [], by simp, ?_, [], [], rfl,
      ⟨0, by simp, by simp, rfl⟩, [], [], rfl, acc_star_cls.2 (by simp), rfl, rfl⟩
    exact acc_plus_cls.2 ⟨hne, fun u hu => non _ rfl u (hmem u hu) (by rintro rfl; exact h1 hu) (by rintro rfl; exact h2 hu)⟩
  · have nx : ∀ u ∈ x, Cls.mem ⟨true, [(40, 40), (91, 91), (65288, 65288), (65339, 65339), (41, 41), (93, 93), (65289, 65289), (65341, 65341)], []⟩ u = true :=
      fun u hu => non _ rfl u (hmem u (by simp [hu])) (hxyz u (by simp [hu])).1 (hxyz u (by simp [hu])).2
    have ny : ∀ u ∈ y, Cls.mem ⟨true, [(40, 40), (91, 91), (65288, 65288), (65339, 65339), (41, 41), (93, 93), (65289, 65289), (65341, 65341)], []⟩ u = true :=
      fun u hu => non _ rfl u (hmem u (by simp [hu])) (hxyz u (by simp [hu])).1 (hxyz u (by simp [hu])).2
    have nz : ∀ u ∈ z, Cls.mem ⟨true, [(40, 40), (91, 91), (65288, 65288), (65339, 65339), (41, 41), (93, 93), (65289, 65289), (65341, 65341)], []⟩ u = true :=
      fun u hu => non _ rfl u (hmem u (by simp [hu])) (hxyz u (by simp [hu])).1 (hxyz u (by simp [hu])).2
    by_cases hx : x = []
    · subst hx
      refine ⟨[], _, rfl, ⟨rfl, rfl⟩, [40], y ++ 41 :: z, rfl, acc_opt.2 (.inr ⟨40, rfl, by decide⟩), y ++ [41], z, by simp,
        acc_opt.2 (.inr ⟨y, [41], rfl, acc_plus_cls.2 ⟨hy, ny⟩, 41, rfl, by decide⟩), z, [], by simp, acc_plus_cls.2 ⟨hz, nz⟩, [], [], rfl,
        ⟨0, by simp, by simp, rfl⟩, [], [], rfl, acc_star_cls.2 (by simp), rfl, rfl⟩
    · refine ⟨[], _, rfl, ⟨rfl, rfl⟩, [], _, rfl, acc_opt.2 (.inl rfl), [], _, rfl, acc_opt.2 (.inl rfl), x, 40 :: (y ++ 41 :: z), rfl,
        acc_plus_cls.2 ⟨hx, nx⟩, 40 :: (y ++ [41]), z, by simp, ⟨1, by simp, by simp, ?_⟩, z, [], by simp, acc_star_cls.2 nz, rfl, rfl⟩
      exact ⟨_, [], by simp, ⟨[40], y ++ [41], rfl, ⟨40, rfl, by decide⟩, y, [41], rfl, acc_plus_cls.2 ⟨hy, ny⟩, 41, rfl, by decide⟩, rfl⟩

theorem local_pages {lead : Bool} {s : Str} (hs : WrittenLocally lead s) : pubPages.isMatch s = false := by
  cases h : pubPages.isMatch s with
  | false => rfl
  | true =>
    exfalso
    obtain ⟨a, w, e, h1, h2⟩ := (isMatch_iff _ _).1 h
    obtain ⟨w1, w', rfl, -, w2, w'', rfl, h3, w3, w3', rfl, -, w4, w4', rfl, -, w5, w6, rfl, ⟨c, rfl, hc⟩, -⟩ := h2
    obtain ⟨h3', h4⟩ := acc_plus_cls.1 h3
    have hc := (litCls_mem 40 (by decide) c).1 hc
    subst hc
    have h45 : 45 ∈ w2 := by
      cases w2 with
      | nil => exact absurd rfl h3'
      | cons v t => have := (litCls_mem 45 (by decide) v).1 (h4 v (by simp)); subst this; simp
    obtain ⟨d, l, -, -, -, -, hp⟩ := hs
    rcases hp with ⟨h5, -⟩ | ⟨x, y, z, hs, hxyz, hx, -, -⟩
    · exact h5 (by rw [h1]; simp)
    · have hs' : (a ++ (w1 ++ (w2 ++ (w3 ++ w4)))) ++ 40 :: (w6 ++ e) = x ++ 40 :: (y ++ 41 :: z) := by
        rw [show x ++ 40 :: (y ++ 41 :: z) = s from hs.symm, h1]; simp
      have h40 : ∀ u ∈ x ++ y ++ z, u ≠ 40 := fun u hu => (hxyz u hu).1
      rcases List.append_eq_append_iff.1 hs' with ⟨t, ht1, ht2⟩ | ⟨t, ht1, ht2⟩
      · exact hx (by rw [ht1]; simp; exact .inr (.inr (.inl h45)))
      · cases t with
        | nil => exact hx (by rw [List.append_nil] at ht1; rw [← ht1]; simp; exact .inr (.inr (.inl h45)))
        | cons v t =>
          have ht2 := (List.cons.inj ht2).2
          have : 40 ∈ y ++ 41 :: z := by rw [ht2]; simp
          rcases List.mem_append.1 this with h | h
          · exact h40 40 (by simp [h]) rfl
          · rcases List.mem_cons.1 h with h | h
            · cases h
            · exact h40 40 (by simp [h]) rfl

theorem local_date {lead : Bool} {s : Str} (hs : WrittenLocally lead s) : slashSeparatedDates.isMatch s = false := by
  refine no_match_must (P := fun c => decide (c = ⟨false, [(47, 47)], []⟩)) (by decide +kernel) fun u hu c hc => ?_
  have : c = ⟨false, [(47, 47)], []⟩ := by simpa using hc
  have hx := local_small (local_mem hs u hu)
  cases hm : c.mem u with
  | false => rfl
  | true => rw [this] at hm; have := (litCls_mem 47 (by decide) u).1 hm; omega

theorem local_trim {lead : Bool} {s : Str} (hs : WrittenLocally lead s) : trimAfterFirstMatch secondNumberStartPattern s = s := by
  unfold trimAfterFirstMatch
  split
  · rename_i x hx
    obtain ⟨a, w, e, h1, _, _, h4, _⟩ := findFrom_sound hx
    have hl : secondNumberStartPattern.minLen ≤ w.length := minLen_acc _ _ _ _ h4
    cases w with
    | nil => exact absurd hl (by decide)
    | cons u w =>
      have h5 := local_small (local_mem hs u (by rw [h1]; simp))
      have := Finder.second_start (canStart_acc h4)
      omega
  · rfl

namespace Finder

theorem neighbours_local {F : Finder} {lead : Bool} {a s b : Str} (ht : F.text = a ++ (s ++ b)) (hs : WrittenLocally lead s)
    (hc : Clear lead a b) : F.neighboursOk s a.length = true := by
  have hst : ∀ u, ¬ Sticky u → (isInvalidPunctuation (rune u) || isLatinLetter (rune u)) = false := fun u h =>
    Bool.eq_false_iff.2 fun h' => h ((Props.sticky_iff u).1 h')
  unfold neighboursOk
  dsimp only
  have e1 : F.text.take a.length = a := by rw [ht, List.take_left]
  have e2 : F.text.drop (a.length + s.length) = b := by
    rw [ht, ← List.append_assoc]
    exact List.drop_left' (by simp)
  rw [e1, e2]
  split
  · rename_i h
    exfalso
    obtain ⟨_, h2, h3⟩ := h
    cases lead with
    | true =>
      have : leadClassPattern.isMatch s = true := by
        obtain ⟨d, l, rfl, _⟩ := hs
        refine (isMatch_iff _ _).2 ⟨[], [40], d ++ l.flatMap fun x => x.1 ++ x.2, rfl, [], [40], rfl, ⟨rfl, rfl⟩, 40, rfl, by decide⟩
      unfold Re.isMatch at this
      cases hf : leadClassPattern.find s with
      | none => rw [hf] at this; cases this
      | some x => rw [hf] at h2; cases h2
    | false =>
      cases hl : a.getLast? with
      | none => rw [hl] at h3; cases h3
      | some u => rw [hl] at h3; simp [hst u (hc.2 rfl u hl)] at h3
  · cases hh : b.head? with
    | none => rfl
    | some u => simp [hst u (hc.1 u hh)]

/-- A number written as within a country, in a text without other digits, is found, if parsing and the leniency accept it, and
nothing else is. -/
theorem findNumbers_local {F : Finder} {lead : Bool} {a s b : Str} {n : PhoneNumber} (ht : F.text = a ++ (s ++ b)) (ha : NoStart a)
    (hs : WrittenLocally lead s) (hb : NoDigit b) (hc : F.leniency ≠ .possible → Clear lead a b)
    (hp : parseKeepRaw F.C s F.region = .ok (none, n)) (hv : F.leniency.verify F.C F.alt n s = .ok true) (k : Int) (hk : 0 < k) :
    ∃ c, F.findNumbers k = .ok ([⟨a.length, s, Plain n⟩], c) := by
  have hpv : F.parseAndVerify s a.length = .ok (some ⟨a.length, s, Plain n⟩) := by
    unfold parseAndVerify
    rw [local_brackets hs, local_pages hs]
    simp only [Bool.not_true, Bool.or_false, Bool.false_eq_true, if_false]
    rw [if_neg (by
      rintro ⟨h1, h2⟩
      rw [neighbours_local ht hs (hc h1)] at h2
      cases h2)]
    have hp' : parseKeepRawToNumber F.C s F.region {} = .ok (none, n) := hp
    simp only [hp', hv, bind, Except.bind, pure, Except.pure]
    rfl
  have e2 : F.text.drop (a.length + s.length) = b := by
    rw [ht, ← List.append_assoc]
    exact List.drop_left' (by simp)
  have hem : ∀ t, F.extractMatch s a.length t = .ok (some ⟨a.length, s, Plain n⟩, t) := by
    intro t
    unfold extractMatch looksLikeDate
    rw [local_date hs, e2, noDigit_stamp hb, hpv, Bool.and_false, Bool.or_false, if_neg (by decide)]
    rfl
  have hsl : slice F.text a.length (a.length + s.length) = s := by
    rw [ht]
    unfold slice
    rw [List.drop_left, show a.length + s.length - a.length = s.length by omega, List.take_left]
  have hk0 : (if k < 0 then 0 else k) = k := if_neg (by omega)
  have hkl : ¬ k ≤ 0 := by omega
  have hf1 : F.find 0 ⟨k, 0, 0⟩ = .ok (some ⟨a.length, s, Plain n⟩, ⟨k, 0, 0⟩) := by
    unfold find
    rw [findLoop_succ, List.drop_zero, ht, find_local ha hs hb, ← ht]
    simp only [hkl, if_false, hsl, local_trim hs, Nat.zero_add, hem]
    rfl
  have hf2 : F.find (a.length + s.length) ⟨k, 0, 0⟩ = .ok (none, ⟨k, 0, 0⟩) := by
    unfold find
    rw [findLoop_succ, e2, find_noDigit hb]
    simp only [hkl, if_false]
  have hlen : 0 < F.text.length := by
    rw [ht]
    have := List.length_pos_iff.2 (local_ne hs)
    simp only [List.length_append]; omega
  obtain ⟨m, hm⟩ : ∃ m, F.text.length = m + 1 := ⟨F.text.length - 1, by omega⟩
  refine ⟨⟨.done, a.length + s.length, ⟨k, 0, 0⟩⟩, ?_⟩
  unfold findNumbers new
  rw [hk0, iterate_succ, hf1]
  show (F.iterate F.text.length ⟨.notReady, a.length + s.length, ⟨k, 0, 0⟩⟩ >>= _) = _
  rw [hm, iterate_succ, hf2]
  rfl

end Finder
end Verif
