import Verif.Spec.Find
import Verif.Lemmas.AytfDigits
import Verif.Regex.First
/-!
# The search for numbers in text
-/
namespace Verif
open Verif.Builder (bind_ok)
namespace Finder

/-! ## Pieces of the text -/

theorem trim_prefix (r : Re) (s : Str) : trimAfterFirstMatch r s <+: s := by
  unfold trimAfterFirstMatch
  split
  · exact List.take_prefix _ _
  · exact List.prefix_refl _

theorem slice_prefix (s : Str) (a b : Nat) : slice s a b <+: s.drop a := List.take_prefix _ _

theorem prefix_drop {a b : Str} (h : a <+: b) (k : Nat) : a.drop k <+: b.drop k := by
  obtain ⟨c, rfl⟩ := h
  rw [List.drop_append]
  exact List.prefix_append _ _

/-! ## `parseAndVerify` -/

theorem parseAndVerify_some {F : Finder} {s : Str} {o : Nat} {m : FoundNumber} (h : F.parseAndVerify s o = .ok (some m)) :
    m.at_ = o ∧ m.raw = s ∧ matchingBrackets.isMatch s = true ∧ pubPages.isMatch s = false ∧
      (F.leniency ≠ .possible → F.neighboursOk s o = true) ∧
      ∃ n, parseKeepRaw F.C s F.region = .ok (none, n) ∧ F.leniency.verify F.C F.alt n s = .ok true ∧ m.number = Spec.Plain n := by
  unfold parseAndVerify at h
  split at h
  · cases Except.ok.inj h
  · rename_i hb
    simp only [Bool.or_eq_true, Bool.not_eq_true', not_or, Bool.not_eq_true, Bool.not_eq_false] at hb
    split at h
    · cases Except.ok.inj h
    · rename_i hn
      have h0 := bind_ok.1 h
      clear h
      obtain ⟨⟨e, n⟩, hp, h⟩ := h0
      cases e with
      | some e => cases Except.ok.inj h
      | none =>
        dsimp only at h
        obtain ⟨v, hv, h⟩ := bind_ok.1 h
        cases v with
        | false => cases Except.ok.inj h
        | true =>
          have h := Option.some.inj (Except.ok.inj h)
          subst h
          refine ⟨rfl, rfl, hb.1, hb.2, ?_, n, hp, hv, rfl⟩
          intro hl
          cases hk : F.neighboursOk s o with
          | true => rfl
          | false => exact absurd ⟨hl, by rw [hk]; rfl⟩ hn

theorem parse_nil (C : Container) (region : Str) (n : PhoneNumber) : parseKeepRaw C [] region ≠ .ok (none, n) := by
  unfold parseKeepRaw parseKeepRawToNumber parseHelper
  rw [if_pos rfl]
  intro h
  cases congrArg Prod.fst (Except.ok.inj h)

/-! ## Where a match lies -/

/-- What `parseAndVerify` found in a piece of the text at or after `index`. -/
structure Found (F : Finder) (index : Nat) (m : FoundNumber) : Prop where
  after : index ≤ m.at_
  text : m.raw <+: F.text.drop m.at_
  verified : F.parseAndVerify m.raw m.at_ = .ok (some m)

theorem Found.ne {F : Finder} {i : Nat} {m : FoundNumber} (h : F.Found i m) : m.raw ≠ [] := by
  intro h0
  obtain ⟨_, _, _, _, _, n, hn, _⟩ := parseAndVerify_some h.verified
  rw [h0] at hn
  exact parse_nil _ _ _ hn

theorem Found.bound {F : Finder} {i : Nat} {m : FoundNumber} (h : F.Found i m) : m.at_ + m.raw.length ≤ F.text.length := by
  have h1 := h.text.length_le
  have h2 : 0 < m.raw.length := List.length_pos_iff.2 h.ne
  rw [List.length_drop] at h1
  omega

theorem Found.mono {F : Finder} {i j : Nat} {m : FoundNumber} (h : F.Found j m) (hij : i ≤ j) : F.Found i m :=
  ⟨Nat.le_trans hij h.after, h.text, h.verified⟩

theorem found_piece {F : Finder} {s : Str} {i o : Nat} {m : FoundNumber} (h : F.parseAndVerify s o = .ok (some m)) (hi : i ≤ o)
    (hs : s <+: F.text.drop o) : F.Found i m := by
  obtain ⟨h1, h2, _⟩ := parseAndVerify_some h
  exact ⟨by omega, by rw [h1, h2]; exact hs, by rw [h1, h2]; exact h⟩

theorem innerLoop_spec {F : Finder} {cand : Str} {o : Nat} (hc : cand <+: F.text.drop o) (first : Bool) (gs : List Match) (t : Tries)
    {r : Option FoundNumber × Tries} (h : F.innerLoop cand o first gs t = .ok r) :
    (∀ m, r.1 = some m → F.Found o m) ∧ r.2.passed = t.passed ∧ r.2.left ≤ t.left ∧ (t.left ≤ r.2.left ∨ -1 ≤ r.2.left) ∧
      (r.2.rejected : Int) - t.rejected = t.left - r.2.left := by
  induction gs generalizing first t with
  | nil =>
    obtain rfl := Except.ok.inj h
    exact ⟨fun m hm => (by cases hm), rfl, Int.le_refl _, .inl (Int.le_refl _), by dsimp only; omega⟩
  | cons g gs ih =>
    unfold innerLoop at h
    by_cases ht : t.left ≤ 0
    · rw [if_pos ht] at h
      obtain rfl := Except.ok.inj h
      exact ⟨fun m hm => (by cases hm), rfl, Int.le_refl _, .inl (Int.le_refl _), by dsimp only; omega⟩
    · rw [if_neg ht] at h
      have h0 := bind_ok.1 h
      clear h
      obtain ⟨b, hb, h⟩ := h0
      have hcat : ∀ a, cand.drop a <+: F.text.drop (o + a) := by
        intro a
        rw [← List.drop_drop]
        exact prefix_drop hc a
      cases b with
      | some m =>
        obtain rfl := Except.ok.inj h
        refine ⟨?_, rfl, Int.le_refl _, .inl (Int.le_refl _), by dsimp only; omega⟩
        intro m' hm'
        cases hm'
        cases first with
        | false => cases Except.ok.inj hb
        | true =>
          exact found_piece hb (Nat.le_refl _) (((trim_prefix _ _).trans (List.take_prefix _ _)).trans hc)
      | none =>
        dsimp only at h
        cases hg : g.span 1 with
        | none => rw [hg] at h; cases h
        | some ab =>
          obtain ⟨a, b⟩ := ab
          rw [hg] at h
          dsimp only at h
          have h0 := bind_ok.1 h
          clear h
          obtain ⟨q, hq, h⟩ := h0
          have hu : ∀ u : Tries, u = (if first then t.reject else t) →
              u.passed = t.passed ∧ u.left ≤ t.left ∧ 0 ≤ u.left ∧ (u.rejected : Int) - t.rejected = t.left - u.left := by
            intro u hu
            subst hu
            cases first with
            | true =>
              refine ⟨rfl, ?_, ?_, ?_⟩
              · show t.left - 1 ≤ t.left; omega
              · show 0 ≤ t.left - 1; omega
              · show ((t.rejected + 1 : Nat) : Int) - t.rejected = t.left - (t.left - 1); omega
            | false =>
              refine ⟨rfl, Int.le_refl _, ?_, ?_⟩
              · show 0 ≤ t.left; omega
              · show (t.rejected : Int) - t.rejected = t.left - t.left; omega
          obtain ⟨u1, u2, u3, u4⟩ := hu _ rfl
          cases q with
          | some m =>
            obtain rfl := Except.ok.inj h
            refine ⟨?_, u1, u2, .inr (by dsimp only; omega), u4⟩
            intro m' hm'
            cases hm'
            exact (found_piece hq (Nat.le_refl _) (((trim_prefix _ _).trans (slice_prefix _ _ _)).trans (hcat a))).mono (by omega)
          | none =>
            dsimp only at h
            obtain ⟨i1, i2, i3, i4, i5⟩ := ih false _ h
            generalize (if first = true then t.reject else t) = u at *
            have v1 : u.reject.left = u.left - 1 := rfl
            have v2 : u.reject.rejected = u.rejected + 1 := rfl
            have v3 : u.reject.passed = u.passed := rfl
            refine ⟨i1, by omega, by omega, by omega, by omega⟩

theorem extractInner_spec {F : Finder} {cand : Str} {o : Nat} (hc : cand <+: F.text.drop o) (rs : List Re) (t : Tries)
    {r : Option FoundNumber × Tries} (h : F.extractInner cand o rs t = .ok r) :
    (∀ m, r.1 = some m → F.Found o m) ∧ r.2.passed = t.passed ∧ r.2.left ≤ t.left ∧ (t.left ≤ r.2.left ∨ -1 ≤ r.2.left) ∧
      (r.2.rejected : Int) - t.rejected = t.left - r.2.left := by
  induction rs generalizing t with
  | nil =>
    obtain rfl := Except.ok.inj h
    exact ⟨fun m hm => (by cases hm), rfl, Int.le_refl _, .inl (Int.le_refl _), by dsimp only; omega⟩
  | cons x rs ih =>
    unfold extractInner at h
    have h0 := bind_ok.1 h
    clear h
    obtain ⟨⟨q, u⟩, hq, h⟩ := h0
    obtain ⟨k1, k2, k3, k4, k5⟩ := innerLoop_spec hc true _ t hq
    cases q with
    | some m =>
      obtain rfl := Except.ok.inj h
      exact ⟨k1, k2, k3, k4, k5⟩
    | none =>
      dsimp only at h k2 k3 k4 k5
      obtain ⟨i1, i2, i3, i4, i5⟩ := ih u h
      exact ⟨i1, by omega, by omega, by omega, by omega⟩

theorem extractMatch_spec {F : Finder} {cand : Str} {o : Nat} (hc : cand <+: F.text.drop o) (t : Tries)
    {r : Option FoundNumber × Tries} (h : F.extractMatch cand o t = .ok r) :
    (∀ m, r.1 = some m → F.Found o m) ∧ r.2.passed = t.passed ∧ r.2.left ≤ t.left ∧ (t.left ≤ r.2.left ∨ -1 ≤ r.2.left) ∧
      (r.2.rejected : Int) - t.rejected ≤ t.left - r.2.left + 1 := by
  unfold extractMatch at h
  split at h
  · obtain rfl := Except.ok.inj h
    exact ⟨fun m hm => (by cases hm), rfl, Int.le_refl _, .inl (Int.le_refl _), by dsimp only; omega⟩
  · have h0 := bind_ok.1 h
    clear h
    obtain ⟨q, hq, h⟩ := h0
    cases q with
    | some m =>
      obtain rfl := Except.ok.inj h
      refine ⟨fun m' hm' => ?_, rfl, Int.le_refl _, .inl (Int.le_refl _), by dsimp only; omega⟩
      cases hm'
      exact found_piece hq (Nat.le_refl _) hc
    | none =>
      dsimp only at h
      obtain ⟨i1, i2, i3, i4, i5⟩ := extractInner_spec hc _ _ h
      exact ⟨i1, i2, i3, i4, by dsimp only at i5; omega⟩

/-! ## Candidates -/

theorem matcherPattern_minLen : matcherPattern.minLen = 1 := by decide +kernel

/-- What `find` cuts out of the text, before looking for a second number, and after. -/
theorem candidate_spec {text : Str} {x : Match} (h : matcherPattern.find text = some x) :
    ∃ w, slice text x.start x.stop = w ∧ w <+: text.drop x.start ∧ w ≠ [] ∧ x.start + w.length ≤ text.length ∧
      ∃ p e, matcherPattern.Acc p w e := by
  obtain ⟨a, w, e, h1, h2, h3, h4, _⟩ := findFrom_sound h
  simp only [Nat.zero_add] at h2
  have hs : slice text x.start x.stop = w := by
    unfold slice
    rw [h3, h2, h1, List.drop_left, Nat.add_sub_cancel_left, List.take_left]
  have hl := minLen_acc _ _ _ _ h4
  rw [matcherPattern_minLen] at hl
  refine ⟨w, hs, ?_, ?_, ?_, _, _, h4⟩
  · rw [h2, h1, List.drop_left]; exact List.prefix_append _ _
  · rintro rfl; simp at hl
  · rw [h2, h1]; simp

theorem second_start {u : Nat} (h : secondNumberStartPattern.canStart u = true) : u = 92 ∨ u = 47 := by
  have : ∃ c d, secondNumberStartPattern = .cat (.cls ⟨false, [(92, 92), (47, 47)], []⟩) (.cat c d) := ⟨_, _, rfl⟩
  obtain ⟨c, d, e⟩ := this
  rw [e] at h
  simp only [Re.canStart, Re.nullable, Cls.mem, Cls.has, inRanges, rune] at h
  by_cases hu : u < badBase
  · rw [if_pos hu] at h
    simp at h; omega
  · rw [if_neg hu] at h
    simp at h

theorem candidate_ne {w e : Str} {p : Nat} (h : matcherPattern.Acc p w e) (hw : w ≠ []) :
    trimAfterFirstMatch secondNumberStartPattern w ≠ [] := by
  unfold trimAfterFirstMatch
  split
  · rename_i y hy
    obtain ⟨a, v, e', h1, h2, h3, h4, _⟩ := findFrom_sound hy
    intro h0
    have ha : a = [] := by
      simp only [Nat.zero_add] at h2
      rcases List.take_eq_nil_iff.1 h0 with h | h
      · rw [h2] at h; exact List.length_eq_zero_iff.1 h
      · exact absurd h hw
    subst ha
    have hv : secondNumberStartPattern.minLen ≤ v.length := minLen_acc _ _ _ _ h4
    cases v with
    | nil => revert hv; decide
    | cons u v =>
      have k1 := canStart_acc h4
      rw [h1] at h
      have k2 : matcherPattern.canStart u = true := canStart_acc h
      rcases second_start k1 with rfl | rfl <;> revert k2 <;> decide +kernel
  · exact hw

/-! ## `find` -/

/-- One turn of the loop of `find`. -/
theorem findLoop_succ (F : Finder) (fuel index : Nat) (t : Tries) : F.findLoop (fuel + 1) index t =
    if t.left ≤ 0 then .ok (none, t)
    else match matcherPattern.find (F.text.drop index) with
      | none => .ok (none, t)
      | some x => F.extractMatch (trimAfterFirstMatch secondNumberStartPattern (slice (F.text.drop index) x.start x.stop)) (index + x.start) t >>=
          fun r => match r with
            | (some m, t) => .ok (some m, t)
            | (none, t) => F.findLoop fuel (index + x.start +
                (trimAfterFirstMatch secondNumberStartPattern (slice (F.text.drop index) x.start x.stop)).length)
                { t with left := t.left - 1, passed := t.passed + 1 } := rfl

/-- A candidate: a non-empty piece of the text. -/
theorem candidate_text {F : Finder} {index : Nat} {x : Match} (hx : matcherPattern.find (F.text.drop index) = some x) :
    ∃ cand, trimAfterFirstMatch secondNumberStartPattern (slice (F.text.drop index) x.start x.stop) = cand ∧ cand ≠ [] ∧
      cand <+: F.text.drop (index + x.start) ∧ index + x.start + cand.length ≤ F.text.length ∧
      ∃ p w e, matcherPattern.Acc p w e ∧ cand <+: w := by
  obtain ⟨w, h1, h2, h3, h4, p, e, h5⟩ := candidate_spec hx
  rw [h1]
  have ht := trim_prefix secondNumberStartPattern w
  have hlen := ht.length_le
  have hw : 0 < w.length := List.length_pos_iff.2 h3
  rw [List.length_drop] at h4
  refine ⟨_, rfl, candidate_ne h5 h3, ?_, by omega, p, w, e, h5, ht⟩
  rw [List.drop_drop] at h2
  exact ht.trans h2

/-- The search does not depend on the fuel, once there is enough. -/
theorem findLoop_fuel (F : Finder) (f g index : Nat) (t : Tries) (hf : F.text.length - index < f) (hg : F.text.length - index < g) :
    F.findLoop f index t = F.findLoop g index t := by
  induction f generalizing g index t with
  | zero => omega
  | succ f ih =>
    cases g with
    | zero => omega
    | succ g =>
      rw [findLoop_succ, findLoop_succ]
      split
      · rfl
      · split
        · rfl
        · rename_i x hx
          obtain ⟨cand, h1, h2, _, h4, _⟩ := candidate_text hx
          rw [h1]
          have hl : 0 < cand.length := List.length_pos_iff.2 h2
          congr 1
          funext r
          obtain ⟨q, u⟩ := r
          cases q with
          | some m => rfl
          | none => exact ih g _ _ (by omega) (by omega)

/-- What one search does: where the match lies, and what the counters say. -/
structure FindRes (F : Finder) (index : Nat) (t : Tries) (r : Option FoundNumber × Tries) : Prop where
  found : ∀ m, r.1 = some m → F.Found index m
  le : r.2.left ≤ t.left
  low : t.left ≤ r.2.left ∨ -2 ≤ r.2.left
  tally : (r.2.rejected : Int) - t.rejected ≤ t.left - r.2.left + (if r.1.isSome then 1 else 0)
  passed : (r.2.passed : Int) - t.passed ≤ t.left - r.2.left
  mono : t.passed ≤ r.2.passed
  bound : (r.2.passed : Int) - t.passed ≤ t.left ∨ r.2.passed = t.passed
  some : r.1.isSome = true → 0 < t.left

theorem FindRes.stop (F : Finder) (index : Nat) (t : Tries) : F.FindRes index t (none, t) :=
  ⟨fun m hm => (by cases hm), Int.le_refl _, .inl (Int.le_refl _), by simp, by dsimp only; omega, Nat.le_refl _, .inr rfl,
    fun h => (by cases h)⟩

theorem findLoop_spec {F : Finder} {fuel index : Nat} {t : Tries} {r : Option FoundNumber × Tries}
    (h : F.findLoop fuel index t = .ok r) : F.FindRes index t r := by
  induction fuel generalizing index t with
  | zero =>
    obtain rfl := Except.ok.inj h
    exact .stop _ _ _
  | succ fuel ih =>
    rw [findLoop_succ] at h
    split at h
    · obtain rfl := Except.ok.inj h
      exact .stop _ _ _
    · rename_i ht
      split at h
      · obtain rfl := Except.ok.inj h
        exact .stop _ _ _
      · rename_i x hx
        obtain ⟨cand, h1, h2, h3, h4, _⟩ := candidate_text hx
        rw [h1] at h
        have h0 := bind_ok.1 h
        clear h
        obtain ⟨⟨q, u⟩, hq, h⟩ := h0
        obtain ⟨k1, k2, k3, k4, k5⟩ := extractMatch_spec h3 t hq
        dsimp only at k1 k2 k3 k4 k5
        cases q with
        | some m =>
          obtain rfl := Except.ok.inj h
          refine ⟨fun m' hm' => ?_, k3, ?_, ?_, ?_, ?_, .inr k2, fun _ => by omega⟩
          · cases hm'
            exact (k1 m rfl).mono (by omega)
          · dsimp only; omega
          · simp only [Option.isSome_some, if_true]; omega
          · dsimp only; omega
          · dsimp only; omega
        | none =>
          dsimp only at h
          obtain ⟨i1, i2, i3, i4, i5, i6, i7, i8⟩ := ih h
          dsimp only at i2 i3 i4 i5 i6 i7 i8
          exact ⟨fun m hm => (i1 m hm).mono (by omega), by omega, by omega, by omega, by omega, by omega, by omega, fun h => by omega⟩

/-! ## Iterating -/

/-- One turn of the iterator. -/
theorem iterate_succ (F : Finder) (fuel i : Nat) (t : Tries) : F.iterate (fuel + 1) ⟨.notReady, i, t⟩ =
    F.find i t >>= fun r => match r with
      | (none, u) => .ok ([], ⟨.done, i, u⟩)
      | (some m, u) => F.iterate fuel ⟨.notReady, m.at_ + m.raw.length, u⟩ >>= fun q => .ok (m :: q.1, q.2) := by
  conv => lhs; unfold iterate hasNext
  dsimp only
  cases hf : F.find i t with
  | error e => rfl
  | ok r =>
    obtain ⟨q, u⟩ := r
    cases q with
    | none => rfl
    | some m =>
      simp only [bind, Except.bind, pure, Except.pure, next, hasNext]

/-- What a whole iteration gives. -/
theorem iterate_spec {F : Finder} {fuel i : Nat} {t : Tries} {r : List FoundNumber × Cursor}
    (h : F.iterate fuel ⟨.notReady, i, t⟩ = .ok r) :
    (∀ m ∈ r.1, F.Found i m) ∧ r.1.Pairwise (fun m m' => m.at_ + m.raw.length ≤ m'.at_) ∧
      (r.2.tries.left ≤ t.left ∧ (t.left ≤ r.2.tries.left ∨ -2 ≤ r.2.tries.left) ∧
      (r.2.tries.rejected : Int) - t.rejected ≤ t.left - r.2.tries.left + r.1.length ∧ t.passed ≤ r.2.tries.passed ∧
      (r.2.tries.passed : Int) - t.passed ≤ t.left - r.2.tries.left ∧
      ((r.2.tries.passed : Int) - t.passed ≤ t.left ∨ r.2.tries.passed = t.passed)) ∧
      (F.text.length - i < fuel → r.2.state = .done) := by
  induction fuel generalizing i t r with
  | zero =>
    obtain rfl := Except.ok.inj h
    exact ⟨fun m hm => (by cases hm), List.Pairwise.nil, ⟨Int.le_refl _, .inl (Int.le_refl _), by simp, Nat.le_refl _,
      by dsimp only; omega, .inr rfl⟩, fun h => by omega⟩
  | succ fuel ih =>
    rw [iterate_succ] at h
    have h0 := bind_ok.1 h
    clear h
    obtain ⟨⟨q, u⟩, hq, h⟩ := h0
    have hs := findLoop_spec hq
    obtain ⟨s1, s2, s3, s4, s5, s6, s7, s8⟩ := hs
    cases q with
    | none =>
      obtain rfl := Except.ok.inj h
      refine ⟨fun m hm => (by cases hm), List.Pairwise.nil, ⟨s2, s3, ?_, s6, s5, s7⟩, fun _ => rfl⟩
      simpa using s4
    | some m =>
      dsimp only at h
      have h0 := bind_ok.1 h
      clear h
      obtain ⟨p, hp, h⟩ := h0
      obtain rfl := Except.ok.inj h
      obtain ⟨i1, i2, ⟨i3, i4, i5, i6, i7, i8⟩, i9⟩ := ih hp
      dsimp only at s2 s3 s4 s5 s6 s7 s8
      have hm := s1 m rfl
      simp only [Option.isSome_some, if_true] at s4
      have hlen : ((m :: p.1).length : Int) = p.1.length + 1 := by simp
      have s8 := s8 rfl
      refine ⟨?_, ?_, ⟨?_, ?_, ?_, ?_, ?_, ?_⟩, ?_⟩
      · intro m' hm'
        rcases List.mem_cons.1 hm' with rfl | hm'
        · exact hm
        · exact (i1 m' hm').mono (by have := hm.after; omega)
      · exact List.pairwise_cons.2 ⟨fun m' hm' => (i1 m' hm').after, i2⟩
      · dsimp only; omega
      · dsimp only; omega
      · dsimp only; omega
      · dsimp only; omega
      · dsimp only; omega
      · dsimp only; omega
      · intro hf
        refine i9 ?_
        have h1 := hm.bound
        have h2 := hm.after
        have h3 : 0 < m.raw.length := List.length_pos_iff.2 hm.ne
        omega

/-- The iteration does not depend on the fuel, once there is enough. -/
theorem iterate_fuel (F : Finder) (f g i : Nat) (t : Tries) (hf : F.text.length - i < f) (hg : F.text.length - i < g) :
    F.iterate f ⟨.notReady, i, t⟩ = F.iterate g ⟨.notReady, i, t⟩ := by
  induction f generalizing g i t with
  | zero => omega
  | succ f ih =>
    cases g with
    | zero => omega
    | succ g =>
      rw [iterate_succ, iterate_succ]
      cases hq : F.find i t with
      | error e => rfl
      | ok r =>
        obtain ⟨q, u⟩ := r
        cases q with
        | none => rfl
        | some m =>
          have hm := (findLoop_spec hq).found m rfl
          have h1 := hm.bound
          have h2 := hm.after
          have h3 : 0 < m.raw.length := List.length_pos_iff.2 hm.ne
          show (F.iterate f _ >>= _) = (F.iterate g _ >>= _)
          rw [ih g _ _ (by omega) (by omega)]

end Finder
end Verif
