import Verif.Spec.Local
import Verif.Spec.Layout
import Verif.Spec.National
import Verif.Lemmas.LocalFind
import Verif.Lemmas.Leniency
import Verif.Lemmas.Layout
import Verif.Lemmas.Dialled
import Verif.Lemmas.National
/-!
# NATIONAL output is written as within a country

The shape of the text a rule writes is read off a sample, in which every group is the single digit 0; `Blows` relates the sample to
the actual text.
-/
namespace Verif
open Spec

/-- `s` is `σ` with digits replaced by strings of digits. -/
inductive Blows : Str → Str → Prop
  | nil : Blows [] []
  | dig {u : Nat} {w σ s : Str} : isDig u = true → w ≠ [] → (∀ v ∈ w, isDig v = true) → Blows σ s → Blows (u :: σ) (w ++ s)
  | other {u : Nat} {σ s : Str} : isDig u = false → Blows σ s → Blows (u :: σ) (u :: s)

theorem Blows.split {a b s : Str} (h : Blows (a ++ b) s) : ∃ s1 s2, s = s1 ++ s2 ∧ Blows a s1 ∧ Blows b s2 := by
  induction a generalizing s with
  | nil => exact ⟨[], s, rfl, .nil, h⟩
  | cons u a ih =>
    cases h with
    | dig h1 h2 h3 h4 =>
      obtain ⟨s1, s2, rfl, k1, k2⟩ := ih h4
      exact ⟨_, s2, by rw [List.append_assoc], .dig h1 h2 h3 k1, k2⟩
    | other h1 h4 =>
      obtain ⟨s1, s2, rfl, k1, k2⟩ := ih h4
      exact ⟨_, s2, rfl, .other h1 k1, k2⟩

theorem Blows.digits {a s : Str} (h : Blows a s) (ha : ∀ u ∈ a, isDig u = true) : (∀ u ∈ s, isDig u = true) ∧ (a ≠ [] → s ≠ []) := by
  induction h with
  | nil => simp
  | dig h1 h2 h3 _ ih =>
    refine ⟨fun v hv => ?_, fun _ => by simp [h2]⟩
    rcases List.mem_append.1 hv with hv | hv
    · exact h3 v hv
    · exact (ih (fun u hu => ha u (by simp [hu]))).1 v hv
  | other h1 => rw [ha _ (by simp)] at h1; cases h1

theorem Blows.gap {a s : Str} (h : Blows a s) (ha : ∀ u ∈ a, isDig u = false) : s = a := by
  induction h with
  | nil => rfl
  | dig h1 => rw [ha _ (by simp)] at h1; cases h1
  | other _ _ ih => rw [ih (fun u hu => ha u (by simp [hu]))]

theorem Blows.mem {a s : Str} (h : Blows a s) {u : Nat} (hu : u ∈ s) : isDig u = true ∨ u ∈ a := by
  induction h with
  | nil => cases hu
  | dig h1 h2 h3 _ ih =>
    rcases List.mem_append.1 hu with hu | hu
    · exact .inl (h3 u hu)
    · rcases ih hu with h | h
      · exact .inl h
      · exact .inr (by simp [h])
  | other h1 _ ih =>
    rcases List.mem_cons.1 hu with rfl | hu
    · exact .inr (by simp)
    · rcases ih hu with h | h
      · exact .inl h
      · exact .inr (by simp [h])

theorem Blows.ne {a s : Str} (h : Blows a s) (ha : a ≠ []) : s ≠ [] := by
  cases h with
  | nil => exact absurd rfl ha
  | dig _ h2 => simp [h2]
  | other => simp

/-- A text as a block of digits and pairs of a gap and a block. -/
def pieces : Str → Str × List (Str × Str)
  | [] => ([], [])
  | u :: t =>
    match pieces t with
    | (d, l) =>
      if isDig u then (u :: d, l)
      else match d, l with
        | [], (g, k) :: l => ([], (u :: g, k) :: l)
        | d, l => ([], ([u], d) :: l)

theorem pieces_eq (s : Str) : s = (pieces s).1 ++ (pieces s).2.flatMap fun x => x.1 ++ x.2 := by
  induction s with
  | nil => rfl
  | cons u t ih =>
    unfold pieces
    generalize hp : pieces t = p at ih
    obtain ⟨d, l⟩ := p
    dsimp only at ih ⊢
    by_cases hu : isDig u = true
    · rw [if_pos hu]; simp only [List.cons_append]; rw [← ih]
    · rw [if_neg hu]
      split
      · simp only [List.nil_append, List.flatMap_cons, List.cons_append] at ih ⊢; rw [← ih]
      · simp only [List.nil_append, List.flatMap_cons, List.cons_append, List.append_assoc] at ih ⊢; rw [← ih]

/-- Parentheses as `Paired` asks. -/
def pairedOk (s : Str) : Bool :=
  (s.all fun u => !Nat.beq u 40 && !Nat.beq u 41) ||
    let x := s.takeWhile fun u => !Nat.beq u 40
    match s.dropWhile fun u => !Nat.beq u 40 with
    | [] => false
    | v :: t =>
      let y := t.takeWhile fun u => !Nat.beq u 41
      match t.dropWhile fun u => !Nat.beq u 41 with
      | [] => false
      | w :: z => Nat.beq v 40 && Nat.beq w 41 && (x ++ y ++ z).all (fun u => !Nat.beq u 40 && !Nat.beq u 41) && x.all (fun u => !Nat.beq u 45) &&
          !y.isEmpty && !z.isEmpty

/-- Without a leading parenthesis. -/
def unlead : Str → Str
  | [] => []
  | u :: t => if Nat.beq u 40 then t else u :: t

theorem unlead_eq (s : Str) : s = unlead s ∨ s = [40] ++ unlead s := by
  cases s with
  | nil => exact .inl rfl
  | cons u t =>
    rw [unlead]
    by_cases h : Nat.beq u 40 = true
    · rw [if_pos h]; rw [Nat.beq_eq] at h; exact .inr (by rw [h]; rfl)
    · rw [if_neg h]; exact .inl rfl

/-- The sample begins as it should, has gaps of up to four characters, and ends with a digit. -/
def shapeOk (s : Str) : Bool :=
  let p := pieces (unlead s)
  !p.1.isEmpty && p.1.all isDig && Nat.ble p.2.length 20 && p.2.all (fun x => !x.1.isEmpty && Nat.ble x.1.length 4 &&
    x.1.all (fun u => [32, 45, 46, 40, 41].any (Nat.beq u)) && !x.2.isEmpty && x.2.all isDig) && pairedOk s

theorem pairedOk_blows {σ s : Str} (h : pairedOk σ = true) (hb : Blows σ s) : Paired s := by
  have hnd : ∀ u, isDig u = true → u ≠ 40 ∧ u ≠ 41 ∧ u ≠ 45 := by
    intro u hu
    have : 48 ≤ u ∧ u ≤ 57 := by simpa [isDig] using hu
    omega
  unfold pairedOk at h
  rw [Bool.or_eq_true] at h
  rcases h with h | h
  · refine .inl ⟨fun hm => ?_, fun hm => ?_⟩
    · rcases hb.mem hm with h1 | h1
      · cases h1
      · have := List.all_eq_true.1 h _ h1
        cases this
    · rcases hb.mem hm with h1 | h1
      · cases h1
      · have := List.all_eq_true.1 h _ h1
        cases this
  · dsimp only at h
    have hs := (List.takeWhile_append_dropWhile (p := fun u => !Nat.beq u 40) (l := σ)).symm
    generalize hx : σ.takeWhile (fun u => !Nat.beq u 40) = x at h hs
    generalize ht : σ.dropWhile (fun u => !Nat.beq u 40) = t' at h hs
    cases t' with
    | nil => cases h
    | cons v t =>
      dsimp only at h
      have ht2 := (List.takeWhile_append_dropWhile (p := fun u => !Nat.beq u 41) (l := t)).symm
      generalize hy : t.takeWhile (fun u => !Nat.beq u 41) = y at h ht2
      generalize hz : t.dropWhile (fun u => !Nat.beq u 41) = z' at h ht2
      cases z' with
      | nil => cases h
      | cons w z =>
        simp only [Bool.and_eq_true, Nat.beq_eq, List.all_eq_true, Bool.not_eq_true', List.isEmpty_eq_false_iff] at h
        obtain ⟨⟨⟨⟨⟨rfl, rfl⟩, h3⟩, h4⟩, h5⟩, h6⟩ := h
        rw [ht2] at hs
        rw [hs] at hb
        obtain ⟨x', q, rfl, bx, bq⟩ := hb.split
        rw [show 40 :: (y ++ 41 :: z) = [40] ++ (y ++ ([41] ++ z)) from rfl] at bq
        obtain ⟨q1, q2, rfl, b1, bq⟩ := bq.split
        obtain ⟨y', q3, rfl, bY, bq⟩ := bq.split
        obtain ⟨q4, z', rfl, b2, bz⟩ := bq.split
        have e1 := b1.gap (by decide)
        have e2 := b2.gap (by decide)
        subst e1 e2
        have hne : ∀ u, u ∈ x ∨ u ∈ y ∨ u ∈ z → u ≠ 40 ∧ u ≠ 41 := by
          intro u hu
          have := h3 u (by simp only [List.mem_append]; rcases hu with h | h | h <;> simp [h])
          refine ⟨?_, ?_⟩
          · rintro rfl; cases this.1
          · rintro rfl; cases this.2
        refine .inr ⟨x', y', z', by simp, fun u hu => ?_, fun hm => ?_, bY.ne h5, bz.ne h6⟩
        · simp only [List.mem_append] at hu
          have : isDig u = true ∨ u ∈ x ∨ u ∈ y ∨ u ∈ z := by
            rcases hu with (hu | hu) | hu
            · rcases bx.mem hu with h | h
              · exact .inl h
              · exact .inr (.inl h)
            · rcases bY.mem hu with h | h
              · exact .inl h
              · exact .inr (.inr (.inl h))
            · rcases bz.mem hu with h | h
              · exact .inl h
              · exact .inr (.inr (.inr h))
          rcases this with h | h
          · exact ⟨(hnd u h).1, (hnd u h).2.1⟩
          · exact hne u h
        · rcases bx.mem hm with h | h
          · cases h
          · exact absurd (h4 _ h) (by decide)

theorem Blows.blocks {l : List (Str × Str)} (hl : ∀ x ∈ l, LocalGap x.1 ∧ x.2 ≠ [] ∧ ∀ u ∈ x.2, isDig u = true) {s : Str}
    (h : Blows (l.flatMap fun x => x.1 ++ x.2) s) : ∃ l' : List (Str × Str), s = (l'.flatMap fun x => x.1 ++ x.2) ∧ l'.length = l.length ∧
      ∀ x ∈ l', LocalGap x.1 ∧ x.2 ≠ [] ∧ ∀ u ∈ x.2, isDig u = true := by
  induction l generalizing s with
  | nil => cases h; exact ⟨[], rfl, rfl, by simp⟩
  | cons x l ih =>
    rw [List.flatMap_cons, List.append_assoc] at h
    obtain ⟨s1, s2, rfl, b1, h⟩ := h.split
    obtain ⟨s3, s4, rfl, b2, h⟩ := h.split
    obtain ⟨hg, hne, hd⟩ := hl x (by simp)
    obtain ⟨l', rfl, h2, h3⟩ := ih (fun y hy => hl y (by simp [hy])) h
    have e := b1.gap (fun u hu => (localGap_punct (hg.2.2 u hu)).2.2)
    subst e
    refine ⟨(x.1, s3) :: l', by simp, by simp [h2], fun y hy => ?_⟩
    rcases List.mem_cons.1 hy with rfl | hy
    · exact ⟨hg, b2.ne hne, (b2.digits hd).1⟩
    · exact h3 y hy

theorem block_le {w s a e : Str} (hs : s = a ++ (w ++ e)) (hw : ∀ u ∈ w, isDig u = true) {k : Nat} (hk : (s.filter isDig).length ≤ k) : w.length ≤ k := by
  have : w.filter isDig = w := List.filter_eq_self.2 hw
  rw [hs, List.filter_append, List.filter_append, this] at hk
  simp only [List.length_append] at hk
  omega

theorem shapeOk_blows {σ s : Str} (h : shapeOk σ = true) (hb : Blows σ s) (h20 : (s.filter isDig).length ≤ 20) :
    ∃ lead, WrittenLocally lead s := by
  unfold shapeOk at h
  simp only [Bool.and_eq_true, List.all_eq_true, Bool.not_eq_true', List.isEmpty_eq_false_iff, Nat.ble_eq] at h
  obtain ⟨⟨⟨⟨h1, h2⟩, h3⟩, h4⟩, h5⟩ := h
  have hp := pairedOk_blows h5 hb
  have key : ∀ (τ t : Str), (∃ a, s = a ++ t) → Blows τ t → (pieces τ).1 ≠ [] → (∀ u ∈ (pieces τ).1, isDig u = true) → (pieces τ).2.length ≤ 20 →
      (∀ x ∈ (pieces τ).2, ((((x.1 ≠ [] ∧ x.1.length ≤ 4) ∧ ∀ u ∈ x.1, [32, 45, 46, 40, 41].any (Nat.beq u) = true) ∧ x.2 ≠ []) ∧ ∀ u ∈ x.2, isDig u = true)) →
      ∃ (d : Str) (l : List (Str × Str)), t = d ++ (l.flatMap fun x => x.1 ++ x.2) ∧ Block d ∧ l.length ≤ 20 ∧ ∀ x ∈ l, LocalGap x.1 ∧ Block x.2 := by
    rintro τ t ⟨a, ha⟩ hb h1 h2 h3 h4
    rw [pieces_eq τ] at hb
    obtain ⟨d, s2, rfl, b1, b2⟩ := hb.split
    obtain ⟨l, rfl, hl1, hl2⟩ := b2.blocks (fun x hx => by
      obtain ⟨⟨⟨⟨k1, k2⟩, k3⟩, k4⟩, k5⟩ := h4 x hx
      refine ⟨⟨by have := List.length_pos_iff.2 k1; omega, k2, fun u hu => ?_⟩, k4, k5⟩
      obtain ⟨v, hv, hv2⟩ := List.any_eq_true.1 (k3 u hu)
      rw [Nat.beq_eq] at hv2
      rw [hv2]; exact hv)
    refine ⟨d, l, rfl, ⟨?_, ?_, (b1.digits h2).1⟩, by omega, fun x hx => ?_⟩
    · have := List.length_pos_iff.2 (b1.ne h1); omega
    · exact block_le ha (b1.digits h2).1 h20
    · obtain ⟨k1, k2, k3⟩ := hl2 x hx
      refine ⟨k1, ⟨by have := List.length_pos_iff.2 k2; omega, ?_, k3⟩⟩
      obtain ⟨p, q, rfl⟩ := List.append_of_mem hx
      refine block_le (a := a ++ d ++ (p.flatMap fun x => x.1 ++ x.2) ++ x.1) (e := q.flatMap fun x => x.1 ++ x.2) ?_ k3 h20
      rw [ha]; simp
  rcases unlead_eq σ with e | e
  · obtain ⟨d, l, rfl, k1, k2, k3⟩ := key (unlead σ) s ⟨[], rfl⟩ (by rw [← e]; exact hb) h1 h2 h3 h4
    exact ⟨false, d, l, rfl, k1, k2, k3, hp⟩
  · rw [e] at hb
    obtain ⟨s1, s2, hs, b1, b2⟩ := hb.split
    have e1 := b1.gap (by decide)
    subst e1
    obtain ⟨d, l, rfl, k1, k2, k3⟩ := key (unlead σ) s2 ⟨[40], hs⟩ b2 h1 h2 h3 h4
    exact ⟨true, d, l, hs, k1, k2, k3, hp⟩

/-- The text of a template is the sample with longer groups. -/
theorem blows_fill {n : Nat} {t : Str} (ht : templateOk n t = true) {gs : List Str} (hn : gs.length = n)
    (hg : ∀ g ∈ gs, g ≠ [] ∧ ∀ u ∈ g, isDig u = true) : Blows (fill (List.replicate n [48]) t) (fill gs t) := by
  have lit : ∀ {u : Nat} {σ s : Str}, Blows σ s → Blows (u :: σ) (u :: s) := by
    intro u σ s h
    by_cases hu : isDig u = true
    · exact .dig (w := [u]) hu (by simp) (by simpa using hu) h
    · exact .other (by simpa using hu) h
  induction t using fill.induct with
  | case1 => exact .nil
  | case2 u => exact lit .nil
  | case3 d t ih =>
    simp only [templateOk, Nat.beq_refl, if_true, Bool.and_eq_true, Nat.ble_eq] at ht
    obtain ⟨⟨⟨⟨h1, h2⟩, h3⟩, -⟩, h5⟩ := ht
    have hlt : d - 49 < n := by omega
    rw [fill, fill, if_pos rfl, if_pos rfl]
    have e1 : (List.replicate n [48]).getD (d - 49) [] = [48] := by
      rw [List.getD_eq_getElem?_getD, List.getElem?_replicate, if_pos hlt]; rfl
    have hlt' : d - 49 < gs.length := by omega
    have e2 : gs.getD (d - 49) [] = gs[d - 49] := by
      rw [List.getD_eq_getElem?_getD, List.getElem?_eq_getElem hlt']; rfl
    rw [e1, e2]
    obtain ⟨k1, k2⟩ := hg _ (List.getElem_mem hlt')
    exact .dig (by decide) k1 k2 (ih h5)
  | case4 u d t hu ih =>
    rw [fill, fill, if_neg hu, if_neg hu]
    refine lit (ih ?_)
    have : Nat.beq u 36 = false := by rw [Bool.eq_false_iff]; intro h; exact hu (by rwa [Nat.beq_eq] at h)
    simpa only [templateOk, this, Bool.false_eq_true, if_false] using ht

theorem cut_groups {gs : List (Nat × Nat)} (hg : ∀ g ∈ gs, 1 ≤ g.1 ∧ 1 ≤ g.2) {s : Str} (hs : ∀ u ∈ s, isDig u = true) (hl : least gs ≤ s.length) :
    ∀ g ∈ cut gs s, g ≠ [] ∧ ∀ u ∈ g, isDig u = true := by
  induction gs generalizing s with
  | nil => simp [cut]
  | cons g gs ih =>
    have e : least (g :: gs) = g.1 + least gs := by simp [least]
    obtain ⟨g1, g2⟩ := hg g (by simp)
    rw [e] at hl
    intro x hx
    rw [cut] at hx
    rcases List.mem_cons.1 hx with rfl | hx
    · refine ⟨?_, fun u hu => hs u (List.mem_of_mem_take hu)⟩
      intro h
      have := congrArg List.length h
      simp only [List.length_take, List.length_nil] at this
      omega
    · refine ih (fun y hy => hg y (by simp [hy])) (fun u hu => hs u (List.mem_of_mem_drop hu)) ?_ x hx
      rw [List.length_drop]; omega

/-- A rule that asks for a national prefix. -/
def asksPrefix (p : NumberFormat) : Bool := !p.npRule.isEmpty && !p.npOptional && !ruleHasFirstGroupOnly p.npRule

/-- What is asked of a rule: no group may be empty, the sample has the right shape, and there are at most three digits before the number,
and some if the rule asks for a national prefix. -/
def localRuleOk (p : NumberFormat) : Bool :=
  match groupSizes p.pattern.re 1 with
  | none => false
  | some gs => gs.all (fun g => Nat.ble 1 g.1 && Nat.ble 1 g.2) && shapeOk (fill (List.replicate gs.length [48]) (template p .national [])) &&
      Nat.ble (natDigits p).length 3 && (!asksPrefix p || !(natDigits p).isEmpty)

theorem localRule_text {p : NumberFormat} (h : localRuleOk p = true) (hp : layoutRuleOk p = true) (hn : natTextOk p = true) {s : Str}
    (hs : ∀ u ∈ s, isDig u = true) (h17 : s.length ≤ 17) (ha : Applies p s) (hacc : p.pattern.re.Acc 0 s []) :
    ∃ lead, WrittenLocally lead (formatNsnUsingPattern s p .national []) := by
  obtain ⟨-, -, -, hf⟩ := natRule_text hn hs hacc
  obtain ⟨gs, hg, he⟩ := formatNsnUsingPattern_eq hp hs ha .national (carrier := []) (by simp)
  obtain ⟨⟨gs', hg', h1, -⟩, -⟩ := ha
  rw [hg] at hg'
  cases hg'
  simp only [localRuleOk, hg, Bool.and_eq_true, List.all_eq_true, Nat.ble_eq] at h
  obtain ⟨⟨⟨k1, k2⟩, k3⟩, -⟩ := h
  have he' : formatNsnUsingPattern s p .national [] = fill (cut gs s) (template p .national []) := by
    rw [he, tidy, if_neg (by decide)]
  have ht : templateOk gs.length (template p .national []) = true := by
    simp only [layoutRuleOk, hg, Bool.and_eq_true] at hp
    obtain ⟨⟨⟨-, q1⟩, q2⟩, -⟩ := hp
    unfold template
    rw [if_neg (by simp)]
    split
    · exact templateOk_putRule q1 q2
    · exact q1
  refine shapeOk_blows k2 ?_ ?_
  · rw [he']
    exact blows_fill ht (cut_length gs s) (cut_groups k1 hs h1)
  · rw [hf, List.length_append]; omega

theorem stripNationalPrefix_false {s : Str} {m : Metadata} (h : (stripNationalPrefix s m).1 = false) : (stripNationalPrefix s m).2.1 = s := by
  unfold stripNationalPrefix at h ⊢
  split
  · rfl
  · rename_i h0
    rw [if_neg h0] at h
    split
    · rfl
    · rename_i x hx
      simp only [hx] at h ⊢
      split <;> rename_i h1
      · rw [if_pos h1] at h
        split
        · rfl
        · rename_i h2; rw [if_neg h2] at h; cases h
      · rw [if_neg h1] at h
        split
        · rfl
        · rename_i h2; rw [if_neg h2] at h; cases h

/-- If something is taken off the number, then the national prefix is there. -/
theorem taken_of_stage {b nsn c : Str} {m : Metadata} (hb : b ≠ []) (h : stripStage (b ++ nsn) (some m) = .ok (nsn, c)) :
    (stripNationalPrefix (b ++ nsn) m).1 = true := by
  cases hf : (stripNationalPrefix (b ++ nsn) m).1 with
  | true => rfl
  | false =>
    exfalso
    have h1 := stripNationalPrefix_false hf
    have key : b ++ nsn = nsn := by
      unfold stripStage at h
      cases ht : testNumberLength (stripNationalPrefix (b ++ nsn) m).2.1 (some m) .unknown with
      | error e => simp [ht, bind, Except.bind] at h
      | ok v =>
        simp only [ht, bind, Except.bind, pure, Except.pure, Except.ok.injEq] at h
        split at h
        · rw [← h1]; exact congrArg Prod.fst h
        · exact congrArg Prod.fst h
    have := congrArg List.length key
    simp at this
    exact hb this

/-- The prefix `b` before the numbers of `m` is taken off by the metadata `M`. -/
def takenOff (M m : Metadata) (b : Str) : Bool :=
  !M.npParsing.src.isEmpty && M.npParsing.re.alts.any (fun a => a.noAnchor && a.full.isMatch b) && (descPat M.general).re.noAnchor &&
    (kindPats m).all (·.noAnchor) && apart 3 [[(descPat M.general).re], (kindPats m).map (afterLit b)]

theorem takenOff_sound {M m : Metadata} {b nsn : Str} (h : takenOff M m b = true) (hb : ∀ u ∈ b, isDig u = true) (hne : nsn ≠ [])
    (hd : ∀ u ∈ nsn, isDig u = true) (hk : OfKind m nsn) : (stripNationalPrefix (b ++ nsn) M).1 = true := by
  simp only [takenOff, Bool.and_eq_true, Bool.not_eq_true', List.isEmpty_eq_false_iff, List.all_eq_true] at h
  obtain ⟨⟨⟨⟨h1, h2⟩, h3⟩, h4⟩, h5⟩ := h
  obtain ⟨a, ha, h2⟩ := List.any_eq_true.1 h2
  rw [Bool.and_eq_true] at h2
  have hacc : M.npParsing.re.atStart.Acc (0 + ([] : Str).length) b nsn :=
    ⟨[], b, rfl, ⟨rfl, rfl⟩, acc_of_alts ha (noAnchor_acc h2.1 ((full_isMatch_iff _ _).1 h2.2))⟩
  have hgen : (descPat M.general).re.full.isMatch (b ++ nsn) = false := by
    rw [Bool.eq_false_iff]
    intro hg
    have hk' := afterLit_any hb (Gs := [kindPats m]) (w := nsn) (fun G hG => by
      rw [List.mem_singleton] at hG; subst hG; exact ⟨h4, ofKind_acc hk⟩)
    refine apart_sound h5 (w := b ++ nsn) ?_ ?_ ?_
    · intro G hG
      rcases List.mem_cons.1 hG with rfl | hG
      · intro r hr; rw [List.mem_singleton] at hr; subst hr; exact h3
      · exact (hk' G (by simpa using hG)).1
    · intro u hu
      rcases List.mem_append.1 hu with hu | hu
      · exact hb u hu
      · exact hd u hu
    · intro G hG
      rcases List.mem_cons.1 hG with rfl | hG
      · exact ⟨_, by simp, (full_isMatch_iff _ _).1 hg⟩
      · exact (hk' G (by simpa using hG)).2
  unfold stripNationalPrefix
  rw [if_neg (by simp [hne, h1])]
  cases hf : M.npParsing.re.atStart.find (b ++ nsn) with
  | none => exact absurd hacc (findFrom_none hf [] b nsn (by simp))
  | some x =>
    simp only [hgen, Bool.false_eq_true, false_and, if_false]
    split <;> rfl

/-- The check on the rules of the main region of every code, and on the prefixes of its other regions. -/
def localsOk (C : Container) : Bool :=
  C.ccToRegion.all fun e => match e.2 with
    | [] => true
    | r0 :: rs => match mapGet C.regionMeta r0 with
      | none => true
      | some M => M.formats.all localRuleOk && rs.all fun r => match mapGet C.regionMeta r with
        | none => true
        | some m => M.formats.all fun p => !asksPrefix p || takenOff M m (natDigits p)

end Verif
