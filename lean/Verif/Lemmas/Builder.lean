import Verif.Spec.Builder
import Verif.Lemmas.Dec
/-!
# Lemmas on the metadata builder
-/
namespace Verif.Builder
open Verif Verif.Spec

/-! ## Splitting -/

theorem splitCh_none {c : Nat} {a : Str} (h : c ∉ a) : splitCh c a = [a] := by
  induction a with
  | nil => rfl
  | cons u a ih =>
    simp only [List.mem_cons, not_or] at h
    simp [splitCh, ih h.2, Ne.symm h.1]

theorem splitCh_append {c : Nat} {a b : Str} (h : c ∉ a) : splitCh c (a ++ c :: b) = a :: splitCh c b := by
  induction a with
  | nil => simp [splitCh]
  | cons u a ih =>
    simp only [List.mem_cons, not_or] at h
    simp [splitCh, ih h.2, Ne.symm h.1]

/-! ## Numbers -/

theorem dec_not_mem {c : Nat} (hc : isDig c = false) (n : Nat) : c ∉ dec n := by
  intro h
  rw [dec_digits n c h] at hc
  cases hc

theorem atoiLax_dec {n : Nat} (h : n < 2 ^ 31) : atoiLax (dec n) = n := by
  have hne := dec_ne_nil n
  have hall : (dec n).all isDig = true := List.all_eq_true.2 (dec_digits n)
  unfold atoiLax
  have hm : splitSign (dec n) = (false, dec n) := by
    unfold splitSign
    split
    · rename_i t ht
      exact absurd (show 43 ∈ dec n by rw [ht]; simp) (dec_not_mem (by decide) n)
    · rename_i t ht
      exact absurd (show 45 ∈ dec n by rw [ht]; simp) (dec_not_mem (by decide) n)
    · rfl
  rw [hm]
  simp only [hne, hall, digVal_dec, Bool.not_true, or_self, Bool.false_eq_true, if_false]
  omega

theorem wrap32_id {x : Int} (h0 : 0 ≤ x) (h : x < 2 ^ 31) : wrap32 x = x := by
  unfold wrap32; omega

/-! ## Sets of lengths -/

theorem mem_addKey {s : List Int} {k x : Int} : x ∈ addKey s k ↔ x ∈ s ∨ x = k := by
  unfold addKey
  split
  · rename_i h
    constructor
    · exact Or.inl
    · rintro (h' | rfl)
      · exact h'
      · exact h
  · simp

theorem nodup_addKey {s : List Int} {k : Int} (h : s.Nodup) : (addKey s k).Nodup := by
  unfold addKey
  split
  · exact h
  · rename_i hk
    rw [List.nodup_append]
    refine ⟨h, by simp, ?_⟩
    intro a ha b hb
    simp only [List.mem_singleton] at hb
    subst hb
    intro hab; subst hab; exact hk ha

theorem mem_addKeys {ks s : List Int} {x : Int} : x ∈ ks.foldl addKey s ↔ x ∈ s ∨ x ∈ ks := by
  induction ks generalizing s with
  | nil => simp
  | cons k ks ih => rw [List.foldl_cons, ih, mem_addKey]; simp [or_assoc]

theorem nodup_addKeys {ks s : List Int} (h : s.Nodup) : (ks.foldl addKey s).Nodup := by
  induction ks generalizing s with
  | nil => exact h
  | cons k ks ih => exact ih (nodup_addKey h)

/-! ## Reading lengths -/

theorem nodup_addLengthItem {s : List Int} {i : Str} {r : List Int} (hs : s.Nodup) (h : addLengthItem s i = .ok r) : r.Nodup := by
  unfold addLengthItem at h
  split at h
  · cases h
  · split at h
    · cases h
    · split at h
      · dsimp only at h
        split at h
        · cases h
        · rw [← Except.ok.inj h]; exact nodup_addKeys hs
      · cases h
  · rw [← Except.ok.inj h]; exact nodup_addKey hs

theorem nodup_addLengthItems {is : List Str} {s r : List Int} (hs : s.Nodup) (h : addLengthItems s is = .ok r) : r.Nodup := by
  induction is generalizing s with
  | nil => rw [addLengthItems] at h; rw [← Except.ok.inj h]; exact hs
  | cons i is ih =>
    simp only [addLengthItems, bind, Except.bind] at h
    cases hi : addLengthItem s i with
    | error e => rw [hi] at h; cases h
    | ok s' => rw [hi] at h; exact ih (nodup_addLengthItem hs hi) h

theorem nodup_parseLengths {s : Str} {r : List Int} (h : parseLengths s = .ok r) : r.Nodup := by
  unfold parseLengths at h
  split at h
  · cases h
  · exact nodup_addLengthItems List.nodup_nil h

theorem addLengthItem_plain {s : List Int} {i : Str} (h0 : i ≠ []) (h1 : 91 ∉ i) : addLengthItem s i = .ok (addKey s (wrap32 (atoiLax i))) := by
  unfold addLengthItem
  split
  · exact absurd rfl h0
  · simp at h1
  · rfl

theorem addLengthItem_text {s : List Int} {i : LenItem} (hi : i.Ok) :
    ∃ r, addLengthItem s i.text = .ok r ∧ ∀ x, x ∈ r ↔ x ∈ s ∨ i.Covers x := by
  cases i with
  | one n =>
    rw [LenItem.text, ← dec_eq_decimal]
    refine ⟨_, addLengthItem_plain (dec_ne_nil n) (dec_not_mem (by decide) n), fun x => ?_⟩
    rw [mem_addKey, atoiLax_dec hi, wrap32_id (by omega) (by have := hi; simp only [LenItem.Ok] at this; omega)]
    rfl
  | range lo hi' =>
    obtain ⟨h2, h3⟩ := hi
    have ht : (LenItem.range lo hi').text = 91 :: (dec lo ++ 45 :: dec hi' ++ [93]) := by
      simp [LenItem.text, ← dec_eq_decimal]
    rw [ht]
    unfold addLengthItem
    have hl : (91 :: (dec lo ++ 45 :: dec hi' ++ [93])).getLast? = some 93 := by
      rw [← List.cons_append, List.getLast?_append]; rfl
    have hd : (dec lo ++ 45 :: dec hi' ++ [93]).dropLast = dec lo ++ 45 :: dec hi' := List.dropLast_concat
    have hs : splitCh 45 (dec lo ++ 45 :: dec hi') = [dec lo, dec hi'] := by
      rw [splitCh_append (dec_not_mem (by decide) lo), splitCh_none (dec_not_mem (by decide) hi')]
    simp only [hl, hd, hs, atoiLax_dec h3, atoiLax_dec (show lo < 2 ^ 31 by omega), ne_eq, not_true_eq_false, if_false]
    rw [if_neg (by omega)]
    refine ⟨_, rfl, fun x => ?_⟩
    rw [mem_addKeys]
    have : x ∈ rangeKeys lo hi' ↔ (LenItem.range lo hi').Covers x := by
      simp only [rangeKeys, List.mem_map, List.mem_range, LenItem.Covers]
      constructor
      · rintro ⟨k, hk, rfl⟩
        rw [wrap32_id (by omega) (by omega)]
        omega
      · rintro ⟨h4, h5⟩
        exact ⟨(x - lo).toNat, by omega, by rw [wrap32_id (by omega) (by omega)]; omega⟩
    rw [this]

theorem comma_not_mem_text (i : LenItem) : 44 ∉ i.text := by
  cases i with
  | one n => rw [LenItem.text, ← dec_eq_decimal]; exact dec_not_mem (by decide) n
  | range lo hi =>
    have h1 := dec_not_mem (c := 44) (by decide) lo
    have h2 := dec_not_mem (c := 44) (by decide) hi
    simp [LenItem.text, ← dec_eq_decimal, h1, h2]

theorem split_lenText {is : List LenItem} (h : is ≠ []) : splitCh 44 (lenText is) = is.map LenItem.text := by
  induction is with
  | nil => exact absurd rfl h
  | cons i is ih =>
    cases is with
    | nil => exact splitCh_none (comma_not_mem_text i)
    | cons j js =>
      have : lenText (i :: j :: js) = i.text ++ 44 :: lenText (j :: js) := by simp [lenText]
      rw [this, splitCh_append (comma_not_mem_text i), ih (by simp)]
      rfl

theorem addLengthItems_text {is : List LenItem} (h : ∀ i ∈ is, i.Ok) (s : List Int) :
    ∃ r, addLengthItems s (is.map LenItem.text) = .ok r ∧ ∀ x, x ∈ r ↔ x ∈ s ∨ ∃ i ∈ is, i.Covers x := by
  induction is generalizing s with
  | nil => exact ⟨s, rfl, by simp⟩
  | cons i is ih =>
    obtain ⟨s', h1, h2⟩ := addLengthItem_text (s := s) (h i (by simp))
    obtain ⟨r, h3, h4⟩ := ih (fun j hj => h j (by simp [hj])) s'
    refine ⟨r, ?_, fun x => ?_⟩
    · simp only [List.map_cons, addLengthItems, bind, Except.bind, h1, h3]
    · rw [h4, h2]; simp [or_assoc]

theorem text_ne_nil (i : LenItem) : i.text ≠ [] := by
  cases i with
  | one n => rw [LenItem.text, ← dec_eq_decimal]; exact dec_ne_nil n
  | range lo hi => simp [LenItem.text]

theorem lenText_ne_nil {is : List LenItem} (h : is ≠ []) : lenText is ≠ [] := by
  cases is with
  | nil => exact absurd rfl h
  | cons i is => cases is <;> simp [lenText, text_ne_nil]

theorem parseLengths_text {is : List LenItem} (h0 : is ≠ []) (h : ∀ i ∈ is, i.Ok) :
    ∃ r, parseLengths (lenText is) = .ok r ∧ ∀ x, x ∈ r ↔ ∃ i ∈ is, i.Covers x := by
  obtain ⟨r, h1, h2⟩ := addLengthItems_text h []
  refine ⟨r, ?_, fun x => by rw [h2]; simp⟩
  rw [parseLengths, if_neg (lenText_ne_nil h0), split_lenText h0, h1]

/-! ## Sets of a description element -/

/-- National and local-only lengths of a description element. -/
def descSets (d : Option DescE) : Go (List Int × List Int) :=
  match d.bind (·.lengths) with
  | none => .ok ([], [])
  | some e => do
    let mine ← parseLengths e.national
    let loc ← (if e.localOnly ≠ [] then do
        let mineLoc ← parseLengths e.localOnly
        if mine.filter (· ∈ mineLoc) ≠ [] then .error .explicit else .ok mineLoc
      else .ok [] : Go (List Int))
    return (mine, loc)

theorem filter_eq_nil_perm {p : Int → Bool} {a b : List Int} (h : a.Perm b) : a.filter p = [] ↔ b.filter p = [] := by
  simp only [List.filter_eq_nil_iff]
  exact ⟨fun h' x hx => h' x (h.mem_iff.2 hx), fun h' x hx => h' x (h.mem_iff.1 hx)⟩

/-- The same set, without repetitions. -/
def AddedTo (r s a : List Int) : Prop := (s.Nodup → r.Nodup) ∧ ∀ x, x ∈ r ↔ x ∈ s ∨ x ∈ a

theorem addedTo_keys {o : Order} (ho : o.Fair) (p : List Nat) (s a : List Int) : AddedTo ((o p a).foldl addKey s) s a :=
  ⟨nodup_addKeys, fun x => by rw [mem_addKeys, (ho p a).mem_iff]⟩

theorem Order.Fair.sub {o : Order} (ho : o.Fair) (k : Nat) : (o.sub k).Fair := fun p ks => ho (k :: p) ks

theorem addDesc_spec {o : Order} (ho : o.Fair) (acc : List Int × List Int) (d : Option DescE) :
    (∀ p, descSets d = .error p → addDescLengths o acc d = .error p) ∧
    (∀ a b, descSets d = .ok (a, b) → ∃ r, addDescLengths o acc d = .ok r ∧ AddedTo r.1 acc.1 a ∧ AddedTo r.2 acc.2 b) := by
  unfold descSets addDescLengths
  cases d.bind (·.lengths) with
  | none => exact ⟨by simp, fun a b h => ⟨acc, rfl, by cases h; exact ⟨⟨id, by simp⟩, ⟨id, by simp⟩⟩⟩⟩
  | some e =>
    simp only [bind, Except.bind]
    cases parseLengths e.national with
    | error q => exact ⟨fun p h => h, by simp⟩
    | ok mine =>
      by_cases hl : e.localOnly = []
      · simp only [hl, ne_eq, not_true_eq_false, if_false, pure, Except.pure]
        refine ⟨by simp, fun a b h => ?_⟩
        simp only [Except.ok.injEq, Prod.mk.injEq] at h
        rw [← h.1, ← h.2]
        exact ⟨_, rfl, addedTo_keys (ho.sub 2) [] _ _, id, by simp⟩
      · simp only [hl, ne_eq, not_false_eq_true, if_true]
        cases parseLengths e.localOnly with
        | error q => exact ⟨fun p h => h, by simp⟩
        | ok ml =>
          have hf := filter_eq_nil_perm (p := fun x => decide (x ∈ ml)) ((ho.sub 0) [] mine)
          by_cases hi : mine.filter (· ∈ ml) = []
          · have hi' := hf.2 hi
            simp only [hi, hi', not_true_eq_false, if_false, pure, Except.pure]
            refine ⟨by simp, fun a b h => ?_⟩
            simp only [Except.ok.injEq, Prod.mk.injEq] at h
            rw [← h.1, ← h.2]
            exact ⟨_, rfl, addedTo_keys (ho.sub 2) [] _ _, addedTo_keys (ho.sub 1) [] _ _⟩
          · have hi' : ¬ List.filter (fun x => decide (x ∈ ml)) (o.sub 0 [] mine) = [] := fun h => hi (hf.1 h)
            simp only [hi, hi', not_false_eq_true, if_true]
            exact ⟨fun p h => h, by simp⟩

/-- All panics of the length code are explicit. -/
theorem addLengthItem_err {s : List Int} {i : Str} {p : Panic} (h : addLengthItem s i = .error p) : p = .explicit := by
  unfold addLengthItem at h
  split at h
  · cases h; rfl
  · split at h
    · cases h; rfl
    · split at h
      · dsimp only at h
        split at h
        · cases h; rfl
        · cases h
      · cases h; rfl
  · cases h

theorem addLengthItems_err {is : List Str} {s : List Int} {p : Panic} (h : addLengthItems s is = .error p) : p = .explicit := by
  induction is generalizing s with
  | nil => cases h
  | cons i is ih =>
    simp only [addLengthItems, bind, Except.bind] at h
    cases hi : addLengthItem s i with
    | error e => rw [hi] at h; cases h; exact addLengthItem_err hi
    | ok s' => rw [hi] at h; exact ih h

theorem parseLengths_err {s : Str} {p : Panic} (h : parseLengths s = .error p) : p = .explicit := by
  unfold parseLengths at h
  split at h
  · cases h; rfl
  · exact addLengthItems_err h

theorem descSets_err {d : Option DescE} {p : Panic} (h : descSets d = .error p) : p = .explicit := by
  unfold descSets at h
  cases hd : d.bind (·.lengths) with
  | none => rw [hd] at h; cases h
  | some e =>
    rw [hd] at h
    simp only [bind, Except.bind] at h
    cases h1 : parseLengths e.national with
    | error q => rw [h1] at h; cases h; exact parseLengths_err h1
    | ok mine =>
      rw [h1] at h
      by_cases hl : e.localOnly = []
      · simp [hl, pure, Except.pure] at h
      · simp only [hl, ne_eq, not_false_eq_true, if_true] at h
        cases h2 : parseLengths e.localOnly with
        | error q => rw [h2] at h; cases h; exact parseLengths_err h2
        | ok ml =>
          simp only [h2] at h
          by_cases hi : mine.filter (· ∈ ml) = []
          · simp [hi, pure, Except.pure] at h
          · simp only [hi, not_false_eq_true, if_true] at h
            cases h; rfl

/-- What `populateLengths` does, without reference to the order: it fails if one of the elements is bad, and otherwise adds the sets of
all elements. -/
theorem populate_spec {o : Order} (ho : o.Fair) (k : Nat) (acc : List Int × List Int) (ds : List (Option DescE)) :
    ((∃ d ∈ ds, ∃ p, descSets d = .error p) → populateLengths o k acc ds = .error .explicit) ∧
    ((∀ d ∈ ds, ∃ ab, descSets d = .ok ab) → ∃ r, populateLengths o k acc ds = .ok r ∧
      (acc.1.Nodup → r.1.Nodup) ∧ (acc.2.Nodup → r.2.Nodup) ∧
      (∀ x, x ∈ r.1 ↔ x ∈ acc.1 ∨ ∃ d ∈ ds, ∃ ab, descSets d = .ok ab ∧ x ∈ ab.1) ∧
      (∀ x, x ∈ r.2 ↔ x ∈ acc.2 ∨ ∃ d ∈ ds, ∃ ab, descSets d = .ok ab ∧ x ∈ ab.2)) := by
  induction ds generalizing k acc with
  | nil => exact ⟨by simp, fun _ => ⟨acc, rfl, id, id, by simp, by simp⟩⟩
  | cons d ds ih =>
    have hs := addDesc_spec (ho.sub k) acc d
    cases hd : descSets d with
    | error p =>
      have hp := descSets_err hd
      subst hp
      refine ⟨fun _ => ?_, fun h => ?_⟩
      · simp only [populateLengths, bind, Except.bind, hs.1 _ hd]
      · obtain ⟨ab, hab⟩ := h d (by simp)
        rw [hd] at hab; cases hab
    | ok ab =>
      obtain ⟨r, hr, h1, h2⟩ := hs.2 _ _ hd
      have hi := ih (k + 1) r
      refine ⟨?_, ?_⟩
      · rintro ⟨d', hd', p, hp⟩
        simp only [populateLengths, bind, Except.bind, hr]
        refine hi.1 ⟨d', ?_, p, hp⟩
        rcases List.mem_cons.1 hd' with rfl | h
        · rw [hd] at hp; cases hp
        · exact h
      · intro h
        obtain ⟨r', hr', n1, n2, m1, m2⟩ := hi.2 (fun d' hd' => h d' (by simp [hd']))
        refine ⟨r', by simp only [populateLengths, bind, Except.bind, hr, hr'], fun ha => n1 (h1.1 ha), fun ha => n2 (h2.1 ha), ?_, ?_⟩
        · intro x
          rw [m1, h1.2]
          constructor
          · rintro ((h | h) | ⟨d', h3, h4⟩)
            · exact .inl h
            · exact .inr ⟨d, by simp, ab, hd, h⟩
            · exact .inr ⟨d', by simp [h3], h4⟩
          · rintro (h | ⟨d', h3, ab', h4, h5⟩)
            · exact .inl (.inl h)
            · rcases List.mem_cons.1 h3 with rfl | h3
              · rw [hd] at h4; cases h4; exact .inl (.inr h5)
              · exact .inr ⟨d', h3, ab', h4, h5⟩
        · intro x
          rw [m2, h2.2]
          constructor
          · rintro ((h | h) | ⟨d', h3, h4⟩)
            · exact .inl h
            · exact .inr ⟨d, by simp, ab, hd, h⟩
            · exact .inr ⟨d', by simp [h3], h4⟩
          · rintro (h | ⟨d', h3, ab', h4, h5⟩)
            · exact .inl (.inl h)
            · rcases List.mem_cons.1 h3 with rfl | h3
              · rw [hd] at h4; cases h4; exact .inl (.inr h5)
              · exact .inr ⟨d', h3, ab', h4, h5⟩

/-! ## Setting lengths -/

theorem bind_ok {α β : Type} {x : Go α} {f : α → Go β} {b : β} : (x >>= f) = .ok b ↔ ∃ a, x = .ok a ∧ f a = .ok b := by
  cases x with
  | error p => simp [bind, Except.bind]
  | ok a => simp [bind, Except.bind]

/-- A length of a child is covered by the parent. -/
def covered (parent : Option Desc) (l : Int) : Bool := match parent with | none => true | some p => decide (l ∈ p.lengths)

/-- A local-only length of a child is covered by the parent. -/
def coveredLocal (parent : Option Desc) (l : Int) : Bool :=
  match parent with | none => true | some p => decide (l ∈ p.lengths) || decide (l ∈ p.localLengths)

theorem checkLengths_eq (parent : Option Desc) (ls : List Int) :
    checkLengths parent ls = if ls.all (covered parent) then .ok ls else .error .explicit := by
  induction ls with
  | nil => rfl
  | cons l ls ih =>
    have hc : (match parent with | none => True | some p => decide (l ∈ p.lengths) = true) ↔ covered parent l = true := by
      cases parent <;> simp [covered]
    rw [checkLengths.eq_def]
    simp only [ih]
    cases parent with
    | none =>
      cases h2 : ls.all (covered none) <;> simp_all [covered, bind, Except.bind, pure, Except.pure]
    | some p =>
      by_cases h1 : l ∈ p.lengths <;> cases h2 : ls.all (covered (some p)) <;> simp_all [covered, bind, Except.bind, pure, Except.pure]

theorem checkLocal_eq (parent : Option Desc) (lengths ls : List Int) :
    checkLocal parent lengths ls =
      if (ls.filter (fun l => !decide (l ∈ lengths))).all (coveredLocal parent) then .ok (ls.filter (fun l => !decide (l ∈ lengths)))
      else .error .explicit := by
  induction ls with
  | nil => rfl
  | cons l ls ih =>
    rw [checkLocal.eq_def]
    simp only [ih]
    by_cases h0 : l ∈ lengths
    · simp [h0]
    · rw [if_neg h0]
      simp only [List.filter_cons, h0, decide_false, Bool.not_false, if_true, List.all_cons]
      cases parent with
      | none =>
        cases h2 : (ls.filter (fun l => !decide (l ∈ lengths))).all (coveredLocal none) <;>
          simp_all [coveredLocal, bind, Except.bind, pure, Except.pure]
      | some p =>
        cases h1 : (decide (l ∈ p.lengths) || decide (l ∈ p.localLengths)) <;>
          cases h2 : (ls.filter (fun l => !decide (l ∈ lengths))).all (coveredLocal (some p)) <;>
          simp only [coveredLocal, h1, h2, bind, Except.bind, pure, Except.pure, if_true, if_false, Bool.true_and, Bool.false_and,
            Bool.false_eq_true]

theorem all_perm {p : Int → Bool} {a b : List Int} (h : a.Perm b) : a.all p = b.all p := by
  rw [Bool.eq_iff_iff, List.all_eq_true, List.all_eq_true]
  exact ⟨fun h' x hx => h' x (h.mem_iff.2 hx), fun h' x hx => h' x (h.mem_iff.1 hx)⟩

theorem sortInts_perm (l : List Int) : (sortInts l).Perm l := List.mergeSort_perm l _

theorem mem_sortInts {l : List Int} {x : Int} : x ∈ sortInts l ↔ x ∈ l := (sortInts_perm l).mem_iff

theorem sortInts_sorted (l : List Int) : (sortInts l).Pairwise (· ≤ ·) := by
  have := List.pairwise_mergeSort (le := fun a b : Int => decide (a ≤ b)) (by simp; omega) (by simp; omega) l
  exact this.imp (by simp)

theorem sortInts_eq {a b : List Int} (h : a.Perm b) : sortInts a = sortInts b := by
  refine List.Perm.eq_of_pairwise (le := (· ≤ ·)) ?_ (sortInts_sorted a) (sortInts_sorted b) ((sortInts_perm a).trans (h.trans (sortInts_perm b).symm))
  intro x y _ _ h1 h2; omega

theorem sortInts_strict {l : List Int} (h : l.Nodup) : (sortInts l).Pairwise (· < ·) := by
  have hn : (sortInts l).Nodup := (sortInts_perm l).nodup_iff.2 h
  have := (sortInts_sorted l).and hn
  exact this.imp (by intro a b h; have := h.1; have := h.2; omega)

theorem increasing_of {l : List Int} (h : l.Pairwise (· < ·)) : increasing l = true := by
  induction l with
  | nil => rfl
  | cons a l ih =>
    cases l with
    | nil => rfl
    | cons b t =>
      rw [increasing, ih h.of_cons]
      have := (List.pairwise_cons.1 h).1 b (by simp)
      simp [this]

theorem sortInts_increasing {l : List Int} (h : l.Nodup) : increasing (sortInts l) = true := increasing_of (sortInts_strict h)

theorem sortInts_nil {l : List Int} : sortInts l = [] ↔ l = [] := by
  constructor
  · intro h
    have := (sortInts_perm l).length_eq
    rw [h] at this
    exact List.length_eq_zero_iff.1 this.symm
  · rintro rfl; simp [sortInts]

theorem lengthsEqual_perm {a b : List Int} (h : a.Perm b) (d : Desc) : lengthsEqual a d = lengthsEqual b d := by
  unfold lengthsEqual
  rw [h.length_eq]
  congr 2
  funext x
  simp [h.mem_iff]

theorem subset_of_length {d a : List Int} (hd : d.Nodup) (hs : ∀ x ∈ d, x ∈ a) (hl : a.length ≤ d.length) : ∀ x ∈ a, x ∈ d := by
  induction d generalizing a with
  | nil =>
    have : a = [] := List.length_eq_zero_iff.1 (by simpa using hl)
    simp [this]
  | cons y d ih =>
    obtain ⟨hy, hd'⟩ := List.nodup_cons.1 hd
    have hm : y ∈ a := hs y (by simp)
    have hp := List.perm_cons_erase hm
    intro x hx
    rcases List.mem_cons.1 (hp.mem_iff.1 hx) with rfl | hx
    · simp
    · refine List.mem_cons_of_mem _ (ih hd' (a := a.erase y) ?_ ?_ x hx)
      · intro z hz
        rcases List.mem_cons.1 (hp.mem_iff.1 (hs z (by simp [hz]))) with rfl | h
        · exact absurd hz hy
        · exact h
      · have := hp.length_eq
        simp only [List.length_cons] at this hl
        omega

theorem lengthsEqual_iff {a : List Int} {d : Desc} (ha : a.Nodup) (hd : d.lengths.Nodup) : lengthsEqual a d = true ↔ ∀ x, x ∈ a ↔ x ∈ d.lengths := by
  simp only [lengthsEqual, Bool.and_eq_true, decide_eq_true_eq, List.all_eq_true]
  constructor
  · rintro ⟨hl, hs⟩ x
    exact ⟨fun hx => subset_of_length hd hs (by omega) x hx, fun hx => hs x hx⟩
  · intro h
    exact ⟨((List.perm_ext_iff_of_nodup ha hd).2 h).length_eq, fun x hx => (h x).2 hx⟩

/-- The result of `setLengths`, without reference to the order. -/
theorem setLengths_eq {o : Order} (ho : o.Fair) (ls loc : List Int) (parent : Option Desc) (d : Desc) :
    setLengths o ls loc parent d =
      if (match parent with | none => true | some p => lengthsEqual ls p) || ls.all (covered parent) then
        if (loc.filter (fun l => !decide (l ∈ ls))).all (coveredLocal parent) then
          .ok { d with
            lengths := (match parent with | none => sortInts ls | some p => if lengthsEqual ls p then [] else sortInts ls),
            localLengths := sortInts (loc.filter (fun l => !decide (l ∈ ls))) }
        else .error .explicit
      else .error .explicit := by
  have h1 : ((o.sub 0) [] ls).all (covered parent) = ls.all (covered parent) := all_perm ((ho.sub 0) [] ls)
  have hp := ((ho.sub 1) [] loc).filter (fun l => !decide (l ∈ ls))
  have h2 := all_perm (p := coveredLocal parent) hp
  have h3 := sortInts_eq ((ho.sub 0) [] ls)
  have h4 := sortInts_eq hp
  unfold setLengths
  rw [checkLengths_eq, checkLocal_eq, h1, h2]
  cases parent with
  | none =>
    cases hb : (loc.filter (fun l => !decide (l ∈ ls))).all (coveredLocal none) <;>
      simp [covered, bind, Except.bind, pure, Except.pure, h3, h4]
  | some p =>
    cases he : lengthsEqual ls p <;> cases ha : ls.all (covered (some p)) <;>
      cases hb : (loc.filter (fun l => !decide (l ∈ ls))).all (coveredLocal (some p)) <;>
      simp [he, bind, Except.bind, pure, Except.pure, h3, h4, sortInts_nil.2]

theorem setLengths_order {o o' : Order} (ho : o.Fair) (ho' : o'.Fair) {ls ls' loc loc' : List Int} (h1 : ls.Perm ls') (h2 : loc.Perm loc')
    (parent : Option Desc) (d : Desc) : setLengths o ls loc parent d = setLengths o' ls' loc' parent d := by
  rw [setLengths_eq ho, setLengths_eq ho']
  have hf : (fun l => !decide (l ∈ ls)) = (fun l => !decide (l ∈ ls')) := by funext l; simp [h1.mem_iff]
  have hp := h2.filter (fun l => !decide (l ∈ ls'))
  rw [hf, all_perm h1, all_perm hp, sortInts_eq h1, sortInts_eq hp]
  cases parent with
  | none => rfl
  | some p => simp only [lengthsEqual_perm h1]

theorem populate_order {o o' : Order} (ho : o.Fair) (ho' : o'.Fair) (k k' : Nat) {acc acc' : List Int × List Int} (n1 : acc.1.Nodup) (n2 : acc.2.Nodup)
    (n1' : acc'.1.Nodup) (n2' : acc'.2.Nodup) (h1 : ∀ x, x ∈ acc.1 ↔ x ∈ acc'.1) (h2 : ∀ x, x ∈ acc.2 ↔ x ∈ acc'.2) (ds : List (Option DescE)) :
    (populateLengths o k acc ds = .error .explicit ∧ populateLengths o' k' acc' ds = .error .explicit) ∨
    ∃ r r', populateLengths o k acc ds = .ok r ∧ populateLengths o' k' acc' ds = .ok r' ∧ r.1.Perm r'.1 ∧ r.2.Perm r'.2 ∧
      r.1.Nodup ∧ r.2.Nodup ∧ r'.1.Nodup ∧ r'.2.Nodup := by
  have s := populate_spec ho k acc ds
  have s' := populate_spec ho' k' acc' ds
  by_cases hb : ∃ d ∈ ds, ∃ p, descSets d = .error p
  · exact .inl ⟨s.1 hb, s'.1 hb⟩
  · right
    have hg : ∀ d ∈ ds, ∃ ab, descSets d = .ok ab := by
      intro d hd
      cases h : descSets d with
      | error p => exact absurd ⟨d, hd, p, h⟩ hb
      | ok ab => exact ⟨ab, rfl⟩
    obtain ⟨r, hr, a1, a2, a3, a4⟩ := s.2 hg
    obtain ⟨r', hr', b1, b2, b3, b4⟩ := s'.2 hg
    refine ⟨r, r', hr, hr', ?_, ?_, a1 n1, a2 n2, b1 n1', b2 n2'⟩
    · exact (List.perm_ext_iff_of_nodup (a1 n1) (b1 n1')).2 (fun x => by rw [a3, b3, h1])
    · exact (List.perm_ext_iff_of_nodup (a2 n2) (b2 n2')).2 (fun x => by rw [a4, b4, h2])

/-! ## Independence of the order -/

theorem processDesc_order (compile : Str → Option Re) {o o' : Order} (ho : o.Fair) (ho' : o'.Fair) (parent : Option Desc) (e : Option DescE) :
    processDesc compile o parent e = processDesc compile o' parent e := by
  unfold processDesc
  cases e with
  | none => rfl
  | some el =>
    cases parent with
    | none => rfl
    | some p =>
      simp only [bind, Except.bind]
      rcases populate_order (ho.sub 0) (ho'.sub 0) 0 0 (acc := ([], [])) (acc' := ([], [])) (by simp) (by simp) (by simp) (by simp) (by simp) (by simp)
        [some el] with ⟨h1, h2⟩ | ⟨r, r', h1, h2, p1, p2, _⟩
      · rw [h1, h2]
      · rw [h1, h2]
        simp only [setLengths_order (ho.sub 1) (ho'.sub 1) p1 p2]

theorem setGeneral_order {o o' : Order} (ho : o.Fair) (ho' : o'.Fair) (t : TerritoryE) (short : Bool) (g : Desc) :
    setGeneralLengths o t short g = setGeneralLengths o' t short g := by
  unfold setGeneralLengths
  simp only [bind, Except.bind]
  rcases populate_order (ho.sub 0) (ho'.sub 0) 0 0 (acc := ([], [])) (acc' := ([], [])) (by simp) (by simp) (by simp) (by simp) (by simp) (by simp)
    [t.general] with ⟨h1, h2⟩ | ⟨r, r', h1, h2, p1, p2, n1, n2, n3, n4⟩
  · rw [h1, h2]
  · rw [h1, h2]
    simp only
    have e1 : r.1 = [] ↔ r'.1 = [] := ⟨fun h => by rw [h] at p1; exact p1.symm.eq_nil, fun h => by rw [h] at p1; exact p1.eq_nil⟩
    have e2 : r.2 = [] ↔ r'.2 = [] := ⟨fun h => by rw [h] at p2; exact p2.symm.eq_nil, fun h => by rw [h] at p2; exact p2.eq_nil⟩
    simp only [ne_eq, e1, e2]
    split
    · rfl
    · rcases populate_order (ho.sub 1) (ho'.sub 1) 0 0 n1 n2 n3 n4 (fun x => p1.mem_iff) (fun x => p2.mem_iff) (lengthSources t short) with
        ⟨h3, h4⟩ | ⟨q, q', h3, h4, p3, p4, _⟩
      · rw [h3, h4]
      · rw [h3, h4]
        have e3 : q.2 = [] ↔ q'.2 = [] := ⟨fun h => by rw [h] at p4; exact p4.symm.eq_nil, fun h => by rw [h] at p4; exact p4.eq_nil⟩
        simp only [e3, setLengths_order (ho.sub 2) (ho'.sub 2) p3 p4]

/-- The order in which a list is given. -/
def idOrder : Order := fun _ ks => ks

theorem idOrder_fair : idOrder.Fair := fun _ _ => .rfl

theorem setDescs_order (compile : Str → Option Re) {o : Order} (ho : o.Fair) (t : TerritoryE) (short : Bool) (m : Metadata) :
    setDescs compile o t short m = setDescs compile idOrder t short m := by
  unfold setDescs
  simp only [fun k g e => processDesc_order compile (ho.sub k) (idOrder_fair.sub k) g e, setGeneral_order (ho.sub 1) (idOrder_fair.sub 1)]

theorem loadCountry_order (compile : Str → Option Re) {o : Order} (ho : o.Fair) (t : TerritoryE) (short alternate : Bool) :
    loadCountry compile o t short alternate = loadCountry compile idOrder t short alternate := by
  unfold loadCountry
  simp only [setDescs_order compile ho]

theorem buildCollection_order (compile : Str → Option Re) {o : Order} (ho : o.Fair) (short alternate : Bool) (k : Nat) (ts : List TerritoryE) :
    buildCollection compile o short alternate k ts = buildCollection compile idOrder short alternate k ts := by
  induction ts generalizing k with
  | nil => rfl
  | cons t ts ih =>
    unfold buildCollection
    rw [loadCountry_order compile (ho.sub k), loadCountry_order compile (idOrder_fair.sub k), ih]

/-! ## What is built -/

theorem descSets_ok {d : Option DescE} {ab : List Int × List Int} (h : descSets d = .ok ab) :
    ab.1.Nodup ∧ ab.2.Nodup ∧ ∀ x ∈ ab.1, x ∉ ab.2 := by
  unfold descSets at h
  cases hd : d.bind (·.lengths) with
  | none => rw [hd] at h; cases h; simp
  | some e =>
    rw [hd] at h
    obtain ⟨mine, h1, h⟩ := bind_ok.1 h
    obtain ⟨loc, h2, h⟩ := bind_ok.1 h
    simp only [pure, Except.pure, Except.ok.injEq] at h
    subst h
    refine ⟨nodup_parseLengths h1, ?_⟩
    by_cases hl : e.localOnly = []
    · simp only [hl, ne_eq, not_true_eq_false, if_false, Except.ok.injEq] at h2
      subst h2; simp
    · simp only [ne_eq, hl, not_false_eq_true, if_true] at h2
      obtain ⟨ml, h3, h2⟩ := bind_ok.1 h2
      split at h2
      · cases h2
      · rename_i hi
        simp only [Except.ok.injEq] at h2
        subst h2
        refine ⟨nodup_parseLengths h3, fun x hx hx' => hi ?_⟩
        intro hn
        have := List.filter_eq_nil_iff.1 hn x hx
        simp [hx'] at this

theorem populate_one {o : Order} (ho : o.Fair) (k : Nat) (d : Option DescE) {r : List Int × List Int}
    (h : populateLengths o k ([], []) [d] = .ok r) : ∃ ab, descSets d = .ok ab ∧ r.1.Perm ab.1 ∧ r.2.Perm ab.2 := by
  have s := populate_spec ho k ([], []) [d]
  cases hd : descSets d with
  | error p => rw [s.1 ⟨d, by simp, p, hd⟩] at h; cases h
  | ok ab =>
    obtain ⟨r', hr, n1, n2, m1, m2⟩ := s.2 (by intro d' h'; rw [List.mem_singleton.1 h']; exact ⟨ab, hd⟩)
    rw [h] at hr; cases hr
    obtain ⟨k1, k2, _⟩ := descSets_ok hd
    refine ⟨ab, rfl, (List.perm_ext_iff_of_nodup (n1 (by simp)) k1).2 fun x => ?_, (List.perm_ext_iff_of_nodup (n2 (by simp)) k2).2 fun x => ?_⟩
    · rw [m1]
      constructor
      · rintro (h' | ⟨d', hm, ab', h1, h2⟩)
        · cases h'
        · rw [List.mem_singleton.1 hm, hd] at h1; cases h1; exact h2
      · exact fun hx => .inr ⟨d, by simp, ab, hd, hx⟩
    · rw [m2]
      constructor
      · rintro (h' | ⟨d', hm, ab', h1, h2⟩)
        · cases h'
        · rw [List.mem_singleton.1 hm, hd] at h1; cases h1; exact h2
      · exact fun hx => .inr ⟨d, by simp, ab, hd, hx⟩

theorem filter_disjoint {a b : List Int} (h : ∀ x ∈ a, x ∉ b) : b.filter (fun l => !decide (l ∈ a)) = b := by
  rw [List.filter_eq_self]
  intro x hx
  have : x ∉ a := fun h' => h x h' hx
  simp [this]

theorem processDesc_child {compile : Str → Option Re} {o : Order} (ho : o.Fair) {g d : Desc} {el : DescE}
    (h : processDesc compile o (some g) (some el) = .ok d) :
    ∃ ab, descSets (some el) = .ok ab ∧ (lengthsEqual ab.1 g = true ∨ ∀ x ∈ ab.1, x ∈ g.lengths) ∧
      (∀ x ∈ ab.2, x ∈ g.lengths ∨ x ∈ g.localLengths) ∧
      d.lengths = (if lengthsEqual ab.1 g then [] else sortInts ab.1) ∧ d.localLengths = sortInts ab.2 := by
  unfold processDesc at h
  obtain ⟨d1, h1, h⟩ := bind_ok.1 h
  obtain ⟨d2, h2, h⟩ := bind_ok.1 h
  obtain ⟨r, h3, h1⟩ := bind_ok.1 h1
  obtain ⟨ab, hab, p1, p2⟩ := populate_one (ho.sub 0) 0 _ h3
  obtain ⟨k1, k2, k3⟩ := descSets_ok hab
  dsimp only at h1
  rw [setLengths_order (ho.sub 1) idOrder_fair p1 p2, setLengths_eq idOrder_fair] at h1
  simp only [filter_disjoint k3] at h1
  split at h1
  · rename_i c1
    split at h1
    · rename_i c2
      simp only [Except.ok.injEq] at h1
      have hd : d.lengths = d1.lengths ∧ d.localLengths = d1.localLengths := by
        simp only [pure, Except.pure, Except.ok.injEq] at h
        subst h
        split at h2
        · obtain ⟨p, _, h2⟩ := bind_ok.1 h2
          simp only [pure, Except.pure, Except.ok.injEq] at h2
          subst h2; exact ⟨rfl, rfl⟩
        · simp only [Except.ok.injEq] at h2
          subst h2; exact ⟨rfl, rfl⟩
      refine ⟨ab, hab, ?_, ?_, ?_, ?_⟩
      · simp only [Bool.or_eq_true, List.all_eq_true, covered, decide_eq_true_eq] at c1
        exact c1
      · simp only [List.all_eq_true, coveredLocal, Bool.or_eq_true, decide_eq_true_eq] at c2
        exact c2
      · rw [hd.1, ← h1]
      · rw [hd.2, ← h1]
    · cases h1
  · cases h1

theorem processDesc_accepts {compile : Str → Option Re} (hc : ∀ s, (compile s).isSome = true) {o : Order} (ho : o.Fair) {g : Desc} {el : DescE}
    {ab : List Int × List Int} (hab : descSets (some el) = .ok ab) (h1 : ∀ x ∈ ab.1, x ∈ g.lengths)
    (h2 : ∀ x ∈ ab.2, x ∈ g.lengths ∨ x ∈ g.localLengths) : ∃ d, processDesc compile o (some g) (some el) = .ok d := by
  have s := (populate_spec (ho.sub 0) 0 ([], []) [some el]).2 (by intro d' h'; rw [List.mem_singleton.1 h']; exact ⟨ab, hab⟩)
  obtain ⟨r, hr, _⟩ := s
  obtain ⟨ab', hab', p1, p2⟩ := populate_one (ho.sub 0) 0 _ hr
  rw [hab] at hab'; cases hab'
  obtain ⟨k1, k2, k3⟩ := descSets_ok hab
  have hs := setLengths_order (ho.sub 1) idOrder_fair p1 p2 (some g) {}
  rw [setLengths_eq idOrder_fair] at hs
  simp only [filter_disjoint k3] at hs
  rw [if_pos (by simp only [Bool.or_eq_true, List.all_eq_true, covered, decide_eq_true_eq]; exact .inr h1),
    if_pos (by simp only [List.all_eq_true, coveredLocal, Bool.or_eq_true, decide_eq_true_eq]; exact h2)] at hs
  unfold processDesc
  simp only [bind, Except.bind, hr, hs]
  by_cases hp : el.pattern = []
  · simp only [hp, ne_eq, not_true_eq_false, if_false]
    exact ⟨_, rfl⟩
  · simp only [ne_eq, hp, not_false_eq_true, if_true]
    have hv : ∃ p, validateRE compile el.pattern true = .ok p := by
      unfold validateRE
      obtain ⟨re, hre⟩ := Option.isSome_iff_exists.1 (hc (el.pattern.filter (fun u => !isSpaceRe u)))
      simp only [if_true, hre]
      exact ⟨_, rfl⟩
    obtain ⟨p, hp⟩ := hv
    rw [hp]
    exact ⟨_, rfl⟩

/-- The sets of a well-written element are what is written. -/
theorem written_sets {d : Option DescE} (hw : WellWritten d) :
    (∀ ab, descSets d = .ok ab → (∀ x, x ∈ ab.1 ↔ National d x) ∧ (∀ x, x ∈ ab.2 ↔ LocalOnly d x)) ∧
    ((∃ ab, descSets d = .ok ab) ↔ ∀ x, National d x → ¬ LocalOnly d x) := by
  have hnone : (∀ el e, d = some el → ¬ el.lengths = some e) → (∀ x, ¬ National d x) ∧ (∀ x, ¬ LocalOnly d x) := by
    intro h
    constructor
    · rintro x ⟨el, e, nat, loc, h1, h2, _⟩; exact h el e h1 h2
    · rintro x ⟨el, e, nat, loc, h1, h2, _⟩; exact h el e h1 h2
  cases hb : d.bind (·.lengths) with
  | none =>
    have hn := hnone (by
      rintro el e rfl h2
      simp [h2] at hb)
    have hs : descSets d = .ok ([], []) := by unfold descSets; rw [hb]
    refine ⟨fun ab h => ?_, ⟨fun _ x hx => absurd hx (hn.1 x), fun _ => ⟨_, hs⟩⟩⟩
    rw [hs] at h; cases h
    exact ⟨fun x => by simp [hn.1 x], fun x => by simp [hn.2 x]⟩
  | some e =>
    obtain ⟨el, rfl, he⟩ := Option.bind_eq_some_iff.1 hb
    -- the texts determine the sets
    have key : ∀ nat loc, Written e nat loc → (∃ r, parseLengths e.national = .ok r ∧ ∀ x, x ∈ r ↔ ∃ i ∈ nat, i.Covers x) ∧
        (loc ≠ [] → ∃ r, parseLengths e.localOnly = .ok r ∧ ∀ x, x ∈ r ↔ ∃ i ∈ loc, i.Covers x) ∧ (e.localOnly = [] ↔ loc = []) := by
      rintro nat loc ⟨w1, w2, w3, w4⟩
      refine ⟨?_, fun h => ?_, ?_⟩
      · rw [w3]; exact parseLengths_text w1 (fun i hi => w2 i (by simp [hi]))
      · rw [w4]; exact parseLengths_text h (fun i hi => w2 i (by simp [hi]))
      · rw [w4]
        constructor
        · intro h
          cases loc with
          | nil => rfl
          | cons i is => exact absurd h (lenText_ne_nil (by simp))
        · rintro rfl; rfl
    obtain ⟨nat, loc, hwr⟩ := hw el e rfl he
    obtain ⟨⟨r1, hr1, m1⟩, k2, k3⟩ := key nat loc hwr
    have hN : ∀ x, National (some el) x ↔ x ∈ r1 := by
      intro x
      constructor
      · rintro ⟨el', e', nat', loc', h1, h2, h3, h4⟩
        cases h1; rw [he] at h2; cases h2
        obtain ⟨⟨r, hr, m⟩, _⟩ := key nat' loc' h3
        rw [hr1] at hr; cases hr
        exact (m x).2 h4
      · intro hx
        exact ⟨el, e, nat, loc, rfl, he, hwr, (m1 x).1 hx⟩
    by_cases hl : loc = []
    · have hL : ∀ x, ¬ LocalOnly (some el) x := by
        rintro x ⟨el', e', nat', loc', h1, h2, h3, h4⟩
        cases h1; rw [he] at h2; cases h2
        obtain ⟨_, _, k⟩ := key nat' loc' h3
        obtain ⟨i, hi, _⟩ := h4
        rw [k.1 (k3.2 hl)] at hi
        cases hi
      have hs : descSets (some el) = .ok (r1, []) := by
        unfold descSets
        simp only [hb, bind, Except.bind, hr1, k3.2 hl, ne_eq, not_true_eq_false, if_false, pure, Except.pure]
      refine ⟨fun ab h => ?_, ⟨fun _ x _ => hL x, fun _ => ⟨_, hs⟩⟩⟩
      rw [hs] at h; cases h
      exact ⟨fun x => (hN x).symm, fun x => by simp [hL x]⟩
    · obtain ⟨r2, hr2, m2⟩ := k2 hl
      have hL : ∀ x, LocalOnly (some el) x ↔ x ∈ r2 := by
        intro x
        constructor
        · rintro ⟨el', e', nat', loc', h1, h2, h3, h4⟩
          cases h1; rw [he] at h2; cases h2
          obtain ⟨_, k, k'⟩ := key nat' loc' h3
          obtain ⟨r, hr, m⟩ := k (fun h => hl (k3.1 (k'.2 h)))
          rw [hr2] at hr; cases hr
          exact (m x).2 h4
        · intro hx
          exact ⟨el, e, nat, loc, rfl, he, hwr, (m2 x).1 hx⟩
      have hne : e.localOnly ≠ [] := fun h => hl (k3.1 h)
      have hs : descSets (some el) = if r1.filter (· ∈ r2) ≠ [] then .error .explicit else .ok (r1, r2) := by
        unfold descSets
        simp only [hb, bind, Except.bind, hr1, hne, hr2, ne_eq, not_false_eq_true, if_true, pure, Except.pure]
        by_cases hi : r1.filter (· ∈ r2) = [] <;> simp [hi]
      refine ⟨fun ab h => ?_, ?_⟩
      · rw [hs] at h
        split at h
        · cases h
        · cases h
          exact ⟨fun x => (hN x).symm, fun x => (hL x).symm⟩
      · constructor
        · rintro ⟨ab, h⟩ x hx hx'
          rw [hs] at h
          split at h
          · cases h
          · rename_i hi
            have := List.filter_eq_nil_iff.1 (Classical.not_not.1 hi) x ((hN x).1 hx)
            simp [(hL x).1 hx'] at this
        · intro h
          rw [hs, if_neg]
          · exact ⟨_, rfl⟩
          · intro hi
            apply hi
            rw [List.filter_eq_nil_iff]
            intro x hx
            have := h x ((hN x).2 hx)
            rw [hL] at this
            simp [this]

theorem parseLengths_ne_nil {s : Str} {r : List Int} (h : parseLengths s = .ok r) : r ≠ [] := by
  unfold parseLengths at h
  split at h
  · cases h
  · have key : ∀ (is : List Str) (s r : List Int), addLengthItems s is = .ok r → (s ≠ [] ∨ is ≠ []) → r ≠ [] := by
      intro is
      induction is with
      | nil => intro s r h hs; rw [addLengthItems] at h; cases h; simpa using hs
      | cons i is ih =>
        intro s r h _
        rw [addLengthItems] at h
        obtain ⟨s', h1, h⟩ := bind_ok.1 h
        refine ih s' r h (.inl ?_)
        unfold addLengthItem at h1
        split at h1
        · cases h1
        · split at h1
          · cases h1
          · split at h1
            · dsimp only at h1
              split at h1
              · cases h1
              · rename_i a b _ hlt
                cases h1
                apply List.ne_nil_of_mem (a := wrap32 (atoiLax a + (0 : Nat)))
                rw [mem_addKeys]
                right
                simp only [rangeKeys, List.mem_map, List.mem_range]
                exact ⟨0, by omega, rfl⟩
            · cases h1
        · cases h1
          exact List.ne_nil_of_mem (mem_addKey.2 (.inr rfl))
    refine key _ _ _ h (.inr ?_)
    cases s with
    | nil => exact absurd rfl ‹_›
    | cons u s =>
      unfold splitCh
      split
      · simp
      · split <;> simp

theorem descSets_nil {d : Option DescE} {ab : List Int × List Int} (h : descSets d = .ok ab) (h0 : ab.1 = []) : d.bind (·.lengths) = none := by
  unfold descSets at h
  cases hd : d.bind (·.lengths) with
  | none => rfl
  | some e =>
    rw [hd] at h
    obtain ⟨mine, h1, h⟩ := bind_ok.1 h
    obtain ⟨loc, h2, h⟩ := bind_ok.1 h
    simp only [pure, Except.pure, Except.ok.injEq] at h
    subst h
    exact absurd h0 (parseLengths_ne_nil h1)

theorem descSets_none {d : Option DescE} (h : d.bind (·.lengths) = none) : descSets d = .ok ([], []) := by
  unfold descSets; rw [h]

/-- The general description: the lengths of its sources. -/
theorem setGeneral_ok {o : Order} (ho : o.Fair) {t : TerritoryE} {short : Bool} {g0 g : Desc} (h : setGeneralLengths o t short g0 = .ok g) :
    t.general.bind (·.lengths) = none ∧ (∀ d ∈ lengthSources t short, ∃ ab, descSets d = .ok ab) ∧
    ∃ ls loc : List Int, ls.Nodup ∧ loc.Nodup ∧ (∀ x, x ∈ ls ↔ ∃ d ∈ lengthSources t short, ∃ ab, descSets d = .ok ab ∧ x ∈ ab.1) ∧
      (∀ x, x ∈ loc ↔ ∃ d ∈ lengthSources t short, ∃ ab, descSets d = .ok ab ∧ x ∈ ab.2) ∧ (short = true → loc = []) ∧
      g = { g0 with lengths := sortInts ls, localLengths := sortInts (loc.filter (fun l => !decide (l ∈ ls))) } := by
  unfold setGeneralLengths at h
  obtain ⟨acc, h1, h⟩ := bind_ok.1 h
  obtain ⟨ab0, hab, p1, p2⟩ := populate_one (ho.sub 0) 0 _ h1
  split at h
  · cases h
  · rename_i hn
    simp only [ne_eq, not_or, Classical.not_not] at hn
    have hacc : acc = ([], []) := Prod.ext hn.1 hn.2
    subst hacc
    have hg := descSets_nil hab (p1.symm.eq_nil)
    obtain ⟨r, h2, h⟩ := bind_ok.1 h
    have s := populate_spec (ho.sub 1) 0 ([], []) (lengthSources t short)
    have hall : ∀ d ∈ lengthSources t short, ∃ ab, descSets d = .ok ab := by
      intro d hd
      cases hds : descSets d with
      | error p => rw [s.1 ⟨d, hd, p, hds⟩] at h2; cases h2
      | ok ab => exact ⟨ab, rfl⟩
    obtain ⟨r', hr, n1, n2, m1, m2⟩ := s.2 hall
    rw [h2] at hr; cases hr
    refine ⟨hg, hall, r.1, r.2, n1 (by simp), n2 (by simp), fun x => by rw [m1]; simp, fun x => by rw [m2]; simp, ?_⟩
    dsimp only at h
    split at h
    · cases h
    · rename_i hs
      refine ⟨fun hsh => ?_, ?_⟩
      · rw [hsh] at hs
        simpa using hs
      · rw [setLengths_eq (ho.sub 2)] at h
        rw [if_pos (by simp), if_pos (by simp [coveredLocal])] at h
        exact (Except.ok.inj h).symm

theorem setGeneral_accepts {o : Order} (ho : o.Fair) {t : TerritoryE} {short : Bool} {g0 : Desc} (hg : t.general.bind (·.lengths) = none)
    (hd : ∀ d ∈ lengthSources t short, ∃ ab, descSets d = .ok ab)
    (hs : short = true → ∀ ab, descSets t.shortCode = .ok ab → ab.2 = []) : ∃ g, setGeneralLengths o t short g0 = .ok g := by
  unfold setGeneralLengths
  obtain ⟨r0, hr0, _⟩ := (populate_spec (ho.sub 0) 0 ([], []) [t.general]).2 (by simp [descSets_none hg])
  obtain ⟨ab, hab, p1, p2⟩ := populate_one (ho.sub 0) 0 _ hr0
  rw [descSets_none hg] at hab; cases hab
  have : r0 = ([], []) := Prod.ext p1.eq_nil p2.eq_nil
  subst this
  obtain ⟨r, hr, _, _, _, m2⟩ := (populate_spec (ho.sub 1) 0 ([], []) (lengthSources t short)).2 hd
  simp only [bind, Except.bind, hr0, ne_eq, not_true_eq_false, or_self, if_false, hr]
  rw [if_neg]
  · rw [setLengths_eq (ho.sub 2), if_pos (by simp), if_pos (by simp [coveredLocal])]
    exact ⟨_, rfl⟩
  · rintro ⟨h1, h2⟩
    apply h2
    rw [List.eq_nil_iff_forall_not_mem]
    intro x hx
    rw [m2] at hx
    rcases hx with hx | ⟨d, hd', ab, hab, hx⟩
    · cases hx
    · rw [h1] at hd'
      simp only [lengthSources, if_true, List.mem_singleton] at hd'
      subst hd'
      rw [hs h1 ab hab] at hx
      cases hx

/-- The children elements that get a description. -/
def childElems (short : Bool) (t : TerritoryE) : List (Option DescE) :=
  if short then [t.standardRate, t.shortCode, t.carrierSpecific, t.emergency, t.tollFree, t.premium, t.smsServices]
  else [t.fixedLine, t.mobile, t.sharedCost, t.voip, t.personal, t.pager, t.uan, t.voicemail, t.noInternational, t.tollFree, t.premium]

theorem setDescs_ok {compile : Str → Option Re} {t : TerritoryE} {short : Bool} {m0 m : Metadata}
    (h : setDescs compile idOrder t short m0 = .ok m) :
    ∃ g0 g, processDesc compile idOrder none t.general = .ok g0 ∧ setGeneralLengths idOrder t short g0 = .ok g ∧ m.general = some g ∧
      ∀ ed ∈ descPairs short t m, ∃ d, ed.2 = some d ∧ processDesc compile idOrder (some g) ed.1 = .ok d := by
  unfold setDescs at h
  obtain ⟨g0, h0, h⟩ := bind_ok.1 h
  obtain ⟨g, h1, h⟩ := bind_ok.1 h
  refine ⟨g0, g, h0, h1, ?_⟩
  have e : ∀ k, idOrder.sub k = idOrder := fun k => rfl
  simp only [e] at h
  cases short with
  | false =>
    simp only [Bool.not_false, if_true] at h
    obtain ⟨d1, k1, h⟩ := bind_ok.1 h
    obtain ⟨d2, k2, h⟩ := bind_ok.1 h
    obtain ⟨d3, k3, h⟩ := bind_ok.1 h
    obtain ⟨d4, k4, h⟩ := bind_ok.1 h
    obtain ⟨d5, k5, h⟩ := bind_ok.1 h
    obtain ⟨d6, k6, h⟩ := bind_ok.1 h
    obtain ⟨d7, k7, h⟩ := bind_ok.1 h
    obtain ⟨d8, k8, h⟩ := bind_ok.1 h
    obtain ⟨d9, k9, h⟩ := bind_ok.1 h
    obtain ⟨d10, k10, h⟩ := bind_ok.1 h
    obtain ⟨d11, k11, h⟩ := bind_ok.1 h
    simp only [pure, Except.pure, Except.ok.injEq] at h
    subst h
    refine ⟨rfl, ?_⟩
    simp only [descPairs, Bool.false_eq_true, if_false, List.forall_mem_cons, Option.some.injEq, exists_eq_left', List.not_mem_nil,
      false_implies, implies_true, and_true]
    exact ⟨k1, k2, k3, k4, k5, k6, k7, k8, k9, k10, k11⟩
  | true =>
    simp only [Bool.not_true, Bool.false_eq_true, if_false] at h
    obtain ⟨d1, k1, h⟩ := bind_ok.1 h
    obtain ⟨d2, k2, h⟩ := bind_ok.1 h
    obtain ⟨d3, k3, h⟩ := bind_ok.1 h
    obtain ⟨d4, k4, h⟩ := bind_ok.1 h
    obtain ⟨d5, k5, h⟩ := bind_ok.1 h
    obtain ⟨d6, k6, h⟩ := bind_ok.1 h
    obtain ⟨d7, k7, h⟩ := bind_ok.1 h
    simp only [pure, Except.pure, Except.ok.injEq] at h
    subst h
    refine ⟨rfl, ?_⟩
    simp only [descPairs, if_true, List.forall_mem_cons, Option.some.injEq, exists_eq_left', List.not_mem_nil,
      false_implies, implies_true, and_true]
    exact ⟨k1, k2, k3, k4, k5, k6, k7⟩

theorem setDescs_accepts {compile : Str → Option Re} {t : TerritoryE} {short : Bool} {m0 : Metadata} {g0 g : Desc}
    (h0 : processDesc compile idOrder none t.general = .ok g0) (h1 : setGeneralLengths idOrder t short g0 = .ok g)
    (h : ∀ e ∈ childElems short t, ∃ d, processDesc compile idOrder (some g) e = .ok d) : ∃ m, setDescs compile idOrder t short m0 = .ok m := by
  have e : ∀ k, idOrder.sub k = idOrder := fun k => rfl
  unfold setDescs
  simp only [e, bind, Except.bind, h0, h1]
  cases short with
  | false =>
    simp only [childElems, Bool.false_eq_true, if_false, List.forall_mem_cons, List.not_mem_nil, false_implies, implies_true, and_true] at h
    obtain ⟨⟨d1, k1⟩, ⟨d2, k2⟩, ⟨d3, k3⟩, ⟨d4, k4⟩, ⟨d5, k5⟩, ⟨d6, k6⟩, ⟨d7, k7⟩, ⟨d8, k8⟩, ⟨d9, k9⟩, ⟨d10, k10⟩, ⟨d11, k11⟩⟩ := h
    simp only [Bool.not_false, if_true, k1, k2, k3, k4, k5, k6, k7, k8, k9, k10, k11]
    exact ⟨_, rfl⟩
  | true =>
    simp only [childElems, if_true, List.forall_mem_cons, List.not_mem_nil, false_implies, implies_true, and_true] at h
    obtain ⟨⟨d1, k1⟩, ⟨d2, k2⟩, ⟨d3, k3⟩, ⟨d4, k4⟩, ⟨d5, k5⟩, ⟨d6, k6⟩, ⟨d7, k7⟩⟩ := h
    simp only [Bool.not_true, Bool.false_eq_true, if_false, k1, k2, k3, k4, k5, k6, k7]
    exact ⟨_, rfl⟩

end Verif.Builder
