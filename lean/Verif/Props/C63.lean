import Verif.Lemmas.Matcher
import Verif.Lemmas.Context
import Verif.Regex.Acc
import Verif.Props.C41
import Verif.Data.Shipped
import Verif.Data.Alt
/-!
# C63: what is next to a match and the brackets in it
-/
namespace Verif.Props
open Verif.Spec

theorem rune_of_lt {u : Nat} (h : u < badBase) : rune u = u := by unfold rune; rw [if_pos h]

theorem rune_of_le {u : Nat} (h : ¬ u < badBase) : rune u = 0xFFFD := by unfold rune; rw [if_neg h]

theorem sticky_iff (u : Nat) : (isInvalidPunctuation (rune u) || isLatinLetter (rune u)) = true ↔ Sticky u := by
  by_cases h : u < badBase
  · rw [rune_of_lt h]
    unfold Sticky isInvalidPunctuation isLatinLetter
    simp only [h, true_and, Bool.or_eq_true, beq_iff_eq, or_assoc]
    refine or_congr_right (or_congr_right ?_)
    split
    · rename_i hn
      simp only [Bool.and_eq_true, Bool.not_eq_true'] at hn
      simp [hn.1, hn.2]
    · rename_i hn
      simp only [Bool.and_eq_true, Bool.not_eq_true', not_and, Bool.not_eq_false] at hn
      have : inRanges lTable u = true ∨ inRanges mnTable u = true := by
        cases hl : inRanges lTable u with
        | true => exact .inl rfl
        | false => exact .inr (hn hl)
      simp only [this, true_and, Bool.or_eq_true, Bool.and_eq_true, decide_eq_true_eq]
  · rw [rune_of_le h]
    have e : (isInvalidPunctuation 0xFFFD || isLatinLetter 0xFFFD) = false := by decide +kernel
    rw [e]
    simp [Sticky, h]

theorem prefix_blen {x y : Str} {a b : Str} (h : a ++ x = b ++ y) (hl : blen a = blen b) : a = b ∧ x = y := by
  induction a generalizing b with
  | nil =>
    cases b with
    | nil => exact ⟨rfl, h⟩
    | cons v b =>
      have := blen_pos (a := v :: b) (by simp)
      simp [blen] at hl this
      omega
  | cons u a ih =>
    cases b with
    | nil =>
      have := blen_pos (a := u :: a) (by simp)
      simp [blen] at hl this
      omega
    | cons v b =>
      simp only [List.cons_append, List.cons.injEq] at h
      obtain ⟨rfl, h⟩ := h
      simp only [blen, List.map_cons, List.sum_cons] at hl
      obtain ⟨rfl, rfl⟩ := ih h (by unfold blen; omega)
      exact ⟨rfl, rfl⟩

theorem cls_mem_list (l : List Nat) (hl : 0xFFFD ∉ l) (u : Nat) :
    (⟨false, l.map fun c => (c, c), []⟩ : Cls).mem u = true ↔ u < badBase ∧ u ∈ l := by
  simp only [Cls.mem, Cls.has, inRanges_self, List.any_nil, Bool.or_false]
  by_cases h : u < badBase
  · simp [rune_of_lt h, h]
  · simp [rune_of_le h, h, hl]

theorem lead_find {s : Str} (h : (leadClassPattern.find s).isNone = false) : ∃ u t, s = u :: t ∧ (u ∈ openings ∨ u = 43 ∨ u = 0xFF0B) := by
  have h : leadClassPattern.isMatch s = true := by
    unfold Re.isMatch
    cases hf : leadClassPattern.find s with
    | none => rw [hf] at h; cases h
    | some x => rfl
  obtain ⟨a, w, e, hs, ha⟩ := (isMatch_iff _ _).1 h
  obtain ⟨w1, w2, rfl, ⟨h0, rfl⟩, u, rfl, hu⟩ := ha
  have : a = [] := List.length_eq_zero_iff.1 h0
  subst this
  refine ⟨u, e, by simpa using hs, ?_⟩
  have := ((cls_mem_list [40, 91, 65288, 65339, 43, 65291] (by decide) u).1 hu).2
  simp only [List.mem_cons, List.not_mem_nil, or_false] at this
  simp only [openings, List.mem_cons, List.not_mem_nil, or_false]
  omega

/-- At leniency VALID or stricter a match never stops in the middle of a word: the character after it is not a Latin letter, a
currency sign or a percent sign, and the character before it is neither, unless the match begins with an opening bracket or a plus
sign. -/
theorem C63_neighbours (F : Finder) (maxTries : Int) (ms : List FoundNumber) (c : Cursor)
    (h : F.findNumbers maxTries = .ok (ms, c)) (hl : F.leniency ≠ .possible) (m : FoundNumber) (hm : m ∈ ms) (u : Nat)
    (hu : Sticky u) :
    ¬ CharAfter F.text (m.stop F.text) u ∧
      (CharBefore F.text (m.start F.text) u → ∃ v t, m.raw = v :: t ∧ (v ∈ openings ∨ v = 43 ∨ v = 0xFF0B)) := by
  have hf := (Finder.iterate_spec h).1 m hm
  obtain ⟨y, hy⟩ := take_drop_prefix hf.text
  obtain ⟨_, _, _, _, hn, _⟩ := Finder.parseAndVerify_some hf.verified
  have hn := hn hl
  have hb : (isInvalidPunctuation (rune u) || isLatinLetter (rune u)) = true := (sticky_iff u).2 hu
  have hlen : m.at_ ≤ F.text.length := by have := hf.bound; omega
  unfold Finder.neighboursOk at hn
  dsimp only at hn
  constructor
  · rintro ⟨x, z, hx, hbx⟩
    obtain ⟨rfl, rfl⟩ := prefix_blen (a := x) (x := u :: z) (b := F.text.take m.at_ ++ m.raw) (y := y) (by rw [← hx, ← hy])
      (by rw [hbx, blen_append]; rfl)
    split at hn
    · cases hn
    · have e : F.text.drop (m.at_ + m.raw.length) = u :: z := by
        have : (F.text.take m.at_ ++ m.raw).length = m.at_ + m.raw.length := by simp; omega
        exact (congrArg (List.drop _) hy).trans (List.drop_left' this)
      rw [e] at hn
      simp [hb] at hn
  · rintro ⟨x, z, hx, hbx⟩
    obtain ⟨he, rfl⟩ := prefix_blen (a := x ++ [u]) (x := z) (b := F.text.take m.at_) (y := m.raw ++ y) (by
      rw [List.append_assoc, List.singleton_append, ← hx, ← List.append_assoc, ← hy]) (by rw [hbx]; rfl)
    split at hn
    · cases hn
    · rename_i hc
      cases hL : (leadClassPattern.find m.raw).isNone with
      | false => exact lead_find hL
      | true =>
        refine absurd ⟨?_, hL, ?_⟩ hc
        · have := congrArg List.length he
          simp only [List.length_append, List.length_cons, List.length_nil, List.length_take] at this
          omega
        · rw [← he]
          simpa using hb

/-! ## Brackets -/

theorem brackets_append (a b : Str) : brackets (a ++ b) = brackets a ++ brackets b := List.filterMap_append

theorem brackets_none {s : Str} (h : ∀ u ∈ s, u ∉ openings ∧ u ∉ closings) : brackets s = [] := by
  unfold brackets
  rw [List.filterMap_eq_nil_iff]
  intro u hu
  rw [if_neg (h u hu).1, if_neg (h u hu).2]

theorem brackets_open {u : Nat} (h : u ∈ openings) : brackets [u] = [true] := by simp [brackets, h]

theorem brackets_close {u : Nat} (h : u ∈ closings) : brackets [u] = [false] := by
  have : u ∉ openings := by revert h; simp only [openings, closings, List.mem_cons, List.not_mem_nil, or_false]; omega
  simp [brackets, h, this]

theorem nonParens_mem {u : Nat} (h : (⟨true, (openings ++ closings).map fun c => (c, c), []⟩ : Cls).mem u = true) :
    u ∉ openings ∧ u ∉ closings := by
  simp only [Cls.mem, Cls.has, inRanges_self, List.any_nil, Bool.or_false] at h
  by_cases hb : u < badBase
  · rw [rune_of_lt hb] at h
    simpa using h
  · have : ∀ v ∈ openings ++ closings, v < badBase := by decide
    constructor <;> intro hm <;> exact hb (this u (by simp [hm]))

theorem bracketPairs_of_iter {r : Re} (hr : ∀ p w e, r.Acc p w e → brackets w = [true, false]) (k p : Nat) (w e : Str)
    (h : iterP r.Acc k p w e) : brackets w = bracketPairs k := by
  induction k generalizing p w with
  | zero => rw [show w = [] from h]; rfl
  | succ k ih =>
    obtain ⟨w1, w2, rfl, h1, h2⟩ := h
    rw [brackets_append, hr _ _ _ h1, ih _ _ h2]
    rfl

/-- The brackets of a match are in order at every leniency: after an opening bracket, a closing one, or a closed pair, at its
beginning, which may each be there or not, come at most three pairs. -/
theorem C63_brackets (F : Finder) (maxTries : Int) (ms : List FoundNumber) (c : Cursor)
    (h : F.findNumbers maxTries = .ok (ms, c)) (m : FoundNumber) (hm : m ∈ ms) :
    ∃ b k, brackets m.raw = b ++ bracketPairs k ∧ b ∈ [[], [true], [false], [true, false]] ∧ k ≤ 3 := by
  have hf := (Finder.iterate_spec h).1 m hm
  obtain ⟨_, _, hb, _⟩ := Finder.parseAndVerify_some hf.verified
  obtain ⟨a, w, e, hs, ha⟩ := (isMatch_iff _ _).1 hb
  obtain ⟨w0, w', rfl, ⟨h0, rfl⟩, w1, w', rfl, h1, w2, w', rfl, h2, w3, w', rfl, h3, w4, w', rfl, ⟨k, _, hk, h4⟩, w5, w6, rfl, h5, rfl, rfl⟩ := ha
  have : a = [] := List.length_eq_zero_iff.1 h0
  subst this
  simp only [List.nil_append, List.append_nil] at hs
  rw [hs]
  have hN : ∀ {w : Str} {mn : Nat} {mx : Option Nat} {p : Nat} {e : Str},
      (Re.rep (.cls ⟨true, (openings ++ closings).map fun c => (c, c), []⟩) mn mx true).Acc p w e → brackets w = [] :=
    fun h => brackets_none fun u hu => nonParens_mem ((acc_rep_cls.1 h).1 u hu)
  have hO : ∀ {w : Str} {p : Nat} {e : Str}, (Re.cls ⟨false, openings.map fun c => (c, c), []⟩).Acc p w e → brackets w = [true] := by
    rintro w p e ⟨u, rfl, hu⟩
    exact brackets_open ((cls_mem_list _ (by decide) u).1 hu).2
  have hC : ∀ {w : Str} {p : Nat} {e : Str}, (Re.cls ⟨false, closings.map fun c => (c, c), []⟩).Acc p w e → brackets w = [false] := by
    rintro w p e ⟨u, rfl, hu⟩
    exact brackets_close ((cls_mem_list _ (by decide) u).1 hu).2
  have e1 : brackets w1 = [] ∨ brackets w1 = [true] := by
    rcases acc_opt.1 h1 with rfl | h1
    · exact .inl rfl
    · exact .inr (hO h1)
  have e2 : brackets w2 = [] ∨ brackets w2 = [false] := by
    rcases acc_opt.1 h2 with rfl | ⟨x, y, rfl, hx, hy⟩
    · exact .inl rfl
    · right
      rw [brackets_append, hN hx, hC hy]
      rfl
  have e3 : brackets w3 = [] := hN h3
  have e5 : brackets w5 = [] := hN h5
  have e4 : brackets w4 = bracketPairs k := by
    refine bracketPairs_of_iter ?_ k _ w4 _ h4
    rintro p w e ⟨x, y', rfl, hx, y, z, rfl, hy, hz⟩
    rw [brackets_append, brackets_append, hO hx, hN hy, hC hz]
    rfl
  refine ⟨brackets w1 ++ brackets w2, k, ?_, ?_, by simpa using hk 3 rfl⟩
  · simp only [brackets_append, e3, e4, e5, List.nil_append, List.append_nil, List.append_assoc]
  · rcases e1 with e1 | e1 <;> rcases e2 with e2 | e2 <;> rw [e1, e2] <;> decide

/-- A match is never a reference to pages like "0123-45 (678": it has no digit, hyphens, one to five digits, at most four blanks, an
opening parenthesis and a digit in a row. -/
theorem C63_pages (F : Finder) (maxTries : Int) (ms : List FoundNumber) (c : Cursor)
    (h : F.findNumbers maxTries = .ok (ms, c)) (m : FoundNumber) (hm : m ∈ ms) (a ds bl b : Str) (d d' n : Nat)
    (hd : isDig d = true) (hd' : isDig d' = true) (hds : ∀ u ∈ ds, isDig u = true) (hn : 0 < n) (hl : 1 ≤ ds.length ∧ ds.length ≤ 5)
    (hbl : (∀ u ∈ bl, u = 32 ∨ u = 9 ∨ u = 10 ∨ u = 12 ∨ u = 13) ∧ bl.length ≤ 4) :
    m.raw ≠ a ++ d :: (List.replicate n 45 ++ (ds ++ (bl ++ 40 :: d' :: b))) := by
  intro hr
  have hf := (Finder.iterate_spec h).1 m hm
  obtain ⟨_, _, _, hb, _⟩ := Finder.parseAndVerify_some hf.verified
  have hdig : ∀ u, isDig u = true → (⟨false, [(48, 57)], []⟩ : Cls).mem u = true := by
    intro u hu
    have hu' : 48 ≤ u ∧ u ≤ 57 := by simpa [isDig] using hu
    have : rune u = u := rune_of_lt (by simp [badBase]; omega)
    simp [Cls.mem, Cls.has, inRanges, this, hu'.1, hu'.2]
  have : pubPages.isMatch m.raw = true := by
    refine (isMatch_iff _ _).2 ⟨a, [d] ++ (List.replicate n 45 ++ (ds ++ (bl ++ ([40] ++ [d'])))), b, by rw [hr]; simp, ?_⟩
    refine ⟨[d], _, rfl, acc_rep_cls.2 ⟨by simpa using hdig d hd, by simp, by simp⟩, List.replicate n 45, _, rfl,
      acc_plus_cls.2 ⟨by simp; omega, ?_⟩, ds, _, rfl, acc_rep_cls.2 ⟨fun u hu => hdig u (hds u hu), hl.1, by simp; omega⟩,
      bl, _, rfl, acc_rep_cls.2 ⟨?_, by simp, by simp; exact hbl.2⟩, [40], [d'], rfl, ⟨40, rfl, by decide⟩,
      acc_rep_cls.2 ⟨by simpa using hdig d' hd', by simp, by simp⟩⟩
    · intro u hu
      rw [(List.mem_replicate.1 hu).2]
      decide
    · intro u hu
      rcases hbl.1 u hu with rfl | rfl | rfl | rfl | rfl <;> decide
  rw [hb] at this
  cases this

/-- The text "abc6502530000" has a number at POSSIBLE, but none at VALID, since a Latin letter precedes the digits; after a
Chinese character or with a bracket it has. -/
noncomputable def C63_case (t : Str) (l : Leniency) : Finder := ⟨Data.container, Data.alt, t, (str!"US"), l⟩

example : Sticky 99 ∧ Sticky 36 ∧ ¬ Sticky 0x4E2D := by
  refine ⟨(sticky_iff _).1 ?_, (sticky_iff _).1 ?_, fun h => ?_⟩
  · decide +kernel
  · decide +kernel
  · have := (sticky_iff _).2 h
    revert this
    decide +kernel

example : ((C63_case (str!"abc6502530000") .possible).findNumbers 9).toOption.map (·.1.map (·.raw)) = some [(str!"6502530000")] ∧
    ((C63_case (str!"abc6502530000") .valid).findNumbers 9).toOption.map (·.1.map (·.raw)) = some [] ∧
    ((C63_case (str!"abc(650)2530000") .valid).findNumbers 9).toOption.map (·.1.map (·.raw)) = some [(str!"(650)2530000")] ∧
    ((C63_case (str!"\u4e2d6502530000") .valid).findNumbers 9).toOption.map (·.1.map (·.raw)) = some [(str!"6502530000")] := by
  refine ⟨?_, ?_, ?_, ?_⟩ <;> kernel_rfl

example : brackets (str!"(650)2530000") = [] ++ bracketPairs 1 := by decide

end Verif.Props
