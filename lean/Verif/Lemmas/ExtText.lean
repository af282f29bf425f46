import Verif.Spec.ExtText
import Verif.Lemmas.Separators
/-!
# Lemmas: numbers with extensions in a text
-/
namespace Verif
open Spec

theorem ndCls_mem (u : Nat) : ndCls.mem u = isDecimal u := by
  unfold Cls.mem Cls.has ndCls isDecimal
  simp [inRanges, UProp.mem]

/-- All decimal digits. -/
def ndL : List Nat := ndTable.flatMap (fun r => List.range' r.1 (r.2 - r.1 + 1))

theorem decimal_ndL {u : Nat} (h : isDecimal u = true) : rune u ∈ ndL := by
  obtain ⟨r, hr, h1, h2⟩ := mem_inRanges.1 h
  refine List.mem_flatMap.2 ⟨r, hr, ?_⟩
  rw [List.mem_range'_1]
  omega

/-- The part before the digits has no digit of any script. -/
def extAltNd (a : Re) : Bool :=
  match a.splitGrp with
  | none => false
  | some (A, _, _, _) => A.allCls (fun c => c.avoids ndL)

theorem extAlts_nd : extAlts.all extAltNd = true := by decide +kernel

theorem avoids_nd {a A D T : Re} {k : Nat} (ha : a ∈ extAlts) (hs : a.splitGrp = some (A, k, D, T)) {p : Nat} {w e : Str}
    (h : A.Acc p w e) : ∀ u ∈ w, isDecimal u = false := by
  have h1 := List.all_eq_true.1 extAlts_nd a ha
  unfold extAltNd at h1
  rw [hs] at h1
  intro u hu
  have := allCls_acc (Q := fun u => rune u ∉ ndL) (fun c hc u hu => Cls.avoids_mem hc u hu) A h1 _ _ _ h u hu
  cases hd : isDecimal u with
  | false => rfl
  | true => exact absurd (decimal_ndL hd) this

theorem hash_nd {u : Nat} (h : hashCls.mem u = true) : isDecimal u = false := by
  unfold hashCls Cls.mem Cls.has at h
  simp [inRanges, Nat.le_antisymm_iff] at h
  have : rune u = 35 := by omega
  unfold isDecimal
  rw [this]
  decide +kernel

theorem only_hash_nd {T : Re} (h : T.allCls (fun c => decide (c = hashCls)) = true) {p : Nat} {w e : Str} (ha : T.Acc p w e) :
    ∀ u ∈ w, isDecimal u = false := fun u hu =>
  allCls_acc (Q := fun u => isDecimal u = false) (fun c hc u hu => by
    have : c = hashCls := by simpa using hc
    rw [this] at hu
    exact hash_nd hu) T h _ _ _ ha u hu

/-- A text with one run of `P` is divided in one way. -/
theorem blocks_unique {P : Nat → Bool} {X d e w1 w2 w3 : Str} (hX : ∀ u ∈ X, P u = false) (hd : ∀ u ∈ d, P u = true) (h0 : d ≠ [])
    (he : ∀ u ∈ e, P u = false) (h : X ++ (d ++ e) = w1 ++ (w2 ++ w3)) (h1 : ∀ u ∈ w1, P u = false) (h2 : ∀ u ∈ w2, P u = true)
    (h3 : ∀ u ∈ w3, P u = false) : w1 = X ∧ w2 = d ∧ w3 = e := by
  have key : ∀ a b c : Str, (∀ u ∈ a, P u = false) → (∀ u ∈ b, P u = true) → b ≠ [] →
      (a ++ (b ++ c)).takeWhile (fun u => !P u) = a ∧ (a ++ (b ++ c)).dropWhile (fun u => !P u) = b ++ c := by
    intro a b c ha hb hb0
    obtain ⟨x, b, rfl⟩ := List.exists_cons_of_ne_nil hb0
    have hx := hb x (by simp)
    rw [List.takeWhile_append_of_pos (by intro u hu; simp [ha u hu]), List.dropWhile_append_of_pos (by intro u hu; simp [ha u hu])]
    simp [hx]
  have key2 : ∀ b c : Str, (∀ u ∈ b, P u = true) → (∀ u ∈ c, P u = false) → (b ++ c).takeWhile P = b ∧ (b ++ c).dropWhile P = c := by
    intro b c hb hc
    rw [List.takeWhile_append_of_pos hb, List.dropWhile_append_of_pos hb]
    cases c with
    | nil => simp
    | cons x c => simp [hc x (by simp)]
  have hne : w2 ≠ [] := by
    rintro rfl
    obtain ⟨x, d, rfl⟩ := List.exists_cons_of_ne_nil h0
    have hx : x ∈ w1 ++ ([] ++ w3) := by rw [← h]; simp
    have hx1 := hd x (by simp)
    simp only [List.nil_append, List.mem_append] at hx
    rcases hx with hx | hx
    · rw [h1 x hx] at hx1; cases hx1
    · rw [h3 x hx] at hx1; cases hx1
  have a1 := key X d e hX hd h0
  have a2 := key w1 w2 w3 h1 h2 hne
  rw [h] at a1
  have e1 : w1 = X := a2.1.symm.trans a1.1
  have e2 : w2 ++ w3 = d ++ e := a2.2.symm.trans a1.2
  have b1 := key2 d e hd he
  have b2 := key2 w2 w3 h2 h3
  rw [e2] at b2
  exact ⟨e1, b2.1.symm.trans b1.1, b2.2.symm.trans b1.2⟩

/-- A text with two runs of `P` is not divided like one. -/
theorem blocks_two {P : Nat → Bool} {B X d e w1 w2 w3 : Str} {v : Nat} (hv : P v = true) (hX : ∀ u ∈ X, P u = false) (hX0 : X ≠ [])
    (hd : ∀ u ∈ d, P u = true) (h0 : d ≠ []) (h : (B ++ [v]) ++ (X ++ (d ++ e)) = w1 ++ (w2 ++ w3)) (h1 : ∀ u ∈ w1, P u = false)
    (h2 : ∀ u ∈ w2, P u = true) (h3 : ∀ u ∈ w3, P u = false) : False := by
  obtain ⟨x, X, rfl⟩ := List.exists_cons_of_ne_nil hX0
  obtain ⟨y, d, rfl⟩ := List.exists_cons_of_ne_nil h0
  have hx := hX x (by simp)
  have hy := hd y (by simp)
  have last : ∀ c, w3 = c ++ ((x :: X) ++ (y :: d ++ e)) → False := by
    intro c hc
    have := h3 y (by rw [hc]; simp)
    rw [hy] at this; cases this
  rcases List.append_eq_append_iff.1 h with ⟨a, ha, -⟩ | ⟨c, -, hc⟩
  · have := h1 v (by rw [ha]; simp)
    rw [hv] at this; cases this
  · rcases List.append_eq_append_iff.1 hc with ⟨a, ha, hb⟩ | ⟨a, ha, hb⟩
    · exact last a hb
    · cases a with
      | nil => exact last [] (by simpa using hb.symm)
      | cons z a =>
        simp only [List.cons_append, List.cons.injEq] at hb
        have := h2 z (by rw [ha]; simp)
        rw [← hb.1, hx] at this; cases this

/-! ## The labels -/

/-- The same letters, in capitals or not. -/
inductive SameLetters : Str → Str → Prop
  | nil : SameLetters [] []
  | cons {u v : Nat} {s t : Str} : lower u = v → SameLetters s t → SameLetters (u :: s) (v :: t)

theorem sameLetters_map (w : Str) : SameLetters w (w.map lower) := by
  induction w with
  | nil => exact .nil
  | cons u t ih => exact .cons rfl ih

theorem SameLetters.split {w a b : Str} (h : SameLetters w (a ++ b)) : ∃ x y, w = x ++ y ∧ SameLetters x a ∧ SameLetters y b := by
  induction a generalizing w with
  | nil => exact ⟨[], w, rfl, .nil, h⟩
  | cons v a ih =>
    cases h with
    | cons h1 h2 =>
      obtain ⟨x, y, rfl, h3, h4⟩ := ih h2
      exact ⟨_ :: x, y, rfl, .cons h1 h3, h4⟩

/-- The class has the capital of each of its small letters. -/
def Cls.caseless (c : Cls) : Bool :=
  c.props.isEmpty && !c.neg && c.ranges.all (fun r => decide (r.1 = r.2)) &&
    c.ranges.all (fun r => [r.1 - 32].all (fun x => decide (lower x ≠ r.1) || c.has x))

theorem Cls.caseless_mem {c : Cls} (h : c.caseless = true) {u : Nat} (hu : c.mem (lower u) = true) : c.mem u = true := by
  by_cases hl : lower u = u
  · rwa [hl] at hu
  · have hlow : lower u = u + 32 ∧ u < 0xFF3B ∧ (u < 0x430) ∨ lower u = u + 32 ∧ 0xFF21 ≤ u ∧ u < 0xFF3B := by
      unfold lower at hl ⊢
      split at hl
      · rename_i hc
        rw [if_pos hc]
        omega
      · exact absurd rfl hl
    have hlu : lower u = u + 32 := by omega
    have hb : badBase = 0x110000 := rfl
    have hr : rune u = u := by unfold rune; split <;> omega
    have hr2 : rune (lower u) = u + 32 := by rw [hlu]; unfold rune; split <;> omega
    simp only [Cls.caseless, Bool.and_eq_true, List.isEmpty_iff, Bool.not_eq_true'] at h
    obtain ⟨⟨⟨h1, h2⟩, h3⟩, h4⟩ := h
    unfold Cls.mem Cls.has at hu
    rw [hr2, h1, h2] at hu
    simp only [Bool.bne_false, List.any_nil, Bool.or_false] at hu
    obtain ⟨r, hr', h5, h6⟩ := mem_inRanges.1 hu
    have h7 := List.all_eq_true.1 h3 r hr'
    have h8 := List.all_eq_true.1 h4 r hr'
    simp only [decide_eq_true_eq] at h7
    have : r.1 - 32 = u := by omega
    simp only [List.all_cons, List.all_nil, Bool.and_true, Bool.or_eq_true, decide_eq_true_eq, this] at h8
    unfold Cls.mem
    rw [hr]
    exact h8.resolve_left (fun hc => hc (by omega))

theorem SameLetters.acc {r : Re} (hr : r.allCls Cls.caseless = true) (hn : r.noAnchor = true) {p q : Nat} {w t e f : Str}
    (h : SameLetters w t) (ha : r.Acc p t e) : r.Acc q w f := by
  induction r generalizing p q w t e f with
  | eps => cases h with | nil => rfl | cons => cases ha
  | cls c =>
    obtain ⟨u, rfl, hu⟩ := ha
    cases h with
    | cons h1 h2 =>
      cases h2
      subst h1
      exact ⟨_, rfl, Cls.caseless_mem hr hu⟩
  | cat a b iha ihb =>
    simp only [Re.allCls, Re.noAnchor, Bool.and_eq_true] at hr hn
    obtain ⟨t1, t2, rfl, h1, h2⟩ := ha
    obtain ⟨x, y, rfl, h3, h4⟩ := h.split
    exact ⟨x, y, rfl, iha hr.1 hn.1 h3 h1, ihb hr.2 hn.2 h4 h2⟩
  | alt a b iha ihb =>
    simp only [Re.allCls, Re.noAnchor, Bool.and_eq_true] at hr hn
    rcases ha with ha | ha
    · exact .inl (iha hr.1 hn.1 h ha)
    · exact .inr (ihb hr.2 hn.2 h ha)
  | rep r mn mx g ih =>
    obtain ⟨k, h1, h2, h3⟩ := ha
    refine ⟨k, h1, h2, ?_⟩
    clear h1 h2
    induction k generalizing p q w t with
    | zero => obtain rfl := h3; cases h; rfl
    | succ k ihk =>
      obtain ⟨t1, t2, rfl, h4, h5⟩ := h3
      obtain ⟨x, y, rfl, h6, h7⟩ := h.split
      exact ⟨x, y, rfl, ih hr hn h6 h4, ihk h7 h5⟩
  | grp k r ih => exact ih hr hn h ha
  | bos => cases hn
  | eos => cases hn

/-- An alternative with blanks, a word, a mark and more blanks before the digits: the word. -/
def wordOf (i : Nat) : Re :=
  match (extAlts.getD i .eps).splitGrp with
  | some (.cat _ (.cat w _), _, _, _) => w
  | _ => .eos

theorem explicit_words : explicitWords.all (fun w => (wordOf 1).full.isMatch w) = true := by decide +kernel
theorem ambiguous_words : ambiguousWords.all (fun w => (wordOf 2).full.isMatch w) = true := by decide +kernel
theorem words_caseless : (wordOf 1).allCls Cls.caseless && (wordOf 1).noAnchor && (wordOf 2).allCls Cls.caseless &&
    (wordOf 2).noAnchor = true := by decide +kernel

def gapC : Cls := ⟨false, [(32, 32), (160, 160), (9, 9), (44, 44)], []⟩
def blankC : Cls := ⟨false, [(32, 32), (160, 160), (9, 9)], []⟩
def markC : Cls := ⟨false, [(58, 58), (46, 46), (65294, 65294)], []⟩
def afterC : Cls := ⟨false, [(32, 32), (160, 160), (9, 9), (44, 44), (45, 45)], []⟩
def afterRe : Re := .cat (.rep (.cls markC) 0 (some 1) true) (.cat (.rep (.cls afterC) 0 none true) .eps)

theorem alt0 : (extAlts.getD 0 .eps).splitGrp = some (match (extAlts.getD 0 .eps).splitGrp with | some x => x.1 | none => .eps, 1,
  .rep (.cls ndCls) 1 (some 20) true, .eps) := by decide +kernel
theorem alt1 : (extAlts.getD 1 .eps).splitGrp = some (.cat (.rep (.cls gapC) 0 none true) (.cat (wordOf 1) afterRe), 2,
  .rep (.cls ndCls) 1 (some 20) true, .rep (.cls hashCls) 0 (some 1) true) := by decide +kernel
theorem alt2 : (extAlts.getD 2 .eps).splitGrp = some (.cat (.rep (.cls gapC) 0 none true) (.cat (wordOf 2) afterRe), 3,
  .rep (.cls ndCls) 1 (some 9) true, .rep (.cls hashCls) 0 (some 1) true) := by decide +kernel
theorem alt3 : (extAlts.getD 3 .eps).splitGrp = some (.cat (.rep (.cls ⟨false, [(45, 45), (32, 32)], []⟩) 1 none true) .eps, 4,
  .rep (.cls ndCls) 1 (some 6) true, .cls hashCls) := by decide +kernel
theorem alt4 : (extAlts.getD 4 .eps).splitGrp = some (.cat (.rep (.cls blankC) 0 none true) (.cat (.alt
  (.rep (.cls ⟨false, [(44, 44)], []⟩) 2 (some 2) true) (.cls ⟨false, [(59, 59)], []⟩)) afterRe), 5,
  .rep (.cls ndCls) 1 (some 15) true, .rep (.cls hashCls) 0 (some 1) true) := by decide +kernel
theorem alt5 : (extAlts.getD 5 .eps).splitGrp = some (.cat (.rep (.cls blankC) 0 none true) (.cat
  (.rep (.cls ⟨false, [(44, 44)], []⟩) 1 none true) afterRe), 6,
  .rep (.cls ndCls) 1 (some 9) true, .rep (.cls hashCls) 0 (some 1) true) := by decide +kernel

theorem mem_single {l : List (Nat × Nat)} {u : Nat} (h : (u, u) ∈ l) (hu : u < badBase) : (Cls.mk false l []).mem u = true := by
  unfold Cls.mem Cls.has
  have hr : rune u = u := by unfold rune; rw [if_pos hu]
  simp only [List.any_nil, Bool.or_false, Bool.bne_false, hr]
  exact mem_inRanges.2 ⟨(u, u), h, Nat.le_refl _, Nat.le_refl _⟩

theorem blank_cases {u : Nat} (h : isBlank u) : u = 32 ∨ u = 160 ∨ u = 9 := h

theorem afterLabel_acc {a : Str} (h : AfterLabel a) (p : Nat) (e : Str) : afterRe.Acc p a e := by
  obtain ⟨m, h, rfl, h1, h2⟩ := h
  refine ⟨m, h, rfl, ?_, h, [], by simp, acc_star_cls.2 fun u hu => ?_, rfl⟩
  · rcases h1 with rfl | rfl | rfl | rfl
    · exact ⟨0, by simp, by simp, rfl⟩
    all_goals exact acc_opt.2 (.inr ⟨_, rfl, by decide⟩)
  · have : u = 32 ∨ u = 160 ∨ u = 9 ∨ u = 44 ∨ u = 45 := by
      rcases h2 u hu with h | h | h
      · rcases blank_cases h with h | h | h <;> simp [h]
      · exact .inr (.inr (.inr (.inl h)))
      · exact .inr (.inr (.inr (.inr h)))
    rcases this with rfl | rfl | rfl | rfl | rfl <;> decide

theorem gap_acc {g : Str} (h : ∀ u ∈ g, isBlank u ∨ u = ','.toNat) (p : Nat) (e : Str) : (Re.rep (.cls gapC) 0 none true).Acc p g e := by
  refine acc_star_cls.2 fun u hu => ?_
  have : u = 32 ∨ u = 160 ∨ u = 9 ∨ u = 44 := by
    rcases h u hu with h | h
    · rcases blank_cases h with h | h | h <;> simp [h]
    · exact .inr (.inr (.inr h))
  rcases this with rfl | rfl | rfl | rfl <;> decide

theorem blank_acc {g : Str} (h : ∀ u ∈ g, isBlank u) (p : Nat) (e : Str) : (Re.rep (.cls blankC) 0 none true).Acc p g e := by
  refine acc_star_cls.2 fun u hu => ?_
  rcases blank_cases (h u hu) with rfl | rfl | rfl <;> decide

theorem hash_acc {x : Str} (h : x ∈ [[], (str!"#")]) (p : Nat) (e : Str) : (Re.rep (.cls hashCls) 0 (some 1) true).Acc p x e := by
  simp only [List.mem_cons, List.not_mem_nil, or_false] at h
  rcases h with rfl | rfl
  · exact ⟨0, by simp, by simp, rfl⟩
  · exact acc_opt.2 (.inr ⟨35, rfl, by decide⟩)

theorem digits_acc {d : Str} {n : Nat} (hd : ∀ u ∈ d, isDecimal u = true) (h1 : 1 ≤ d.length) (h2 : d.length ≤ n) (p : Nat) (e : Str) :
    (Re.rep (.cls ndCls) 1 (some n) true).Acc p d e := by
  rw [acc_rep_cls]
  refine ⟨fun u hu => by rw [ndCls_mem]; exact hd u hu, h1, ?_⟩
  intro z hz
  cases hz; omega

theorem alt_acc {i : Nat} (hi : i < extAlts.length) {A D T : Re} {k : Nat} (h : (extAlts.getD i .eps).splitGrp = some (A, k, D, T))
    {p : Nat} {w1 w2 w3 e : Str} (h1 : ∀ p f, A.Acc p w1 f) (h2 : ∀ p f, D.Acc p w2 f) (h3 : ∀ p f, T.Acc p w3 f) :
    extBody.Acc p (w1 ++ (w2 ++ w3)) e := by
  refine acc_of_alts (a := extAlts.getD i .eps) ?_ ?_
  · rw [← extAlts_eq, List.getD_eq_getElem?_getD, List.getElem?_eq_getElem hi]
    exact List.getElem_mem hi
  · have := splitGrp_acc h (h1 p _) (h2 _ _) (h3 _ e)
    simpa using this

theorem extAlts_length : extAlts.length = 6 := by decide +kernel

/-- A label, digits and what may stand behind them are an extension for the pattern. -/
theorem label_acc {x d e : Str} {n : Nat} {ends : List Str} (hx : ExtLabel x n ends) (hd : ∀ u ∈ d, isDecimal u = true) (h1 : 1 ≤ d.length)
    (h2 : d.length ≤ n) (he : e ∈ ends) (p : Nat) (f : Str) : extBody.Acc p (x ++ (d ++ e)) f := by
  have hw := words_caseless
  simp only [Bool.and_eq_true] at hw
  obtain ⟨⟨⟨c1, c2⟩, c3⟩, c4⟩ := hw
  cases hx with
  | rfc hx =>
    refine alt_acc (i := 0) (by rw [extAlts_length]; omega) alt0 (fun p f => ?_) (digits_acc hd h1 h2) ?_
    · refine SameLetters.acc (p := 0) (e := []) (by decide +kernel) (by decide +kernel) (sameLetters_map x) ?_
      rw [hx]
      exact (full_isMatch_iff _ _).1 (by decide +kernel)
    · simp only [List.mem_singleton] at he
      subst he
      exact fun p f => rfl
  | @explicit g w a hg hw ha =>
    refine alt_acc (i := 1) (by rw [extAlts_length]; omega) alt1 (fun p f => ?_) (digits_acc hd h1 h2) (hash_acc he)
    refine ⟨g, w ++ a, rfl, gap_acc hg _ _, w, a, rfl, ?_, afterLabel_acc ha _ _⟩
    exact SameLetters.acc c1 c2 (sameLetters_map w) ((full_isMatch_iff _ _).1 (List.all_eq_true.1 explicit_words _ hw))
  | @ambiguous g w a hg hw ha =>
    refine alt_acc (i := 2) (by rw [extAlts_length]; omega) alt2 (fun p f => ?_) (digits_acc hd h1 h2) (hash_acc he)
    refine ⟨g, w ++ a, rfl, gap_acc hg _ _, w, a, rfl, ?_, afterLabel_acc ha _ _⟩
    exact SameLetters.acc c3 c4 (sameLetters_map w) ((full_isMatch_iff _ _).1 (List.all_eq_true.1 ambiguous_words _ hw))
  | @auto g w a hg hw ha =>
    refine alt_acc (i := 4) (by rw [extAlts_length]; omega) alt4 (fun p f => ?_) (digits_acc hd h1 h2) (hash_acc he)
    refine ⟨g, w ++ a, rfl, blank_acc hg _ _, w, a, rfl, ?_, afterLabel_acc ha _ _⟩
    rcases hw with rfl | rfl
    · refine .inl ?_
      rw [acc_rep_cls]
      exact ⟨by decide, by decide, by intro z hz; cases hz; decide⟩
    · exact .inr ⟨59, rfl, by decide⟩
  | @commas g w a hg hw1 hw ha =>
    refine alt_acc (i := 5) (by rw [extAlts_length]; omega) alt5 (fun p f => ?_) (digits_acc hd h1 h2) (hash_acc he)
    refine ⟨g, w ++ a, rfl, blank_acc hg _ _, w, a, rfl, ?_, afterLabel_acc ha _ _⟩
    rw [acc_rep_cls]
    exact ⟨fun u hu => by rw [hw u hu]; decide, hw1, by intro z hz; cases hz⟩
  | hash h3 hx =>
    refine alt_acc (i := 3) (by rw [extAlts_length]; omega) alt3 (fun p f => ?_) (digits_acc hd h1 h2) (fun p f => ?_)
    · refine ⟨x, [], by simp, ?_, rfl⟩
      rw [acc_rep_cls]
      exact ⟨fun u hu => by rcases hx u hu with h | h <;> rw [h] <;> decide, h3, by intro z hz; cases hz⟩
    · simp only [List.mem_singleton] at he
      subst he
      exact ⟨35, rfl, by decide⟩

/-- The characters of labels. -/
def labelL : List Nat := [32, 160, 9, 44, 58, 46, 0xFF0E, 45, 59, 61, 101, 120, 116] ++ (explicitWords.flatten ++ ambiguousWords.flatten)

def labelL2 : List Nat := labelL ++ labelL.map (· - 32)

theorem lower_mem {u : Nat} (h : lower u ∈ labelL) : u ∈ labelL2 := by
  unfold lower at h
  split at h
  · exact List.mem_append_right _ (List.mem_map.2 ⟨_, h, by omega⟩)
  · exact List.mem_append_left _ h

theorem words_mem {W : List Str} {w : Str} (hW : ∀ x ∈ W.flatten, x ∈ labelL) (hw : w.map lower ∈ W) : ∀ u ∈ w, u ∈ labelL2 := by
  intro u hu
  exact lower_mem (hW _ (List.mem_flatten.2 ⟨_, hw, List.mem_map.2 ⟨u, hu, rfl⟩⟩))

theorem blank_mem {u : Nat} (h : isBlank u) : u ∈ labelL2 := by
  rcases blank_cases h with rfl | rfl | rfl <;> decide +kernel

theorem after_mem {a : Str} (h : AfterLabel a) : ∀ u ∈ a, u ∈ labelL2 := by
  obtain ⟨m, h, rfl, h1, h2⟩ := h
  intro u hu
  rcases List.mem_append.1 hu with hu | hu
  · rcases h1 with rfl | rfl | rfl | rfl <;> simp only [List.mem_cons, List.not_mem_nil, or_false] at hu <;> subst hu <;> decide +kernel
  · rcases h2 u hu with h | h | h
    · exact blank_mem h
    · rw [h]; decide +kernel
    · rw [h]; decide +kernel

theorem label_mem {x : Str} {n : Nat} {ends : List Str} (hx : ExtLabel x n ends) : ∀ u ∈ x, u ∈ labelL2 := by
  have parts : ∀ {g w a : Str}, (∀ u ∈ g, isBlank u ∨ u = ','.toNat) → (∀ u ∈ w, u ∈ labelL2) → AfterLabel a →
      ∀ u ∈ g ++ (w ++ a), u ∈ labelL2 := by
    intro g w a hg hw ha u hu
    simp only [List.mem_append] at hu
    rcases hu with hu | hu | hu
    · rcases hg u hu with h | h
      · exact blank_mem h
      · rw [h]; decide +kernel
    · exact hw u hu
    · exact after_mem ha u hu
  cases hx with
  | rfc hx =>
    intro u hu
    refine lower_mem ?_
    have : lower u ∈ x.map lower := List.mem_map.2 ⟨u, hu, rfl⟩
    rw [hx] at this
    revert this
    generalize lower u = v
    revert v
    decide +kernel
  | explicit hg hw ha => exact parts hg (words_mem (by decide +kernel) hw) ha
  | ambiguous hg hw ha => exact parts hg (words_mem (by decide +kernel) hw) ha
  | auto hg hw ha => exact parts (fun u hu => .inl (hg u hu)) (by rcases hw with rfl | rfl <;> decide +kernel) ha
  | commas hg hw1 hw ha => exact parts (fun u hu => .inl (hg u hu)) (fun u hu => by rw [hw u hu]; decide +kernel) ha
  | hash h3 hx => exact fun u hu => by rcases hx u hu with h | h <;> rw [h] <;> decide +kernel

theorem label_ne {x : Str} {n : Nat} {ends : List Str} (hx : ExtLabel x n ends) : x ≠ [] := by
  have word : ∀ {W : List Str} {w : Str}, (∀ x ∈ W, x ≠ []) → w.map lower ∈ W → w ≠ [] := by
    rintro W w hW hw rfl
    exact hW _ hw rfl
  cases hx with
  | rfc hx => rintro rfl; cases hx
  | explicit hg hw ha => simp [word (by decide +kernel) hw]
  | ambiguous hg hw ha => simp [word (by decide +kernel) hw]
  | auto hg hw ha => rcases hw with rfl | rfl <;> simp
  | commas hg hw1 hw ha => rintro h; simp only [List.append_eq_nil_iff] at h; rw [h.2.1] at hw1; simp at hw1
  | hash h3 hx => rintro rfl; simp at h3

theorem labelL2_facts : ∀ u ∈ labelL2, u < badBase ∧ inRanges ndTable u = false ∧ u ∉ plusL ∧ u ≠ 47 ∧ u ≠ 92 := by decide +kernel

theorem label_char {u : Nat} (h : u ∈ labelL2) : isDecimal u = false ∧ rune u ∉ plusL ∧ u ≠ 47 ∧ u ≠ 92 := by
  obtain ⟨h1, h2, h3, h4⟩ := labelL2_facts u h
  have hr : rune u = u := by unfold rune; rw [if_pos h1]
  unfold isDecimal
  rw [hr]
  exact ⟨h2, h3, h4⟩

theorem ends_cases {x e : Str} {n : Nat} {ends : List Str} (hx : ExtLabel x n ends) (he : e ∈ ends) : e = [] ∨ e = [35] := by
  cases hx <;> simp only [List.mem_cons, List.not_mem_nil, or_false] at he
  case rfc => exact .inl he
  case hash => exact .inr he
  all_goals exact he

/-! ## The extension is found -/

/-- How the extension is captured. -/
theorem label_caps {X d e : Str} (hX : ∀ u ∈ X, isDecimal u = false) (hd : ∀ u ∈ d, isDecimal u = true) (h0 : d ≠ [])
    (he : ∀ u ∈ e, isDecimal u = false) {p : Nat} {st' : MSt} (h : st' ∈ extnPattern.runs ⟨p, X ++ (d ++ e), []⟩) :
    ∃ k, 1 ≤ k ∧ k ≤ 6 ∧ st'.caps = [(k, p + X.length, p + X.length + d.length)] := by
  rw [extnPattern_eq] at h
  simp only [Re.runs, List.mem_flatMap] at h
  obtain ⟨s0, h1, h2⟩ := h
  split at h2
  · rename_i hrest
    rw [List.mem_singleton] at h2
    subst h2
    obtain ⟨a, ha, h1⟩ := alts_runs h1
    have ha' : a ∈ extAlts := by rw [extAlts_eq]; exact ha
    obtain ⟨A, k, D, T, hs, g1, -, -, g4, g5, g6, g7, g8⟩ := extAltOk_parts (List.all_eq_true.1 extAlts_ok a ha')
    obtain ⟨s1, k1, s2, k2, k3⟩ := splitGrp_runs hs h1
    obtain ⟨w1, e1, p1, a1⟩ := runs_sound A _ s1 k1
    obtain ⟨w2, e2, p2, a2⟩ := runs_sound D _ s2 k2
    obtain ⟨w3, e3, p3, a3⟩ := runs_sound T _ _ k3
    simp only at e1 p1 e3
    have c1 := runs_caps_none A g1 _ s1 k1
    have c2 := runs_caps_none D g5 _ s2 k2
    have c3 := runs_caps_none T g7 _ _ k3
    rw [hrest, List.append_nil] at e3
    rw [e3] at e2
    rw [e2] at e1
    obtain ⟨rfl, rfl, rfl⟩ := blocks_unique hX hd h0 he e1 (avoids_nd ha' hs a1)
      (fun u hu => by rw [← ndCls_mem]; exact only_nd g6 a2 u hu) (only_hash_nd g8 a3)
    refine ⟨k, g4.1, g4.2, ?_⟩
    rw [c3]
    simp only [c2, c1, p2, p1]
  · cases h2

/-- No extension begins in the number. -/
theorem label_not_before {B X d e : Str} {v : Nat} (hv : isDecimal v = true) (hX : ∀ u ∈ X, isDecimal u = false) (hX0 : X ≠ [])
    (hd : ∀ u ∈ d, isDecimal u = true) (h0 : d ≠ []) {p : Nat} {w f : Str} (h : (B ++ [v]) ++ (X ++ (d ++ e)) = w ++ f) :
    ¬ extnPattern.Acc p w f := by
  intro ha
  rw [extnPattern_eq] at ha
  obtain ⟨w0, w9, rfl, h1, h2⟩ := ha
  obtain ⟨rfl, rfl⟩ : w9 = [] ∧ f = [] := h2
  simp only [List.append_nil] at h h1
  obtain ⟨a, ha, h3⟩ := alts_acc h1
  have ha' : a ∈ extAlts := by rw [extAlts_eq]; exact ha
  obtain ⟨A, k, D, T, hs, -, -, -, -, -, g6, -, g8⟩ := extAltOk_parts (List.all_eq_true.1 extAlts_ok a ha')
  obtain ⟨w1, w2, w3, rfl, a1, a2, a3⟩ := splitGrp_acc_inv hs h3
  rw [List.append_assoc w1] at h
  exact blocks_two hv hX hX0 hd h0 h (avoids_nd ha' hs a1) (fun u hu => by rw [← ndCls_mem]; exact only_nd g6 a2 u hu)
    (only_hash_nd g8 a3)

/-- The extension is taken off behind the last digit of the number. -/
theorem stripExtension_label {B X d e : Str} {v n : Nat} {ends : List Str} (hv : isDecimal v = true) (hvi : isViable (B ++ [v]) = true)
    (hx : ExtLabel X n ends) (hd : ∀ u ∈ d, isDecimal u = true) (h1 : 1 ≤ d.length) (h2 : d.length ≤ n) (he : e ∈ ends) :
    stripExtension ((B ++ [v]) ++ (X ++ (d ++ e))) = (d, B ++ [v]) := by
  have h0 : d ≠ [] := by rintro rfl; simp at h1
  have hX : ∀ u ∈ X, isDecimal u = false := fun u hu => (label_char (label_mem hx u hu)).1
  have hed : ∀ u ∈ e, isDecimal u = false := by
    rcases ends_cases hx he with rfl | rfl
    · intro u hu; cases hu
    · decide +kernel
  have hacc : extnPattern.Acc (0 + (B ++ [v]).length) (X ++ (d ++ e)) [] := by
    rw [extnPattern_eq]
    exact ⟨X ++ (d ++ e), [], by simp, label_acc hx hd h1 h2 he _ _, rfl, rfl⟩
  cases hf : extnPattern.find ((B ++ [v]) ++ (X ++ (d ++ e))) with
  | none => exact absurd hacc (findFrom_none hf (B ++ [v]) (X ++ (d ++ e)) [] (by simp))
  | some m =>
    obtain ⟨a, w, f, k1, k2, k3, k4, k5⟩ := findFrom_sound hf
    have hstart : m.start = (B ++ [v]).length := by
      rcases Nat.lt_trichotomy m.start (B ++ [v]).length with hlt | heq | hgt
      · exfalso
        rw [k2] at hlt
        simp only [Nat.zero_add, List.length_append, List.length_cons, List.length_nil] at hlt
        have : ∃ B2, B = a ++ B2 := by
          rw [List.append_assoc B] at k1
          rcases List.append_eq_append_iff.1 k1 with ⟨c, h4, h5⟩ | ⟨c, h4, -⟩
          · have := congrArg List.length h4
            rw [List.length_append] at this
            have : c = [] := List.length_eq_zero_iff.1 (by omega)
            subst this
            exact ⟨[], by simpa using h4.symm⟩
          · exact ⟨c, h4⟩
        obtain ⟨B2, rfl⟩ := this
        refine label_not_before (B := B2) hv hX (label_ne hx) hd h0 (w := w) (f := f) (e := e) ?_ k4
        rw [List.append_assoc a, List.append_assoc a] at k1
        have := List.append_cancel_left k1
        simpa using this
      · exact heq
      · exact absurd hacc (findFrom_leftmost hf (B ++ [v]) (X ++ (d ++ e)) [] (by simp) (by omega))
    have ha : a = B ++ [v] ∧ X ++ (d ++ e) = w ++ f := by
      refine List.append_inj' k1 ?_ |> fun h => ⟨h.1.symm, h.2⟩
      have := congrArg List.length k1
      simp only [List.length_append] at this hstart ⊢
      omega
    obtain ⟨rfl, hwe⟩ := ha
    rw [← hwe, matchAt_eq] at k5
    rw [Option.map_eq_some_iff] at k5
    obtain ⟨st, k6, k7⟩ := k5
    have hcaps : m.caps = st.caps := by rw [← k7]
    obtain ⟨k, g1, g2, g3⟩ := label_caps hX hd h0 hed (List.mem_of_mem_head? k6)
    unfold stripExtension
    rw [hf]
    simp only [hstart, List.take_left, hvi, if_true, extnPattern_groups]
    have hg : ∀ i, m.group ((B ++ [v]) ++ (X ++ (d ++ e))) (i + 1) = if i + 1 = k then d else [] := by
      intro i
      unfold Match.group Match.span
      rw [if_neg (by omega), hcaps, g3]
      by_cases hik : i + 1 = k
      · rw [if_pos hik, hik]
        simp only [List.find?_cons, beq_self_eq_true, Option.map_some]
        have := slice_eq_of_append (s := (B ++ [v]) ++ (X ++ (d ++ e))) (y := B ++ [v] ++ X) (w := d) (e := e) (by simp)
        rw [List.length_append] at this
        rw [hstart]
        exact this
      · rw [if_neg hik]
        have : (k == i + 1) = false := by simp; omega
        simp [this]
    simp only [hg]
    have : (List.range 6).findSome? (fun i => if (if i + 1 = k then d else []) = [] then none else some (if i + 1 = k then d else [])) = some d := by
      have hk : k = 1 ∨ k = 2 ∨ k = 3 ∨ k = 4 ∨ k = 5 ∨ k = 6 := by omega
      rcases hk with rfl | rfl | rfl | rfl | rfl | rfl <;> simp [List.range, List.range.loop, h0]
    rw [this]

/-! ## The text -/

/-- What is used of an extension in a text. -/
structure ExtFacts (t d : Str) : Prop where
  ne : d ≠ []
  acc : ∀ p f, extBody.Acc p t f
  plus : ∀ u ∈ t, rune u ∉ plusL
  slash : ∀ u ∈ t, u ≠ 47 ∧ u ≠ 92
  last : ∃ a v, t = a ++ [v] ∧ isEnd v = true
  strip : ∀ B v, isDecimal v = true → isViable (B ++ [v]) = true → stripExtension ((B ++ [v]) ++ t) = (d, B ++ [v])
  semi : 59 ∉ t ∨ ∃ a c b, t = a ++ 59 :: c :: b ∧ 59 ∉ a ∧ 59 ∉ c :: b ∧ c ≠ 112 ∧ c ≠ 105

theorem semi_digits {x d e : Str} (hx : 59 ∉ x) (hd : ∀ u ∈ d, isDecimal u = true) (he : e = [] ∨ e = [35]) : 59 ∉ x ++ (d ++ e) := by
  intro h
  simp only [List.mem_append] at h
  rcases h with h | h | h
  · exact hx h
  · exact absurd (hd 59 h) (by decide +kernel)
  · rcases he with rfl | rfl
    · cases h
    · revert h; decide

theorem lower_semi {u : Nat} : lower u = 59 ↔ u = 59 := by
  unfold lower
  split <;> omega

theorem word_semi {W : List Str} {w : Str} (hW : ∀ x ∈ W, 59 ∉ x) (hw : w.map lower ∈ W) : 59 ∉ w := fun h =>
  hW _ hw (List.mem_map.2 ⟨59, h, by decide⟩)

theorem blank_semi {g : Str} (hg : ∀ u ∈ g, isBlank u ∨ u = ','.toNat) : 59 ∉ g := by
  intro h
  rcases hg 59 h with h | h
  · rcases blank_cases h with h | h | h <;> cases h
  · cases h

theorem after_semi {a : Str} (ha : AfterLabel a) : ∀ u ∈ a, u ≠ 59 ∧ u ≠ 112 ∧ u ≠ 105 := by
  obtain ⟨m, h, rfl, h1, h2⟩ := ha
  intro u hu
  rcases List.mem_append.1 hu with hu | hu
  · rcases h1 with rfl | rfl | rfl | rfl <;> simp only [List.mem_cons, List.not_mem_nil, or_false] at hu <;> subst hu <;> decide
  · rcases h2 u hu with h | h | h
    · rcases blank_cases h with h | h | h <;> rw [h] <;> decide
    · rw [h]; decide
    · rw [h]; decide

theorem label_semi {x d e : Str} {n : Nat} {ends : List Str} (hx : ExtLabel x n ends) (hd : ∀ u ∈ d, isDecimal u = true) (h0 : d ≠ [])
    (he : e = [] ∨ e = [35]) :
    59 ∉ x ++ (d ++ e) ∨ ∃ a c b, x ++ (d ++ e) = a ++ 59 :: c :: b ∧ 59 ∉ a ∧ 59 ∉ c :: b ∧ c ≠ 112 ∧ c ≠ 105 := by
  have hdd : ∀ u ∈ d, u ≠ 59 ∧ u ≠ 112 ∧ u ≠ 105 := by
    intro u hu
    have := hd u hu
    refine ⟨?_, ?_, ?_⟩ <;> rintro rfl <;> revert this <;> decide +kernel
  have hde : 59 ∉ d ++ e := by simpa using semi_digits (x := []) (by simp) hd he
  cases hx with
  | rfc hx =>
    right
    have hx : x.map lower = [59, 101, 120, 116, 61] := hx
    have h5 : x.length = 5 := by have := congrArg List.length hx; simpa using this
    match x, h5 with
    | [x0, x1, x2, x3, x4], _ =>
      simp only [List.map_cons, List.map_nil, List.cons.injEq, and_true] at hx
      obtain ⟨e0, e1, e2, e3, e4⟩ := hx
      have hne : ∀ {u v : Nat}, lower u = v → v ≠ 59 → u ≠ 59 := fun h1 h2 h3 => h2 (h1 ▸ lower_semi.2 h3)
      refine ⟨[], x1, [x2, x3, x4] ++ (d ++ e), ?_, by simp, ?_, ?_, ?_⟩
      · rw [lower_semi.1 e0]; rfl
      · simp only [List.cons_append, List.nil_append, List.mem_cons, not_or]
        exact ⟨Ne.symm (hne e1 (by decide)), Ne.symm (hne e2 (by decide)), Ne.symm (hne e3 (by decide)), Ne.symm (hne e4 (by decide)), hde⟩
      · rintro rfl; revert e1; decide
      · rintro rfl; revert e1; decide
  | explicit hg hw ha =>
    refine .inl (semi_digits ?_ hd he)
    simp only [List.mem_append, not_or]
    exact ⟨blank_semi hg, word_semi (by decide +kernel) hw, fun h => (after_semi ha 59 h).1 rfl⟩
  | ambiguous hg hw ha =>
    refine .inl (semi_digits ?_ hd he)
    simp only [List.mem_append, not_or]
    exact ⟨blank_semi hg, word_semi (by decide +kernel) hw, fun h => (after_semi ha 59 h).1 rfl⟩
  | @auto g w a hg hw ha =>
    have hgs := blank_semi (fun u hu => .inl (hg u hu))
    have has : 59 ∉ a := fun h => (after_semi ha 59 h).1 rfl
    rcases hw with rfl | rfl
    · refine .inl (semi_digits ?_ hd he)
      simp only [List.mem_append, not_or]
      exact ⟨hgs, by decide, has⟩
    · right
      have : ∃ c b, a ++ (d ++ e) = c :: b ∧ c ≠ 112 ∧ c ≠ 105 := by
        cases a with
        | nil =>
          obtain ⟨c, b, rfl⟩ := List.exists_cons_of_ne_nil h0
          exact ⟨c, b ++ e, rfl, (hdd c (by simp)).2⟩
        | cons c b => exact ⟨c, b ++ (d ++ e), rfl, (after_semi ha c (by simp)).2⟩
      obtain ⟨c, b, hcb, hc⟩ := this
      refine ⟨g, c, b, ?_, hgs, ?_, hc⟩
      · rw [← hcb, List.append_assoc, List.append_assoc]; rfl
      · rw [← hcb]
        simp only [List.mem_append, not_or] at hde ⊢
        exact ⟨has, hde⟩
  | commas hg hw1 hw ha =>
    refine .inl (semi_digits ?_ hd he)
    simp only [List.mem_append, not_or]
    exact ⟨blank_semi (fun u hu => .inl (hg u hu)), fun h => (by cases hw _ h), fun h => (after_semi ha 59 h).1 rfl⟩
  | hash h3 hx =>
    refine .inl (semi_digits ?_ hd he)
    intro h
    rcases hx _ h with h | h <;> cases h

theorem extFacts {t d : Str} (h : ExtText t d) : ExtFacts t d := by
  obtain ⟨x, n, ends, e, hx, rfl, h1, h2, hd, he⟩ := h
  have h0 : d ≠ [] := by rintro rfl; simp at h1
  have hee := ends_cases hx he
  have hdec : ∀ u, isDecimal u = true → rune u ∉ plusL ∧ u ≠ 47 ∧ u ≠ 92 := by
    intro u hu
    refine ⟨decimal_not_plus hu, ?_, ?_⟩ <;> rintro rfl <;> revert hu <;> decide +kernel
  have hall : ∀ u ∈ x ++ (d ++ e), rune u ∉ plusL ∧ u ≠ 47 ∧ u ≠ 92 := by
    intro u hu
    simp only [List.mem_append] at hu
    rcases hu with hu | hu | hu
    · exact (label_char (label_mem hx u hu)).2
    · exact hdec u (hd u hu)
    · rcases hee with rfl | rfl
      · cases hu
      · rw [List.mem_singleton.1 hu]; decide
  refine ⟨h0, label_acc hx hd h1 h2 he, fun u hu => (hall u hu).1, fun u hu => (hall u hu).2, ?_,
    fun B v hv hvi => stripExtension_label hv hvi hx hd h1 h2 he, label_semi hx hd h0 hee⟩
  rcases hee with rfl | rfl
  · exact ⟨x ++ d.dropLast, d.getLast h0, by rw [List.append_nil, List.append_assoc, List.dropLast_concat_getLast h0],
      decimal_end (hd _ (List.getLast_mem h0))⟩
  · exact ⟨x ++ d, 35, by simp, by decide +kernel⟩

theorem semi_unique {a b a' b' : Str} (h : a ++ 59 :: b = a' ++ 59 :: b') (ha : 59 ∉ a) (hb : 59 ∉ b) : a = a' ∧ b = b' := by
  rcases List.append_eq_append_iff.1 h with ⟨c, h1, h2⟩ | ⟨c, h1, h2⟩
  · cases c with
    | nil => simp at h1 h2; exact ⟨h1.symm, h2⟩
    | cons z c =>
      simp only [List.cons_append, List.cons.injEq] at h2
      exact absurd (by rw [h2.2]; simp) hb
  · cases c with
    | nil => simp at h1 h2; exact ⟨h1, h2.symm⟩
    | cons z c =>
      simp only [List.cons_append, List.cons.injEq] at h2
      exact absurd (by rw [h1, h2.1]; simp) ha

/-- No parameter of the text other than the extension is found. -/
theorem no_param {front t back q : Str} {c : Nat} (hf : 59 ∉ front) (hb : 59 ∉ back)
    (ht : 59 ∉ t ∨ ∃ a c b, t = a ++ 59 :: c :: b ∧ 59 ∉ a ∧ 59 ∉ c :: b ∧ c ≠ 112 ∧ c ≠ 105) (hc : c = 112 ∨ c = 105) :
    indexOf (front ++ (t ++ back)) (59 :: c :: q) = none := by
  rcases ht with ht | ⟨a, c', b, rfl, h1, h2, h3, h4⟩
  · exact indexOf_none_of_mem (c := 59) (by simp) (by simp [hf, hb, ht])
  · refine indexOf_notIn fun h => ?_
    obtain ⟨y, z, hyz⟩ := h
    have := semi_unique (a := front ++ a) (b := c' :: b ++ back) (a' := y) (b' := c :: q ++ z) (by simpa using hyz)
      (by simp [hf, h1]) (by simpa [hb] using h2)
    simp only [List.cons_append, List.cons.injEq] at this
    rcases hc with rfl | rfl
    · exact h3 this.2.1
    · exact h4 this.2.1

theorem Loose.validBody {P b x : Str} (h : Loose P b) (hx : ∀ p e, extBody.Acc p x e) : validBody.Acc 0 (P ++ (b ++ x)) [] := by
  refine Or.inr ⟨P, b ++ x, rfl, ?_, b, x, rfl, ⟨(b.filter isDecimal).length, h.three, by simp, ?_⟩, [], x, by simp,
    ⟨0, by simp, by simp, rfl⟩, ?_⟩
  · refine acc_star_cls.2 (fun v hv => ?_)
    exact (plusCls_mem v).2 (isPlus_iff.1 (h.signs v hv))
  · have := fun Q hQ => iterP_runs (P := Q) (D := isDecimal) (G := isSeparator) (fun u => separator_not_decimal) hQ b h.all [] (by simp) h.last
    refine this _ ?_ _ _
    intro a u q f ha hu
    refine ⟨a, [u], rfl, acc_star_cls.2 (fun v hv => ?_), u, rfl, ?_⟩
    · have hv := separator_mem (ha v hv)
      unfold Cls.mem
      generalize Verif.rune v = c at hv
      revert c
      decide +kernel
    · unfold Cls.mem Cls.has
      unfold isDecimal at hu
      simpa [inRanges, UProp.mem] using hu
  · have h1 : ∀ q, validExt.Acc q x [] := fun q => by
      rw [← ungrp_acc, validExt_eq, ungrp_acc]; exact hx _ _
    exact acc_opt.2 (.inr (h1 _))

theorem Loose.viable_ext {P b t d : Str} (h : Loose P b) (ht : ExtFacts t d) : isViable (P ++ (b ++ t)) = true := by
  refine isViable_of_acc (h.validBody ht.acc) ?_
  have := h.three
  have := List.length_filter_le isDecimal b
  simp only [List.length_append]; omega

theorem Loose.strip_ext {P b t d : Str} (h : Loose P b) (ht : ExtFacts t d) : stripExtension (P ++ (b ++ t)) = (d, P ++ b) := by
  have hv := h.viable
  obtain ⟨a, v, rfl, hvd⟩ := h.last
  have := ht.strip (P ++ a) v hvd (by simpa using hv)
  simpa using this

theorem Loose.checkRegion_ext {P b t d : Str} (C : Container) (h : Loose P b) (ht : ExtFacts t d) (region : Str) :
    checkRegion C (P ++ (b ++ t)) region = checkRegion C (P ++ b) region := by
  have hnp : ∀ u ∈ b ++ t, Verif.rune u ∉ plusL := by
    intro u hu
    rcases List.mem_append.1 hu with hu | hu
    · exact h.not_plus u hu
    · exact ht.plus u hu
  unfold checkRegion
  congr 1
  rw [decide_eq_true h.ne_nil', decide_eq_true (show P ++ (b ++ t) ≠ [] by simp [h.ne_nil])]
  by_cases h0 : P = []
  · subst h0
    simp [Re.isMatch, plus_find_none b h.not_plus, plus_find_none (b ++ t) hnp]
  · simp only [Re.isMatch, h.find_plus h0, plus_find_start P (b ++ t) h0 (fun u hu => isPlus_iff.1 (h.signs u hu)) hnp]

/-- A decision of the parser, with an extension. -/
def withExt (d : Str) : Go (Except ParseErr ParseOut) → Go (Except ParseErr ParseOut)
  | .ok (.ok o) => .ok (.ok { o with ext := d })
  | r => r

theorem Loose.parseViable_ext {P b t d : Str} (C : Container) (h : Loose P b) (ht : ExtFacts t d) (region : Str) :
    parseViable C (P ++ (b ++ t)) region = withExt d (parseViable C (P ++ b) region) := by
  unfold parseViable
  simp only [h.strip_ext ht, h.noExt]
  cases extractCore C (P ++ b) (C.metaForRegion region) with
  | error p => rfl
  | ok r =>
    cases r with
    | error e => rfl
    | ok r =>
      obtain ⟨code, rest, src⟩ := r
      simp only [bind, Except.bind]
      split
      · cases finishCore rest (finishMeta C code region) with
        | error p => rfl
        | ok r => cases r <;> rfl
      · cases finishCore (rest ++ normalize (P ++ b)) (C.metaForRegion region) with
        | error p => rfl
        | ok r => cases r <;> rfl

/-- The text of the number and its extension is found. -/
theorem candidate_ext {front P b t d back : Str} (h : Loose P b) (ht : ExtFacts t d) (hf : ∀ u ∈ front, isStart u = false)
    (hb : ∀ u ∈ back, isEnd u = false) : candidate (front ++ (P ++ (b ++ (t ++ back)))) = P ++ (b ++ t) := by
  have hstart : ∃ v r, P ++ (b ++ (t ++ back)) = v :: r ∧ isStart v = true := by
    cases hP : P with
    | nil =>
      obtain ⟨u, r, rfl, hu⟩ := h.first hP
      exact ⟨u, r ++ (t ++ back), rfl, by unfold isStart; unfold isDecimal at hu; simp [hu]⟩
    | cons v P' => exact ⟨v, P' ++ (b ++ (t ++ back)), rfl, by unfold isStart; rw [h.signs v (by rw [hP]; simp)]; rfl⟩
  unfold candidate
  rw [List.dropWhile_append_of_pos (fun a ha => by simp [hf a ha])]
  obtain ⟨v, r, hv, hs⟩ := hstart
  have : (P ++ (b ++ (t ++ back))).dropWhile (fun u => !isStart u) = P ++ (b ++ (t ++ back)) := by
    rw [hv, List.dropWhile_cons_of_neg (by simp [hs])]
  rw [this]
  obtain ⟨t', x, ht', hx⟩ := ht.last
  have e : P ++ (b ++ (t ++ back)) = (P ++ (b ++ t')) ++ x :: back := by rw [ht']; simp
  rw [e, before_back hx hb]
  have e2 : P ++ (b ++ t') ++ [x] = P ++ (b ++ t) := by rw [ht']; simp
  rw [e2]
  refine before_none (fun a u r hs => ?_)
  unfold secondNumber
  rw [Bool.and_eq_false_iff]
  by_cases hu : u = 47 ∨ u = 92
  · right
    have hmem : u ∉ t := fun hm => by
      have := ht.slash u hm
      rcases hu with hu | hu
      · exact this.1 hu
      · exact this.2 hu
    have hdu : isDecimal u = false := by rcases hu with rfl | rfl <;> decide +kernel
    obtain ⟨b', y, hb', hy⟩ := h.last
    have hr : ∃ r1, r = r1 ++ (y :: t) ∧ (∀ z ∈ r1 ++ [y], z ≠ 120) := by
      have e3 : (P ++ b') ++ (y :: t) = a ++ (u :: r) := by rw [← hs, hb']; simp
      have hx120 : ∀ z ∈ P ++ b, z ≠ 120 := by
        rintro z hz rfl
        exact absurd (h.mem _ hz) (by decide +kernel)
      rcases List.append_eq_append_iff.1 e3 with ⟨c, h1, h2⟩ | ⟨c, h1, h2⟩
      · cases c with
        | nil =>
          simp only [List.nil_append, List.cons.injEq] at h2
          rw [← h2.1] at hdu
          rw [hdu] at hy; cases hy
        | cons z c =>
          simp only [List.cons_append, List.cons.injEq] at h2
          exact absurd (by rw [h2.2]; simp) hmem
      · cases c with
        | nil =>
          simp only [List.nil_append, List.cons.injEq] at h2
          rw [h2.1] at hdu
          rw [hdu] at hy; cases hy
        | cons z c =>
          simp only [List.cons_append, List.cons.injEq] at h2
          refine ⟨c, h2.2, fun w hw => hx120 w ?_⟩
          rw [hb', ← List.append_assoc, h1]
          simp only [List.mem_append, List.mem_cons, List.not_mem_nil, or_false] at hw ⊢
          rcases hw with hw | hw
          · exact .inl (.inr (.inr hw))
          · exact .inr hw
    obtain ⟨r1, rfl, h120⟩ := hr
    have hysp : y ≠ 32 := by rintro rfl; revert hy; decide +kernel
    have : ∃ z, ((r1 ++ (y :: t)).dropWhile (fun v => v == ' '.toNat)).head? = some z ∧ z ≠ 120 := by
      clear hs
      induction r1 with
      | nil =>
        rw [List.nil_append, List.dropWhile_cons_of_neg (by simpa using hysp)]
        exact ⟨y, rfl, h120 y (by simp)⟩
      | cons z r1 ih =>
        by_cases hz : z = 32
        · rw [List.cons_append, List.dropWhile_cons_of_pos (by simp [hz])]
          exact ih (fun w hw => h120 w (by simp only [List.cons_append, List.mem_cons]; exact .inr hw))
        · rw [List.cons_append, List.dropWhile_cons_of_neg (by simpa using hz)]
          exact ⟨z, rfl, h120 z (by simp)⟩
    obtain ⟨z, hz1, hz2⟩ := this
    rw [hz1]
    simpa using hz2
  · left
    rw [not_or] at hu
    rw [Bool.or_eq_false_iff]
    exact ⟨decide_eq_false hu.1, decide_eq_false hu.2⟩

theorem numberExtText_parts {s ds d : Str} {plus : Bool} (h : NumberExtText s plus ds d) : ∃ P b t, Loose P b ∧ (plus = false ↔ P = []) ∧
    normalizeDigitsOnly b = ds ∧ ExtFacts t d ∧ buildNationalNumber s = .ok (.ok (P ++ (b ++ t))) ∧ s ≠ [] := by
  obtain ⟨number, t, back', rfl, hn, ⟨nt, nu, hnl, hnd⟩, ht, hb⟩ := h.parts
  have ht := extFacts ht
  obtain ⟨front, P, b, back, he, h1, h2, h3, h4, h5, h6, h7, h8⟩ := hn.parts
  have hl : Loose P b := ⟨h2, h4, h5, h6, by rw [← transcript_length h7]; exact hn.three⟩
  have hback : back = [] := by
    refine Classical.byContradiction fun hc => ?_
    have e := he.symm.trans hnl
    rw [← List.append_assoc, ← List.append_assoc] at e
    have e := congrArg List.getLast? e
    rw [List.getLast?_concat, List.getLast?_append, List.getLast?_eq_some_getLast hc] at e
    simp only [Option.some_or, Option.some.injEq] at e
    have := (h8 _ (List.getLast_mem hc)).1
    rw [e, decimal_end hnd] at this
    cases this
  subst hback
  rw [List.append_nil] at he
  subst he
  refine ⟨P, b, t, hl, ?_, (Props.C01_unique _ _ h7).symm, ht, ?_, by simp [hl.ne_nil]⟩
  · cases plus
    · simp only [Bool.false_eq_true, false_iff, ne_eq, Classical.not_not] at h3
      simp [h3]
    · simp only [true_iff, ne_eq] at h3
      simp [h3]
  · have hPb : (59 : Nat) ∉ P ++ b := fun hm => absurd (hl.mem 59 hm) (by decide +kernel)
    have hfront : (59 : Nat) ∉ front := fun hm => (h1 59 hm).2 rfl
    have hbk : (59 : Nat) ∉ back' := fun hm => (hb 59 hm).2 rfl
    have e1 : indexOf ((front ++ (P ++ b)) ++ (t ++ back')) rfcPhoneContext = none :=
      no_param (c := 112) (by simp only [List.mem_append, not_or] at hPb ⊢; exact ⟨hfront, hPb⟩) hbk ht.semi (.inl rfl)
    have e2 : extractPossibleNumber ((front ++ (P ++ b)) ++ (t ++ back')) = P ++ (b ++ t) := by
      have := candidate_ext hl ht (fun u hu => (h1 u hu).1) (fun u hu => (hb u hu).1)
      rw [extractPossibleNumber_eq, ← this]
      simp
    have e3 : indexOf (P ++ (b ++ t)) rfcIsub = none := by
      have := no_param (c := 105) (q := str!"sub=") (front := P ++ b) (t := t) (back := []) hPb (by simp) ht.semi (.inr rfl)
      rw [List.append_nil, List.append_assoc] at this
      exact this
    unfold buildNationalNumber
    simp only [e1, e2]
    simp [dropIsub, e3]

/-- The decisions of the parser for a text with an extension are those for the number without it, and the extension. -/
theorem parseCore_ext (C : Container) {s s' ds d : Str} {plus : Bool} (h : NumberExtText s plus ds d) (h' : NumberText s' plus ds)
    (region : Str) (check : Bool) : parseCore C s region check = withExt d (parseCore C s' region check) := by
  obtain ⟨P, b, t, h1, h2, h3, ht, h4, h5⟩ := numberExtText_parts h
  obtain ⟨P', b', h1', h2', h3', h4', h5'⟩ := numberText_parts h'
  have hp : P = [] ↔ P' = [] := h2.symm.trans h2'
  have hn := h3.trans h3'.symm
  have k1 := h.short
  have k2 := h'.short
  unfold parseCore
  rw [if_neg h5, if_neg h5', if_neg (by simp only [maxInputStringLength]; omega), if_neg (by simp only [maxInputStringLength]; omega), h4, h4']
  simp only [bind, Except.bind, h1.viable_ext ht, h1'.viable, h1.checkRegion_ext C ht, h1.checkRegion_congr C h1' hp,
    h1.parseViable_ext C ht, h1.parseViable_congr C h1' hp hn]
  simp only [Bool.not_true, Bool.false_eq_true, if_false]
  split <;> rfl

end Verif
