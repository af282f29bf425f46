import Verif.Lemmas.ExtFind
import Verif.Props.C86
/-!
# A number written in blocks with an extension passes the checks
-/
namespace Verif.Props
open Spec

theorem extLabels_known : ∀ x ∈ extLabels, x ∈ extensionLabels := by decide

theorem extLabels_chars : ∀ x ∈ extLabels, x.1 ≠ [] ∧ (∀ u ∈ x.1, isDig u = false ∧ u ≠ 47 ∧ charDigit (rune u) = none ∧ rune u = u) ∧
    (x.1.filter fun u => decide (Ex u)).length ≤ 1 := by decide +kernel

theorem extLabels_facts (x : Str × Nat) (hx : x ∈ extLabels) : x.1 ≠ [] ∧
    (∀ u ∈ x.1, isDig u = false ∧ u ≠ 47 ∧ (∀ v, ¬ UnicodeDigit (rune u) v) ∧ rune u = u) ∧
    ∀ a u b, x.1 = a ++ u :: b → Ex u → ∀ v ∈ b, ¬ Ex v := by
  obtain ⟨h1, h2, h3⟩ := extLabels_chars x hx
  refine ⟨h1, fun u hu => ?_, fun a u b e hu v hv hex => ?_⟩
  · obtain ⟨k1, k2, k3, k4⟩ := h2 u hu
    exact ⟨k1, k2, (charDigit_none_iff _).1 k3, k4⟩
  · rw [e, List.filter_append, List.filter_cons_of_pos (by simpa using hu), List.length_append, List.length_cons] at h3
    have : 0 < (b.filter fun u => decide (Ex u)).length := List.length_pos_iff.2 (List.ne_nil_of_mem (List.mem_filter.2 ⟨hv, by simpa using hex⟩))
    omega

theorem digit_unicode {u : Nat} (h : isDig u = true) : ∃ v, UnicodeDigit (rune u) v ∧ u = '0'.toNat + v := by
  have hu' : 48 ≤ u ∧ u ≤ 57 := by simpa [isDig] using h
  have : ∀ i ∈ List.range 10, charDigit (rune (48 + i)) = some (48 + i) := by decide +kernel
  have := this (u - 48) (by simp; omega)
  rw [show 48 + (u - 48) = u by omega] at this
  obtain ⟨v, hv, e⟩ := (charDigit_iff _ _).1 this
  exact ⟨v, hv, e⟩

theorem asciiDigits_same {s : Str} (h : ∀ u ∈ s, isDig u = true ∨ ((∀ v, ¬ UnicodeDigit (rune u) v) ∧ rune u = u)) : AsciiDigits s s := by
  induction s with
  | nil => exact .nil
  | cons u s ih =>
    have ih := ih fun v hv => h v (by simp [hv])
    rcases h u (by simp) with h | ⟨h1, h2⟩
    · obtain ⟨v, hv, e⟩ := digit_unicode h
      have := AsciiDigits.digit hv ih
      rwa [← e] at this
    · have := AsciiDigits.other h1 ih
      rwa [h2] at this

theorem transcript_label {c e : Str} (hc : ∀ u ∈ c, ∀ v, ¬ UnicodeDigit (rune u) v) (he : ∀ u ∈ e, isDig u = true) : DigitTranscript (c ++ e) e := by
  induction c with
  | nil =>
    induction e with
    | nil => exact .nil
    | cons u e ih =>
      obtain ⟨v, hv, e1⟩ := digit_unicode (he u (by simp))
      have := DigitTranscript.digit hv (ih fun w hw => he w (by simp [hw]))
      rwa [← e1] at this
  | cons u c ih => exact .other (hc u (by simp)) (ih fun w hw => hc w (by simp [hw]))

theorem digit_notEx {u : Nat} (h : isDig u = true) : ¬ Ex u := by
  have h1 : 48 ≤ u ∧ u ≤ 57 := by simpa [isDig] using h
  have e1 : 'x'.toNat = 120 := rfl
  have e2 : 'X'.toNat = 88 := rfl
  unfold Ex
  omega

theorem exesFit_label {n : PhoneNumber} {x : Str × Nat} (hx : x ∈ extLabels) {P : Str} (hP : ∀ u ∈ P, ¬ Ex u) (he : ∀ u ∈ n.ext, isDig u = true) :
    ExesFit n (P ++ (x.1 ++ n.ext)) := by
  obtain ⟨f1, f2, f3⟩ := extLabels_facts x hx
  intro a u b hs hu _ hb
  have key : ∀ a', x.1 ++ n.ext = a' ++ u :: b → ∃ c, x.1 = a' ++ u :: c ∧ b = c ++ n.ext := by
    intro a' h
    rcases List.append_eq_append_iff.1 h with ⟨c, h1, h2⟩ | ⟨c, h1, h2⟩
    · exact absurd hu (digit_notEx (he u (by rw [h2]; simp)))
    · cases c with
      | nil => exact absurd hu (digit_notEx (he u (by rw [List.nil_append] at h2; rw [← h2]; simp)))
      | cons w c =>
        simp only [List.cons_append, List.cons.injEq] at h2
        exact ⟨c, by rw [h1, h2.1], h2.2⟩
  obtain ⟨a', c, h1, h2⟩ : ∃ a' c, x.1 = a' ++ u :: c ∧ b = c ++ n.ext := by
    rcases List.append_eq_append_iff.1 hs with ⟨c, h1, h2⟩ | ⟨c, h1, h2⟩
    · exact ⟨c, key c h2⟩
    · cases c with
      | nil => exact ⟨[], key [] (by simpa using h2.symm)⟩
      | cons w c =>
        simp only [List.cons_append, List.cons.injEq] at h2
        exact absurd hu (hP u (by rw [h1, h2.1]; simp))
  refine ⟨fun v t e hv => ?_, fun _ => ?_⟩
  · exfalso
    have hvb : v ∈ b := by rw [e]; simp
    rw [h2] at hvb
    rcases List.mem_append.1 hvb with h | h
    · exact f3 _ _ _ h1 hu v h hv
    · exact digit_notEx (he v h) hv
  · rw [h2]
    exact transcript_label (fun w hw => (f2 w (by rw [h1]; simp [hw])).2.2.1) he

theorem inOrder_blocks_ext (l : List (Str × Str)) (lab e : Str) : InOrder e (l.map (·.2)) ((l.flatMap fun x => x.1 ++ x.2) ++ (lab ++ e)) := by
  induction l with
  | nil => exact ⟨lab, [], by simp⟩
  | cons x l ih => exact ⟨x.1, _, by simp, ih⟩

theorem digitGroups_gaps (d : Str) (l : List (Str × Str)) (hd0 : d ≠ []) (hd : ∀ u ∈ d, isDig u = true)
    (hl : ∀ x ∈ l, x.1 ≠ [] ∧ (∀ u ∈ x.1, isDig u = false) ∧ x.2 ≠ [] ∧ ∀ u ∈ x.2, isDig u = true) :
    digitGroups (d ++ l.flatMap fun x => x.1 ++ x.2) = d :: l.map (·.2) := by
  unfold digitGroups fields
  induction l generalizing d with
  | nil =>
    rw [fieldsAux_run isDig d _ [] hd]
    simp [fieldsAux, hd0]
  | cons x l ih =>
    obtain ⟨g1, g2, g3, g4⟩ := hl x (by simp)
    rw [fieldsAux_run isDig d _ [] hd, List.nil_append, fieldsAux_end isDig _ d hd0, List.flatMap_cons, List.append_assoc,
      fieldsAux_skip isDig x.1 _ g2, ih x.2 g3 g4 (fun y hy => hl y (by simp [hy])), List.map_cons]
    intro u hu
    cases hx : x.1 with
    | nil => exact absurd hx g1
    | cons v t =>
      rw [List.flatMap_cons, hx] at hu
      simp at hu
      subst hu
      exact g2 _ (by rw [hx]; simp)

/-- A text that is a number in blocks with an extension passes the checks. -/
theorem verify_blocks_ext (lev : Leniency) (alt : List Metadata) (n : PhoneNumber) (hv : isValidNumber Data.container n = .ok true)
    (h0 : n.nn ≠ 0) (hsrc : n.src = .withPlusSign) (x' : Str × Nat) (hx' : x' ∈ extLabels)
    (he1 : 1 ≤ n.ext.length) (he3 : ∀ u ∈ n.ext, isDig u = true) (l : List (Str × Str)) (hl0 : l ≠ [])
    (hl : ∀ x ∈ l, Gap x.1 ∧ Block x.2) (hgr : lev = .possible ∨ lev = .valid ∨ Grouping Data.container alt n (l.map (·.2))) :
    lev.verify Data.container alt n (inBlocks n l ++ (x'.1 ++ n.ext)) = .ok true := by
  have hne : n.ext ≠ [] := List.length_pos_iff.1 he1
  obtain ⟨f1, f2, f3⟩ := extLabels_facts x' hx'
  have hcc := valid_hasCC hv
  have hpos := (prefixFree_spec prefixFree_shipped hcc).1
  have hc3 := (prefixFree_spec prefixFree_shipped hcc).2.1
  have hdec : decInt n.cc = decimal n.cc.toNat := decInt_nonneg (by omega)
  have hcd : ∀ u ∈ decimal n.cc.toNat, isDig u = true := by rw [← dec_eq_decimal]; exact dec_digits _
  have hc0 : decimal n.cc.toNat ≠ [] := by rw [← dec_eq_decimal]; exact dec_ne_nil _
  have hgc : ∀ x ∈ l, ∀ u ∈ x.1 ++ x.2, isDig u = true ∨ GapChar u := by
    intro x hx u hu
    rcases List.mem_append.1 hu with h | h
    · exact .inr ((hl x hx).1.2.2 u h)
    · exact .inl ((hl x hx).2.2.2 u h)
  have hchars : ∀ u ∈ inBlocks n l, isDig u = true ∨ GapChar u ∨ u = 43 := by
    intro u hu
    rcases List.mem_append.1 hu with h | h
    · exact .inr (.inr (by simpa using h))
    · rcases List.mem_append.1 h with h | h
      · exact .inl (hcd u h)
      · obtain ⟨x, hx, hu⟩ := List.mem_flatMap.1 h
        rcases hgc x hx u hu with h | h
        · exact .inl h
        · exact .inr (.inl h)
  have hno : ∀ u ∈ inBlocks n l, ¬ Ex u ∧ u ≠ 47 := by
    intro u hu
    have h1 : isDig u = true → 48 ≤ u ∧ u ≤ 57 := by simp [isDig]
    have e1 : 'x'.toNat = 120 := rfl
    have e2 : 'X'.toNat = 88 := rfl
    rcases hchars u hu with h | h
    · have := h1 h
      unfold Ex
      omega
    · unfold GapChar at h
      unfold Ex
      omega
  have hex : ExesFit n (inBlocks n l ++ (x'.1 ++ n.ext)) := exesFit_label hx' (fun u hu => (hno u hu).1) he3
  have hsl : SlashesOk n (inBlocks n l ++ (x'.1 ++ n.ext)) := by
    left
    have : (inBlocks n l ++ (x'.1 ++ n.ext)).count 47 = 0 := List.count_eq_zero.2 (fun h => by
      rcases List.mem_append.1 h with h | h
      · exact (hno _ h).2 rfl
      · rcases List.mem_append.1 h with h | h
        · exact (f2 _ h).2.1 rfl
        · exact absurd (he3 _ h) (by decide))
    have e : '/'.toNat = 47 := rfl
    rw [e, this]
    omega
  have hpr : PrefixOk Data.container n := by
    intro h
    rw [hsrc] at h
    cases h
  have hasc : AsciiDigits (inBlocks n l ++ (x'.1 ++ n.ext)) (inBlocks n l ++ (x'.1 ++ n.ext)) := by
    refine asciiDigits_same fun u hu => ?_
    rcases List.mem_append.1 hu with h | h
    · rcases hchars u h with h | h
      · exact .inl h
      · exact .inr ⟨gapChar_noDigit h.symm.symm, by unfold GapChar at h; exact rune_of_lt (by simp [badBase]; omega)⟩
    · rcases List.mem_append.1 h with h | h
      · exact .inr ⟨(f2 u h).2.2.1, (f2 u h).2.2.2⟩
      · exact .inl (he3 u h)
  obtain ⟨x, l', rfl⟩ : ∃ x l', l = x :: l' := by
    cases l with
    | nil => exact absurd rfl hl0
    | cons x l' => exact ⟨x, l', rfl⟩
  obtain ⟨⟨g1, g2, g3⟩, b1, b2, b3⟩ := hl x (by simp)
  have hcl : Block (decimal n.cc.toNat) := by
    have hlen3 : (decimal n.cc.toNat).length ≤ 3 := by
      rw [← dec_eq_decimal]; exact (length_dec_le (by omega)).2 (by omega)
    exact ⟨List.length_pos_iff.2 hc0, by omega, hcd⟩
  have hhead : ∀ (p q w : Str), (∀ u ∈ p, isDig u = false) → w ≠ [] → (∀ u ∈ w, isDig u = true) → FirstAt (p ++ (w ++ q)) w p q := by
    intro p q w hp hw hwd
    refine ⟨rfl, fun a b e => ?_⟩
    refine Nat.le_of_not_lt fun hlt => ?_
    obtain ⟨u, w', rfl⟩ : ∃ u w', w = u :: w' := by
      cases w with
      | nil => exact absurd rfl hw
      | cons u w' => exact ⟨u, w', rfl⟩
    have h1 : (p ++ (u :: w' ++ q))[a.length]? = some u := by rw [e]; simp
    rw [List.getElem?_append_left hlt] at h1
    have := hp u (List.mem_of_getElem? h1)
    rw [hwd u (by simp)] at this
    cases this
  cases lev with
  | possible => exact C25_shipped n hv
  | valid => exact (C85_valid alt n _).2 ⟨hv, hex, hpr⟩
  | strictGrouping =>
    rcases hgr with h | h | hgr
    · cases h
    · cases h
    refine (C85_strict alt n _ h0 (by
      rw [hdec]
      unfold inBlocks
      simp only [List.length_append]
      omega)).2 ⟨hv, hex, hsl, hpr, _, _, hgr, hasc, ((x :: l').flatMap fun x => x.1 ++ x.2) ++ (x'.1 ++ n.ext), ?_, ?_⟩
    · unfold AfterCode
      rw [if_neg (by rw [hsrc]; decide)]
      left
      rw [hdec]
      have := hhead (str!"+") (((x :: l').flatMap fun x => x.1 ++ x.2) ++ (x'.1 ++ n.ext)) _ (by decide) hc0 hcd
      refine ⟨str!"+", ?_⟩
      unfold inBlocks
      rw [List.append_assoc, List.append_assoc]
      exact this
    · have hx2 : x.2 ≠ [] := by intro h; rw [h] at b1; simp at b1
      have hgd : ∀ u ∈ x.1, isDig u = false := by
        intro u hu
        rcases g3 u hu with rfl | rfl | rfl <;> decide
      refine ⟨x.2, l'.map (·.2), x.1, (l'.flatMap fun x => x.1 ++ x.2) ++ (x'.1 ++ n.ext), rfl, ?_, ?_, ?_⟩
      · rw [List.flatMap_cons, List.append_assoc, List.append_assoc]
        exact hhead _ _ _ hgd hx2 b3
      · rintro ⟨-, u, b', v, e, hu⟩
        exfalso
        cases l' with
        | nil =>
          cases hx1 : x'.1 with
          | nil => exact f1 hx1
          | cons w r =>
            rw [hx1] at e
            simp only [List.flatMap_nil, List.nil_append, List.cons_append, List.cons.injEq] at e
            rw [← e.1] at hu
            exact (f2 w (by rw [hx1]; simp)).2.2.1 v hu
        | cons y l' =>
          obtain ⟨⟨y1, y2, y3⟩, -⟩ := hl y (by simp)
          cases hy : y.1 with
          | nil => rw [hy] at y1; simp at y1
          | cons w r =>
            rw [List.flatMap_cons, hy] at e
            simp only [List.cons_append, List.cons.injEq] at e
            rw [← e.1] at hu
            exact gapChar_noDigit (.inl (y3 w (by rw [hy]; simp))) v hu
      · intro _
        exact inOrder_blocks_ext l' _ _
  | exactGrouping =>
    rcases hgr with h | h | hgr
    · cases h
    · cases h
    refine (C85_exact alt n _ h0).2 ⟨hv, hex, hsl, hpr, _, _, hgr, hasc, .inr ?_⟩
    have hblocks : blocks (inBlocks n (x :: l') ++ (x'.1 ++ n.ext)) = [[], decimal n.cc.toNat] ++ ((x :: l').map (·.2)) ++ [n.ext] := by
      have hdg : digitGroups (inBlocks n (x :: l') ++ (x'.1 ++ n.ext)) = decimal n.cc.toNat :: ((x :: l').map (·.2) ++ [n.ext]) := by
        have := digitGroups_gaps (decimal n.cc.toNat) ((x :: l') ++ [(x'.1, n.ext)]) hc0 hcd (by
          intro y hy
          rcases List.mem_append.1 hy with hy | hy
          · obtain ⟨⟨y1, y2, y3⟩, z1, z2, z3⟩ := hl y hy
            refine ⟨List.length_pos_iff.1 y1, fun u hu => ?_, List.length_pos_iff.1 z1, z3⟩
            rcases y3 u hu with rfl | rfl | rfl <;> decide
          · rw [List.mem_singleton] at hy
            subst hy
            exact ⟨f1, fun u hu => (f2 u hu).1, hne, he3⟩)
        rw [List.map_append] at this
        rw [show decimal n.cc.toNat :: ((x :: l').map (·.2) ++ [n.ext]) = decimal n.cc.toNat :: ((x :: l').map (·.2) ++ [(x'.1, n.ext)].map (·.2)) from rfl,
          ← this]
        unfold digitGroups fields inBlocks
        rw [List.flatMap_append, List.append_assoc, List.append_assoc]
        have e : ([(x'.1, n.ext)].flatMap fun x => x.1 ++ x.2) = x'.1 ++ n.ext := by simp
        rw [e]
        exact fieldsAux_skip isDig (str!"+") _ (by decide)
      unfold blocks
      rw [hdg, if_neg (by simp)]
      rfl
    refine ⟨[[], decimal n.cc.toNat] ++ ((x :: l').map (·.2)), [n.ext], hblocks, by rw [if_neg hne]; rfl, .inr ?_⟩
    exact ⟨x.2, l'.map (·.2), [[], decimal n.cc.toNat], x.2, rfl, rfl, List.suffix_refl _⟩

/-- How a valid number in blocks with an extension is written, parsed and checked. -/
theorem blocks_ext_mention (n : PhoneNumber) (hv : isValidNumber Data.container n = .ok true) (h0 : n.nn ≠ 0) (hex : ¬ Ambiguous n) (x' : Str × Nat) (hx' : x' ∈ extLabels)
    (he1 : 1 ≤ n.ext.length) (he2 : n.ext.length ≤ x'.2) (he3 : ∀ u ∈ n.ext, isDig u = true)
    (l : List (Str × Str)) (hl : ∀ x ∈ l, Gap x.1 ∧ Block x.2) (hl20 : l.length ≤ 20) (hflat : (l.map (·.2)).flatten = nsnOf n)
    (alt : List Metadata) (lev : Leniency) (hgr : lev = .possible ∨ lev = .valid ∨ Grouping Data.container alt n (l.map (·.2))) (region : Str) :
    ∃ pn, WithExtension true (inBlocks n l ++ (x'.1 ++ n.ext)) n.ext ∧
      parseKeepRaw Data.container (inBlocks n l ++ (x'.1 ++ n.ext)) region = .ok (none, pn) ∧
      lev.verify Data.container alt pn (inBlocks n l ++ (x'.1 ++ n.ext)) = .ok true ∧ pn.cc = n.cc ∧ nsnOf pn = nsnOf n ∧ pn.ext = n.ext := by
  have hne : n.ext ≠ [] := List.length_pos_iff.1 he1
  obtain ⟨hcc, h2, h17, hla⟩ := valid_leftAlone n hv hex
  obtain ⟨hc0, hc1000, -, -⟩ := prefixFree_spec prefixFree_shipped hcc
  obtain ⟨x, l', rfl⟩ : ∃ x l', l = x :: l' := by
    cases l with
    | nil => rw [← hflat] at h2; simp at h2
    | cons x l' => exact ⟨x, l', rfl⟩
  obtain ⟨⟨g1, g2, g3⟩, b1, b2, b3⟩ := hl x (by simp)
  obtain ⟨g, G, hG⟩ : ∃ g G, x.1 = g :: G := by
    cases hx : x.1 with
    | nil => rw [hx] at g1; simp at g1
    | cons g G => exact ⟨g, G, rfl⟩
  -- the text after the country code
  have hbody : ((x :: l').flatMap fun x => x.1 ++ x.2) = g :: (G ++ x.2 ++ l'.flatMap fun x => x.1 ++ x.2) := by
    rw [List.flatMap_cons, hG]; simp
  have hgapL : ∀ u, GapChar u → u ∈ gapL := by
    intro u hu
    unfold GapChar at hu
    unfold gapL
    simp; omega
  have hchars : ∀ u ∈ (x :: l').flatMap fun x => x.1 ++ x.2, isDig u = true ∨ u ∈ gapL := by
    intro u hu
    obtain ⟨y, hy, hu⟩ := List.mem_flatMap.1 hu
    rcases List.mem_append.1 hu with h | h
    · exact .inr (hgapL u ((hl y hy).1.2.2 u h))
    · exact .inl ((hl y hy).2.2.2 u h)
  have hfilter : ∀ l : List (Str × Str), (∀ x ∈ l, Gap x.1 ∧ Block x.2) → (l.flatMap fun x => x.1 ++ x.2).filter isDig = (l.map (·.2)).flatten := by
    intro l hl
    induction l with
    | nil => rfl
    | cons y l ih =>
      have hy := hl y (by simp)
      rw [List.flatMap_cons, List.filter_append, List.filter_append, ih (fun z hz => hl z (by simp [hz])), List.map_cons, List.flatten_cons,
        List.filter_eq_nil_iff.2 (fun u hu => by rcases hy.1.2.2 u hu with rfl | rfl | rfl <;> decide), List.nil_append,
        List.filter_eq_self.2 hy.2.2.2]
  have hlen : ∀ l : List (Str × Str), (∀ x ∈ l, Gap x.1 ∧ Block x.2) →
      (l.flatMap fun x => x.1 ++ x.2).length ≤ 4 * l.length + (l.map (·.2)).flatten.length := by
    intro l hl
    induction l with
    | nil => simp
    | cons y l ih =>
      have hy := (hl y (by simp)).1.2.1
      have := ih (fun z hz => hl z (by simp [hz]))
      simp only [List.flatMap_cons, List.length_append, List.map_cons, List.flatten_cons, List.length_cons]
      omega
  have hlast : ∃ c v, G ++ x.2 ++ (l'.flatMap fun x => x.1 ++ x.2) = c ++ [v] ∧ isDig v = true := by
    have : ∀ (d : Str) (l : List (Str × Str)), Block d → (∀ x ∈ l, Gap x.1 ∧ Block x.2) →
        ∃ c v, d ++ (l.flatMap fun x => x.1 ++ x.2) = c ++ [v] ∧ isDig v = true := by
      intro d l hd hl
      induction l generalizing d with
      | nil =>
        have hd0 : d ≠ [] := by intro h; have := hd.1; rw [h] at this; simp at this
        obtain ⟨v, hv⟩ := List.getLast?_isSome.2 hd0 |> Option.isSome_iff_exists.1
        obtain ⟨c, hc⟩ := List.getLast?_eq_some_iff.1 hv
        exact ⟨c, v, by simpa using hc, hd.2.2 v (by rw [hc]; simp)⟩
      | cons y l ih =>
        obtain ⟨c, v, e, hv⟩ := ih y.2 (hl y (by simp)).2 (fun z hz => hl z (by simp [hz]))
        refine ⟨d ++ (y.1 ++ c), v, ?_, hv⟩
        rw [List.flatMap_cons, List.append_assoc, e]; simp
    obtain ⟨c, v, e, hv⟩ := this x.2 l' ⟨b1, b2, b3⟩ (fun z hz => hl z (by simp [hz]))
    exact ⟨G ++ c, v, by rw [List.append_assoc, e]; simp, hv⟩
  have hgg : g ∈ gapL := hgapL g (g3 g (by rw [hG]; simp))
  have hgdig : isDig g = false := by
    rcases g3 g (by rw [hG]; simp) with h | h | h <;> rw [h] <;> decide
  obtain ⟨c, hcore⟩ := written_core Data.container prefixFree_shipped (hasCC_zero Data.wf_regions) Data.wf_nonGeo Data.wf_lengthTables n hcc h2 h17 hla
    region [] (G ++ x.2 ++ l'.flatMap fun x => x.1 ++ x.2) (x'.1 ++ n.ext) g (.inl rfl) hgg
    (fun u hu => hchars u (by rw [hbody]; exact List.mem_cons_of_mem _ hu)) hlast
    (by
      have h1 := hlen _ hl
      rw [hflat, hbody] at h1
      rw [List.length_cons] at h1
      omega)
    (by
      have h1 := hfilter _ hl
      rw [hbody, List.filter_cons_of_neg (by simp [hgdig]), hflat] at h1
      exact h1)
    (.some x' _ hx' he3 he1 he2)
  have hs : inBlocks n (x :: l') ++ (x'.1 ++ n.ext) =
      [] ++ 43 :: ((decimal n.cc.toNat ++ g :: (G ++ x.2 ++ l'.flatMap fun x => x.1 ++ x.2)) ++ (x'.1 ++ n.ext)) := by
    unfold inBlocks
    rw [hbody]; simp
  rw [← hs] at hcore
  have hp := parseHelper_core Data.container (inBlocks n (x :: l') ++ (x'.1 ++ n.ext)) region true true {}
  rw [hcore] at hp
  simp only [Refines] at hp
  have hnsn : nsnOf (ParseOut.apply ⟨n.cc, n.ext, nsnOf n, some .withPlusSign, c⟩ (inBlocks n (x :: l') ++ (x'.1 ++ n.ext)) true {}) = nsnOf n :=
    C05_store (nsnOf n) {} (C04_digits n) h2 h17 rfl
  generalize hpn : ParseOut.apply ⟨n.cc, n.ext, nsnOf n, some .withPlusSign, c⟩ (inBlocks n (x :: l') ++ (x'.1 ++ n.ext)) true {} = pn at hp hnsn
  have e1 : pn.cc = n.cc := by rw [← hpn]; rfl
  have e2 : pn.src = .withPlusSign := by rw [← hpn]; rfl
  have e3 : pn.ext = n.ext := by
    rw [← hpn]
    show (if n.ext ≠ [] then some n.ext else none).getD [] = n.ext
    rw [if_pos hne]; rfl
  have e4 : pn.nn = n.nn := by
    have h1 := congrArg digVal hnsn
    rw [nsnOf_eq, nsnOf_eq, digVal_zeros, digVal_zeros, digVal_dec, digVal_dec] at h1
    exact h1
  have hv' : isValidNumber Data.container pn = .ok true := by
    have : isValidNumber Data.container pn = isValidNumber Data.container n := by
      unfold isValidNumber isValidForRegion regionForNumber
      rw [e1, hnsn]
    rw [this]; exact hv
  have hw : WithExtension true (inBlocks n (x :: l') ++ (x'.1 ++ n.ext)) n.ext := by
    have hlen3 : (decimal n.cc.toNat).length ≤ 3 := by
      rw [← dec_eq_decimal]; exact (length_dec_le (by omega)).2 (by omega)
    have hne' : decimal n.cc.toNat ≠ [] := by rw [← dec_eq_decimal]; exact dec_ne_nil _
    refine ⟨_, x', rfl, ?_, extLabels_known x' hx', he1, he2, he3⟩
    refine ⟨decimal n.cc.toNat, x :: l', rfl, ⟨List.length_pos_iff.2 hne', by omega, ?_⟩, hl20, hl⟩
    rw [← dec_eq_decimal]; exact dec_digits _
  have hver := verify_blocks_ext lev alt pn hv' (by rw [e4]; exact h0) e2 x' hx' (by rw [e3]; exact he1) (by rw [e3]; exact he3) (x :: l') (by simp) hl
    (hgr.imp id (Or.imp id (grouping_same e1 hnsn e3 (by rw [e4]; exact h0) h0)))
  have hsame : inBlocks pn (x :: l') = inBlocks n (x :: l') := by unfold inBlocks; rw [e1]
  rw [hsame, e3] at hver
  exact ⟨pn, hw, hp, hver, e1, hnsn, e3⟩

end Verif.Props
