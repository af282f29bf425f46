import Verif.Lemmas.Blocks
import Verif.Props.C64
import Verif.Props.C85
/-!
# C86: a number written in its groups is found at every level
-/
namespace Verif.Props
open Spec

/-- The number `n` written with plus sign and country code, then gaps and blocks of digits. -/
def inBlocks (n : PhoneNumber) (l : List (Str × Str)) : Str := str!"+" ++ (decimal n.cc.toNat ++ l.flatMap fun x => x.1 ++ x.2)

theorem grouping_same {alt : List Metadata} {n pn : PhoneNumber} (h1 : pn.cc = n.cc) (h2 : nsnOf pn = nsnOf n) (h3 : pn.ext = n.ext)
    (h4 : pn.nn ≠ 0) (h5 : n.nn ≠ 0) {gs : List Str} (h : Grouping Data.container alt n gs) : Grouping Data.container alt pn gs := by
  have hf : format Data.container pn .rfc3966 = format Data.container n .rfc3966 := by
    unfold format
    rw [if_neg (fun h => h4 h.1), if_neg (fun h => h5 h.1)]
    unfold formatCore appendExtension
    rw [h1, h2, h3]
  cases h with
  | usual k1 k2 k3 k4 => exact .usual k1 k2 (by rw [hf, h1]; exact k3) (by rw [h3]; exact k4)
  | alternate k1 k2 k3 k4 k5 k6 => exact .alternate (by rw [h1]; exact k1) k2 (by rw [h2]; exact k3) k4 k5 (by rw [h2]; exact k6)

/-- A text that is a number in blocks passes the checks. -/
theorem verify_blocks (lev : Leniency) (alt : List Metadata) (n : PhoneNumber) (hv : isValidNumber Data.container n = .ok true)
    (h0 : n.nn ≠ 0) (hsrc : n.src = .withPlusSign) (hext : n.ext = []) (l : List (Str × Str)) (hl0 : l ≠ [])
    (hl : ∀ x ∈ l, Gap x.1 ∧ Block x.2) (hgr : lev = .possible ∨ lev = .valid ∨ Grouping Data.container alt n (l.map (·.2))) :
    lev.verify Data.container alt n (inBlocks n l) = .ok true := by
  have hcc := valid_hasCC hv
  have hpos := (prefixFree_spec prefixFree_shipped hcc).1
  have hc3 := (prefixFree_spec prefixFree_shipped hcc).2.1
  have hdec : decInt n.cc = decimal n.cc.toNat := decInt_nonneg (by omega)
  have hcd : ∀ u ∈ decimal n.cc.toNat, isDig u = true := by rw [← dec_eq_decimal]; exact dec_digits _
  have hc0 : decimal n.cc.toNat ≠ [] := by rw [← dec_eq_decimal]; exact dec_ne_nil _
  have hgc : ∀ x ∈ l, ∀ u ∈ x.1 ++ x.2, isDig u = true ∨ GapChar u := by
    intro x hx u hu
    rcases List.mem_append.1 hu with h | h
    · exact .inr ((hl x hx).1.2.2 u h)
    · exact .inl ((hl x hx).2.2.2 u h)
  have hchars : ∀ u ∈ inBlocks n l, isDig u = true ∨ GapChar u ∨ u = 43 := by
    intro u hu
    rcases List.mem_append.1 hu with h | h
    · exact .inr (.inr (by simpa using h))
    · rcases List.mem_append.1 h with h | h
      · exact .inl (hcd u h)
      · obtain ⟨x, hx, hu⟩ := List.mem_flatMap.1 h
        rcases hgc x hx u hu with h | h
        · exact .inl h
        · exact .inr (.inl h)
  have hno : ∀ u ∈ inBlocks n l, ¬ Ex u ∧ u ≠ 47 := by
    intro u hu
    have h1 : isDig u = true → 48 ≤ u ∧ u ≤ 57 := by simp [isDig]
    have e1 : 'x'.toNat = 120 := rfl
    have e2 : 'X'.toNat = 88 := rfl
    rcases hchars u hu with h | h
    · have := h1 h
      unfold Ex
      omega
    · unfold GapChar at h
      unfold Ex
      omega
  have hex : ExesFit n (inBlocks n l) := by
    intro a u b hs hu
    exact absurd hu (hno u (by rw [hs]; simp)).1
  have hsl : SlashesOk n (inBlocks n l) := by
    left
    have : (inBlocks n l).count 47 = 0 := List.count_eq_zero.2 (fun h => (hno _ h).2 rfl)
    have e : '/'.toNat = 47 := rfl
    rw [e, this]
    omega
  have hpr : PrefixOk Data.container n := by
    intro h
    rw [hsrc] at h
    cases h
  have hasc := asciiDigits_self _ hchars
  obtain ⟨x, l', rfl⟩ : ∃ x l', l = x :: l' := by
    cases l with
    | nil => exact absurd rfl hl0
    | cons x l' => exact ⟨x, l', rfl⟩
  obtain ⟨⟨g1, g2, g3⟩, b1, b2, b3⟩ := hl x (by simp)
  have hcl : Block (decimal n.cc.toNat) := by
    have hlen3 : (decimal n.cc.toNat).length ≤ 3 := by
      rw [← dec_eq_decimal]; exact (length_dec_le (by omega)).2 (by omega)
    exact ⟨List.length_pos_iff.2 hc0, by omega, hcd⟩
  have hhead : ∀ (p q w : Str), (∀ u ∈ p, isDig u = false) → w ≠ [] → (∀ u ∈ w, isDig u = true) → FirstAt (p ++ (w ++ q)) w p q := by
    intro p q w hp hw hwd
    refine ⟨rfl, fun a b e => ?_⟩
    refine Nat.le_of_not_lt fun hlt => ?_
    obtain ⟨u, w', rfl⟩ : ∃ u w', w = u :: w' := by
      cases w with
      | nil => exact absurd rfl hw
      | cons u w' => exact ⟨u, w', rfl⟩
    have h1 : (p ++ (u :: w' ++ q))[a.length]? = some u := by rw [e]; simp
    rw [List.getElem?_append_left hlt] at h1
    have := hp u (List.mem_of_getElem? h1)
    rw [hwd u (by simp)] at this
    cases this
  cases lev with
  | possible => exact C25_shipped n hv
  | valid => exact (C85_valid alt n _).2 ⟨hv, hex, hpr⟩
  | strictGrouping =>
    rcases hgr with h | h | hgr
    · cases h
    · cases h
    refine (C85_strict alt n _ h0 (by
      rw [hdec]
      unfold inBlocks
      simp only [List.length_append]
      omega)).2 ⟨hv, hex, hsl, hpr, _, _, hgr, hasc, (x :: l').flatMap fun x => x.1 ++ x.2, ?_, ?_⟩
    · unfold AfterCode
      rw [if_neg (by rw [hsrc]; decide)]
      left
      rw [hdec]
      exact ⟨str!"+", hhead _ _ _ (by decide) hc0 hcd⟩
    · have hx2 : x.2 ≠ [] := by intro h; rw [h] at b1; simp at b1
      have hgd : ∀ u ∈ x.1, isDig u = false := by
        intro u hu
        rcases g3 u hu with rfl | rfl | rfl <;> decide
      refine ⟨x.2, l'.map (·.2), x.1, l'.flatMap fun x => x.1 ++ x.2, rfl, ?_, ?_, ?_⟩
      · rw [List.flatMap_cons, List.append_assoc]
        exact hhead _ _ _ hgd hx2 b3
      · rintro ⟨-, u, b', v, e, hu⟩
        exfalso
        cases l' with
        | nil => cases e
        | cons y l' =>
          obtain ⟨⟨y1, y2, y3⟩, -⟩ := hl y (by simp)
          cases hy : y.1 with
          | nil => rw [hy] at y1; simp at y1
          | cons w r =>
            rw [List.flatMap_cons, hy] at e
            simp only [List.cons_append, List.cons.injEq] at e
            rw [← e.1] at hu
            exact gapChar_noDigit (.inl (y3 w (by rw [hy]; simp))) v hu
      · intro _
        rw [hext]
        exact inOrder_blocks l'
  | exactGrouping =>
    rcases hgr with h | h | hgr
    · cases h
    · cases h
    refine (C85_exact alt n _ h0).2 ⟨hv, hex, hsl, hpr, _, _, hgr, hasc, .inr ?_⟩
    have hblocks : blocks (inBlocks n (x :: l')) = [[], decimal n.cc.toNat] ++ ((x :: l').map (·.2)) := by
      have hdg : digitGroups (inBlocks n (x :: l')) = decimal n.cc.toNat :: (x :: l').map (·.2) := by
        rw [← digitGroups_blocks _ _ hcl hl]
        unfold digitGroups fields inBlocks
        exact fieldsAux_skip isDig (str!"+") _ (by decide)
      unfold blocks
      rw [hdg, if_neg (by simp)]
      rfl
    refine ⟨[[], decimal n.cc.toNat] ++ ((x :: l').map (·.2)), [], by rw [hblocks, List.append_nil], by rw [hext]; rfl, .inr ?_⟩
    exact ⟨x.2, l'.map (·.2), [[], decimal n.cc.toNat], x.2, rfl, rfl, List.suffix_refl _⟩

/-- How a valid number in blocks is written, parsed and checked. -/
theorem blocks_mention (n : PhoneNumber) (hv : isValidNumber Data.container n = .ok true) (h0 : n.nn ≠ 0) (hex : ¬ Ambiguous n) (hext : n.ext = [])
    (l : List (Str × Str)) (hl : ∀ x ∈ l, Gap x.1 ∧ Block x.2) (hl20 : l.length ≤ 20) (hflat : (l.map (·.2)).flatten = nsnOf n)
    (alt : List Metadata) (lev : Leniency) (hgr : lev = .possible ∨ lev = .valid ∨ Grouping Data.container alt n (l.map (·.2))) (region : Str) :
    ∃ pn, WrittenNumber true (inBlocks n l) ∧ parseKeepRaw Data.container (inBlocks n l) region = .ok (none, pn) ∧
      lev.verify Data.container alt pn (inBlocks n l) = .ok true ∧ pn.cc = n.cc ∧ nsnOf pn = nsnOf n ∧ pn.ext = [] := by
  obtain ⟨hcc, h2, h17, hla⟩ := valid_leftAlone n hv hex
  obtain ⟨hc0, hc1000, -, -⟩ := prefixFree_spec prefixFree_shipped hcc
  obtain ⟨x, l', rfl⟩ : ∃ x l', l = x :: l' := by
    cases l with
    | nil => rw [← hflat] at h2; simp at h2
    | cons x l' => exact ⟨x, l', rfl⟩
  obtain ⟨⟨g1, g2, g3⟩, b1, b2, b3⟩ := hl x (by simp)
  obtain ⟨g, G, hG⟩ : ∃ g G, x.1 = g :: G := by
    cases hx : x.1 with
    | nil => rw [hx] at g1; simp at g1
    | cons g G => exact ⟨g, G, rfl⟩
  -- the text after the country code
  have hbody : ((x :: l').flatMap fun x => x.1 ++ x.2) = g :: (G ++ x.2 ++ l'.flatMap fun x => x.1 ++ x.2) := by
    rw [List.flatMap_cons, hG]; simp
  have hgapL : ∀ u, GapChar u → u ∈ gapL := by
    intro u hu
    unfold GapChar at hu
    unfold gapL
    simp; omega
  have hchars : ∀ u ∈ (x :: l').flatMap fun x => x.1 ++ x.2, isDig u = true ∨ u ∈ gapL := by
    intro u hu
    obtain ⟨y, hy, hu⟩ := List.mem_flatMap.1 hu
    rcases List.mem_append.1 hu with h | h
    · exact .inr (hgapL u ((hl y hy).1.2.2 u h))
    · exact .inl ((hl y hy).2.2.2 u h)
  have hfilter : ∀ l : List (Str × Str), (∀ x ∈ l, Gap x.1 ∧ Block x.2) → (l.flatMap fun x => x.1 ++ x.2).filter isDig = (l.map (·.2)).flatten := by
    intro l hl
    induction l with
    | nil => rfl
    | cons y l ih =>
      have hy := hl y (by simp)
      rw [List.flatMap_cons, List.filter_append, List.filter_append, ih (fun z hz => hl z (by simp [hz])), List.map_cons, List.flatten_cons,
        List.filter_eq_nil_iff.2 (fun u hu => by rcases hy.1.2.2 u hu with rfl | rfl | rfl <;> decide), List.nil_append,
        List.filter_eq_self.2 hy.2.2.2]
  have hlen : ∀ l : List (Str × Str), (∀ x ∈ l, Gap x.1 ∧ Block x.2) →
      (l.flatMap fun x => x.1 ++ x.2).length ≤ 4 * l.length + (l.map (·.2)).flatten.length := by
    intro l hl
    induction l with
    | nil => simp
    | cons y l ih =>
      have hy := (hl y (by simp)).1.2.1
      have := ih (fun z hz => hl z (by simp [hz]))
      simp only [List.flatMap_cons, List.length_append, List.map_cons, List.flatten_cons, List.length_cons]
      omega
  have hlast : ∃ c v, G ++ x.2 ++ (l'.flatMap fun x => x.1 ++ x.2) = c ++ [v] ∧ isDig v = true := by
    have : ∀ (d : Str) (l : List (Str × Str)), Block d → (∀ x ∈ l, Gap x.1 ∧ Block x.2) →
        ∃ c v, d ++ (l.flatMap fun x => x.1 ++ x.2) = c ++ [v] ∧ isDig v = true := by
      intro d l hd hl
      induction l generalizing d with
      | nil =>
        have hd0 : d ≠ [] := by intro h; have := hd.1; rw [h] at this; simp at this
        obtain ⟨v, hv⟩ := List.getLast?_isSome.2 hd0 |> Option.isSome_iff_exists.1
        obtain ⟨c, hc⟩ := List.getLast?_eq_some_iff.1 hv
        exact ⟨c, v, by simpa using hc, hd.2.2 v (by rw [hc]; simp)⟩
      | cons y l ih =>
        obtain ⟨c, v, e, hv⟩ := ih y.2 (hl y (by simp)).2 (fun z hz => hl z (by simp [hz]))
        refine ⟨d ++ (y.1 ++ c), v, ?_, hv⟩
        rw [List.flatMap_cons, List.append_assoc, e]; simp
    obtain ⟨c, v, e, hv⟩ := this x.2 l' ⟨b1, b2, b3⟩ (fun z hz => hl z (by simp [hz]))
    exact ⟨G ++ c, v, by rw [List.append_assoc, e]; simp, hv⟩
  have hgg : g ∈ gapL := hgapL g (g3 g (by rw [hG]; simp))
  have hgdig : isDig g = false := by
    rcases g3 g (by rw [hG]; simp) with h | h | h <;> rw [h] <;> decide
  obtain ⟨c, hcore⟩ := written_core Data.container prefixFree_shipped (hasCC_zero Data.wf_regions) Data.wf_nonGeo Data.wf_lengthTables n hcc h2 h17 hla
    region [] (G ++ x.2 ++ l'.flatMap fun x => x.1 ++ x.2) [] g (.inl rfl) hgg
    (fun u hu => hchars u (by rw [hbody]; exact List.mem_cons_of_mem _ hu)) hlast
    (by
      have h1 := hlen _ hl
      rw [hflat, hbody] at h1
      rw [List.length_cons] at h1
      omega)
    (by
      have h1 := hfilter _ hl
      rw [hbody, List.filter_cons_of_neg (by simp [hgdig]), hflat] at h1
      exact h1)
    (by rw [hext]; exact .none)
  have hs : inBlocks n (x :: l') = [] ++ 43 :: ((decimal n.cc.toNat ++ g :: (G ++ x.2 ++ l'.flatMap fun x => x.1 ++ x.2)) ++ []) := by
    unfold inBlocks
    rw [hbody]; simp
  rw [← hs] at hcore
  have hp := parseHelper_core Data.container (inBlocks n (x :: l')) region true true {}
  rw [hcore, hext] at hp
  simp only [Refines] at hp
  have hnsn : nsnOf (ParseOut.apply ⟨n.cc, [], nsnOf n, some .withPlusSign, c⟩ (inBlocks n (x :: l')) true {}) = nsnOf n :=
    C05_store (nsnOf n) {} (C04_digits n) h2 h17 rfl
  generalize hpn : ParseOut.apply ⟨n.cc, [], nsnOf n, some .withPlusSign, c⟩ (inBlocks n (x :: l')) true {} = pn at hp hnsn
  have e1 : pn.cc = n.cc := by rw [← hpn]; rfl
  have e2 : pn.src = .withPlusSign := by rw [← hpn]; rfl
  have e3 : pn.ext = [] := by rw [← hpn]; rfl
  have e4 : pn.nn = n.nn := by
    have h1 := congrArg digVal hnsn
    rw [nsnOf_eq, nsnOf_eq, digVal_zeros, digVal_zeros, digVal_dec, digVal_dec] at h1
    exact h1
  have hv' : isValidNumber Data.container pn = .ok true := by
    have : isValidNumber Data.container pn = isValidNumber Data.container n := by
      unfold isValidNumber isValidForRegion regionForNumber
      rw [e1, hnsn]
    rw [this]; exact hv
  have hw : WrittenNumber true (inBlocks n (x :: l')) := by
    have hlen3 : (decimal n.cc.toNat).length ≤ 3 := by
      rw [← dec_eq_decimal]; exact (length_dec_le (by omega)).2 (by omega)
    have hne : decimal n.cc.toNat ≠ [] := by rw [← dec_eq_decimal]; exact dec_ne_nil _
    refine ⟨decimal n.cc.toNat, x :: l', rfl, ⟨List.length_pos_iff.2 hne, by omega, ?_⟩, hl20, hl⟩
    rw [← dec_eq_decimal]; exact dec_digits _
  have hver := verify_blocks lev alt pn hv' (by rw [e4]; exact h0) e2 e3 (x :: l') (by simp) hl
    (hgr.imp id (Or.imp id (grouping_same e1 hnsn (by rw [e3, hext]) (by rw [e4]; exact h0) h0)))
  have hsame : inBlocks pn (x :: l') = inBlocks n (x :: l') := by unfold inBlocks; rw [e1]
  rw [hsame] at hver
  exact ⟨pn, hw, hp, hver, e1, hnsn, e3⟩

/-- A valid number written with plus sign and country code, and then its digits in blocks with gaps of spaces, hyphens and dots, is found by a search
at level POSSIBLE and VALID, and at level STRICT_GROUPING and EXACT_GROUPING if the blocks are the groups of the number; for every region, in every text around it as in C64.
The number found has the same country code and national significant number.  (Numbers with an extension, with one of the two
ambiguous beginnings of C10 and with national number 0 are excluded.) -/
theorem C86_written (n : PhoneNumber) (hv : isValidNumber Data.container n = .ok true) (h0 : n.nn ≠ 0) (hex : ¬ Ambiguous n) (hext : n.ext = [])
    (l : List (Str × Str)) (hl : ∀ x ∈ l, Gap x.1 ∧ Block x.2) (hl20 : l.length ≤ 20) (hflat : (l.map (·.2)).flatten = nsnOf n)
    (alt : List Metadata) (lev : Leniency) (hgr : lev = .possible ∨ lev = .valid ∨ Grouping Data.container alt n (l.map (·.2)))
    (a b region : Str) (ha : NoStart a) (hb : NoDigit b) (hafter : ∀ u, b.head? = some u → ¬ Sticky u)
    (maxTries : Int) (hk : 0 < maxTries) :
    ∃ m c, Finder.findNumbers ⟨Data.container, alt, a ++ (inBlocks n l ++ b), region, lev⟩ maxTries = .ok ([m], c) ∧
      m.start (a ++ (inBlocks n l ++ b)) = blen a ∧ m.raw = inBlocks n l ∧ m.number.cc = n.cc ∧ nsnOf m.number = nsnOf n := by
  obtain ⟨pn, hw, hp, hver, e1, hnsn, -⟩ := blocks_mention n hv h0 hex hext l hl hl20 hflat alt lev hgr region
  obtain ⟨m, c, hc, hst, hr, hn⟩ := C64_written ⟨Data.container, alt, a ++ (inBlocks n l ++ b), region, lev⟩ true a
    (inBlocks n l) b pn rfl ha hw hb (fun _ => hafter) (fun _ h => by cases h) hp hver maxTries hk
  exact ⟨m, c, hc, hst, hr, by rw [hn]; exact e1, by rw [hn]; exact hnsn⟩

theorem wf_intlSpaced : Data.container.allMeta.all intlSpaced = true := by kernel_rfl

/-- The INTERNATIONAL form of a number is its digits in its groups. -/
theorem international_blocks (n : PhoneNumber) (hcc : Data.container.hasCC n.cc = true) (h0 : n.nn ≠ 0) (hext : n.ext = [])
    (h17 : (nsnOf n).length ≤ 17) : ∃ l, format Data.container n .international = inBlocks n l ∧ (∀ x ∈ l, Gap x.1 ∧ Block x.2) ∧ l.length ≤ 20 ∧
      (l.map (·.2)).flatten = nsnOf n ∧ ∀ alt, Grouping Data.container alt n (l.map (·.2)) := by
  obtain ⟨m, hm, -⟩ := main_meta built_shipped Data.wf_tables hcc
  have hmem := Container.metaFor_mem hm
  have hne : nsnOf n ≠ [] := by rw [nsnOf_eq]; simp [dec_ne_nil]
  have hpos := (prefixFree_spec prefixFree_shipped hcc).1
  have hraw : ¬ (n.nn = 0 ∧ n.raw ≠ []) := fun h => h0 h.1
  obtain ⟨k1, k2, k3, k4, k5, k6⟩ := formatNsn_blocks m (List.all_eq_true.1 wf_layout m hmem) (List.all_eq_true.1 Data.wf_intlFormats m hmem)
    (List.all_eq_true.1 Data.wf_intlLiterals m hmem) (List.all_eq_true.1 wf_intlEnds m hmem) (List.all_eq_true.1 wf_intlSpaced m hmem)
    (nsnOf n) (nsnOf_isDig n) hne
  have hfi : format Data.container n .international = str!"+" ++ (decimal n.cc.toNat ++ 32 :: formatNsn (nsnOf n) (some m) .international []) := by
    simp only [format, if_neg hraw, formatCore, reduceCtorEq, if_false, hcc, Bool.not_true, Bool.false_eq_true, hm, prefixWithCC,
      appendExtension, decInt_nonneg (show 0 ≤ n.cc by omega), hext, if_true]
    simp
  have hfr : format Data.container n .rfc3966 = str!"tel:+" ++ decimal n.cc.toNat ++ str!"-" ++ formatNsn (nsnOf n) (some m) .rfc3966 [] := by
    simp only [format, if_neg hraw, formatCore, reduceCtorEq, if_false, hcc, Bool.not_true, Bool.false_eq_true, hm, prefixWithCC,
      appendExtension, decInt_nonneg (show 0 ≤ n.cc by omega), hext, if_true]
    simp
  generalize formatNsn (nsnOf n) (some m) .international [] = body at k1 k2 k3 k4 k5 k6 hfi
  obtain ⟨d, l, e, j1, j2, j3⟩ := blocks_of body.length body (Nat.le_refl _) k1 (by rw [k2]; omega) k3 k4 k5
  have hgrp := digitGroups_blocks d l j1 j3
  rw [← e] at hgrp
  have hflat : (d :: l.map (·.2)).flatten = nsnOf n := by
    rw [← hgrp, ← k2]
    unfold digitGroups
    rw [fields_flatten]
  refine ⟨((str!" "), d) :: l, ?_, ?_, by simp; omega, hflat, fun alt => ?_⟩
  · rw [hfi, e]
    unfold inBlocks
    simp
  · intro x hx
    rcases List.mem_cons.1 hx with rfl | hx
    · exact ⟨(by unfold Gap; decide : Gap [32]), j1⟩
    · exact j3 x hx
  · have hdig : ∀ g ∈ d :: l.map (·.2), ∀ u ∈ g, isDig u = true := fun g hg u hu =>
      nsnOf_isDig n u (by rw [← hflat]; exact List.mem_flatten.2 ⟨g, hg, hu⟩)
    refine .usual (ext := []) (by simp) (fun g hg => ?_) ?_ (.inl rfl)
    · constructor <;> intro h <;> have := hdig g hg _ h <;> revert this <;> decide
    · rw [hfr, k6, hgrp, decInt_nonneg (by omega), List.append_nil]
      rfl

/-- The INTERNATIONAL form of a valid number is found at every leniency level. -/
theorem C86_international (n : PhoneNumber) (hv : isValidNumber Data.container n = .ok true) (h0 : n.nn ≠ 0) (hex : ¬ Ambiguous n) (hext : n.ext = [])
    (alt : List Metadata) (lev : Leniency) (a b region : Str) (ha : NoStart a) (hb : NoDigit b) (hafter : ∀ u, b.head? = some u → ¬ Sticky u)
    (maxTries : Int) (hk : 0 < maxTries) :
    ∃ m c, Finder.findNumbers ⟨Data.container, alt, a ++ (format Data.container n .international ++ b), region, lev⟩ maxTries = .ok ([m], c) ∧
      m.start (a ++ (format Data.container n .international ++ b)) = blen a ∧ m.raw = format Data.container n .international ∧
      m.number.cc = n.cc ∧ nsnOf m.number = nsnOf n := by
  obtain ⟨hcc, h2, h17, hla⟩ := valid_leftAlone n hv hex
  obtain ⟨l, hf, h1, h3, h4, h5⟩ := international_blocks n hcc h0 hext h17
  rw [hf]
  exact C86_written n hv h0 hex hext l h1 h3 h4 alt lev (.inr (.inr (h5 alt))) a b region ha hb hafter maxTries hk

/-! ## Cases -/

/-- A number in London. -/
def london : PhoneNumber := { countryCode := some 44, nationalNumber := some 2087654321 }

example : isValidNumber Data.container london = .ok true ∧ london.nn ≠ 0 ∧ ¬ Ambiguous london ∧ london.ext = [] :=
  ⟨by kernel_rfl, by decide, by decide +kernel, rfl⟩

example : format Data.container london .international = str!"+44 20 8765 4321" := by kernel_rfl

/-- Blocks that are not the groups are found at VALID, but not at STRICT_GROUPING. -/
example : inBlocks london [((str!" "), (str!"208765")), ((str!" - "), (str!"4321"))] = str!"+44 208765 - 4321" := by decide

noncomputable def C86_case (lev : Leniency) : Finder := ⟨Data.container, Data.alt, (str!"Tel. +44 208765 - 4321."), (str!"US"), lev⟩

example : (((C86_case .valid).findNumbers 9).toOption.map fun r => r.1.map fun m => (m.at_, m.raw)) = some [(5, (str!"+44 208765 - 4321"))] ∧
    (((C86_case .strictGrouping).findNumbers 9).toOption.map fun r => r.1.map fun m => (m.at_, m.raw)) = some [] := by
  constructor <;> kernel_rfl

end Verif.Props
