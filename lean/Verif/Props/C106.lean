import Verif.Lemmas.ExtBlocks
/-!
# C106: a number written with an extension is found in a text, with its extension
-/
namespace Verif.Props
open Spec

/-- As in C64, a number as people write it is found at its place, and nothing else, when an extension follows it: after one of 26
labels, with as many digits as the label allows.  The text after it must in addition not begin with `#`, which can end an
extension. -/
theorem C106_written (F : Finder) (plus : Bool) (a s ext b : Str) (n : PhoneNumber) (ht : F.text = a ++ (s ++ b)) (ha : NoStart a)
    (hs : WithExtension plus s ext) (hb : NoDigit b) (hh : b.head? ≠ some '#'.toNat)
    (hafter : F.leniency ≠ .possible → ∀ u, b.head? = some u → ¬ Sticky u)
    (hbefore : F.leniency ≠ .possible → plus = false → ∀ u, a.getLast? = some u → ¬ Sticky u)
    (hp : parseKeepRaw F.C s F.region = .ok (none, n)) (hv : F.leniency.verify F.C F.alt n s = .ok true) (maxTries : Int)
    (hk : 0 < maxTries) :
    ∃ m c, F.findNumbers maxTries = .ok ([m], c) ∧ m.start F.text = blen a ∧ m.raw = s ∧ m.number = Spec.Plain n := by
  have h0 : s ≠ [] := by
    obtain ⟨w, x, rfl, -, -, he, -⟩ := hs
    have := List.length_pos_iff.1 he
    simp [this]
  have h43 : plus = true → ∃ t, s = 43 :: t := by
    rintro rfl
    obtain ⟨w, x, rfl, ⟨d, l, rfl, -⟩, -⟩ := hs
    exact ⟨_, rfl⟩
  obtain ⟨c, h⟩ := Finder.findNumbers_piece ht ha h0 (ext_chars hs) h43 (fun p => matchAt_ext hs ⟨b, [], by simp, hb, by simp⟩ hh p) hb
    (fun h => ⟨hafter h, hbefore h⟩) hp hv maxTries hk
  refine ⟨_, c, h, ?_, rfl, rfl⟩
  simp only [FoundNumber.start, ht, List.take_left]

theorem formatLabels_ok : ∀ x ∈ formatLabels, x ∈ extLabels := by decide

/-- As in C86, a valid number written with plus sign and country code, its digits in blocks, and then its extension after one of the
labels that formatting writes, is found by a search for every region at levels POSSIBLE and VALID, and at STRICT_GROUPING and
EXACT_GROUPING if the blocks are the groups of the number.  The number found has the same country code, national significant number and
extension. -/
theorem C106_blocks (n : PhoneNumber) (hv : isValidNumber Data.container n = .ok true) (h0 : n.nn ≠ 0) (hex : ¬ Ambiguous n)
    (x : Str × Nat) (hx : x ∈ formatLabels) (he1 : 1 ≤ n.ext.length) (he2 : n.ext.length ≤ x.2) (he3 : ∀ u ∈ n.ext, '0'.toNat ≤ u ∧ u ≤ '9'.toNat)
    (l : List (Str × Str)) (hl : ∀ x ∈ l, Gap x.1 ∧ Block x.2) (hl20 : l.length ≤ 20) (hflat : (l.map (·.2)).flatten = nsnOf n)
    (alt : List Metadata) (lev : Leniency) (hgr : lev = .possible ∨ lev = .valid ∨ Grouping Data.container alt n (l.map (·.2)))
    (a b region : Str) (ha : NoStart a) (hb : NoDigit b) (hh : b.head? ≠ some '#'.toNat) (hafter : ∀ u, b.head? = some u → ¬ Sticky u)
    (maxTries : Int) (hk : 0 < maxTries) :
    ∃ m c, Finder.findNumbers ⟨Data.container, alt, a ++ ((inBlocks n l ++ (x.1 ++ n.ext)) ++ b), region, lev⟩ maxTries = .ok ([m], c) ∧
      m.start (a ++ ((inBlocks n l ++ (x.1 ++ n.ext)) ++ b)) = blen a ∧ m.raw = inBlocks n l ++ (x.1 ++ n.ext) ∧ m.number.cc = n.cc ∧
      nsnOf m.number = nsnOf n ∧ m.number.ext = n.ext := by
  have he3' : ∀ u ∈ n.ext, isDig u = true := fun u hu => by
    have := he3 u hu
    rw [show '0'.toNat = 48 from rfl, show '9'.toNat = 57 from rfl] at this
    simpa [isDig] using this
  obtain ⟨pn, hw, hp, hver, e1, hnsn, e3⟩ := blocks_ext_mention n hv h0 hex x (formatLabels_ok x hx) he1 he2 he3' l hl hl20 hflat alt lev hgr region
  obtain ⟨m, c, hc, hst, hr, hn⟩ := C106_written ⟨Data.container, alt, a ++ ((inBlocks n l ++ (x.1 ++ n.ext)) ++ b), region, lev⟩ true a
    _ n.ext b pn rfl ha hw hb hh (fun _ => hafter) (fun _ h => by cases h) hp hver maxTries hk
  exact ⟨m, c, hc, hst, hr, by rw [hn]; exact e1, by rw [hn]; exact hnsn, by rw [hn]; exact e3⟩

/-- The INTERNATIONAL form of a number with an extension is its digits in its groups, a label and the extension. -/
theorem international_blocks_ext (n : PhoneNumber) (hcc : Data.container.hasCC n.cc = true) (h0 : n.nn ≠ 0) (hext : n.ext ≠ [])
    (h17 : (nsnOf n).length ≤ 17) : ∃ l, ∃ x ∈ formatLabels, 9 ≤ x.2 ∧
      format Data.container n .international = inBlocks n l ++ (x.1 ++ n.ext) ∧ (∀ x ∈ l, Gap x.1 ∧ Block x.2) ∧ l.length ≤ 20 ∧
      (l.map (·.2)).flatten = nsnOf n ∧ ∀ alt, Grouping Data.container alt n (l.map (·.2)) := by
  obtain ⟨m, hm, -⟩ := main_meta built_shipped Data.wf_tables hcc
  have hmem := Container.metaFor_mem hm
  have hne : nsnOf n ≠ [] := by rw [nsnOf_eq]; simp [dec_ne_nil]
  have hpos := (prefixFree_spec prefixFree_shipped hcc).1
  have hraw : ¬ (n.nn = 0 ∧ n.raw ≠ []) := fun h => h0 h.1
  have hends := List.all_eq_true.1 wf_intlEnds m hmem
  obtain ⟨k1, k2, k3, k4, k5, k6⟩ := formatNsn_blocks m (List.all_eq_true.1 wf_layout m hmem) (List.all_eq_true.1 Data.wf_intlFormats m hmem)
    (List.all_eq_true.1 Data.wf_intlLiterals m hmem) hends (List.all_eq_true.1 wf_intlSpaced m hmem)
    (nsnOf n) (nsnOf_isDig n) hne
  obtain ⟨x, hx, hx9, hxe⟩ : ∃ x ∈ formatLabels, 9 ≤ x.2 ∧
      (if m.preferredExtnPrefix ≠ [] then m.preferredExtnPrefix else str!" ext. ") = x.1 := by
    simp only [intlEndsOk, Bool.and_eq_true, decide_eq_true_eq] at hends
    have key : ∀ p ∈ [[], (str!" x"), (str!" Anexo "), (str!" int "), (str!"#"), (str!" int. ")],
      ∃ x ∈ formatLabels, 9 ≤ x.2 ∧ (if p ≠ [] then p else str!" ext. ") = x.1 := by decide
    exact key _ hends.2
  have hfi : format Data.container n .international =
      (str!"+" ++ (decimal n.cc.toNat ++ 32 :: formatNsn (nsnOf n) (some m) .international [])) ++ (x.1 ++ n.ext) := by
    simp only [format, if_neg hraw, formatCore, reduceCtorEq, if_false, hcc, Bool.not_true, Bool.false_eq_true, hm, prefixWithCC,
      appendExtension, decInt_nonneg (show 0 ≤ n.cc by omega), hext, hxe]
    simp
  have hfr : format Data.container n .rfc3966 =
      str!"tel:+" ++ decimal n.cc.toNat ++ str!"-" ++ formatNsn (nsnOf n) (some m) .rfc3966 [] ++ (str!";ext=" ++ n.ext) := by
    simp only [format, if_neg hraw, formatCore, reduceCtorEq, if_false, hcc, Bool.not_true, Bool.false_eq_true, hm, prefixWithCC,
      appendExtension, decInt_nonneg (show 0 ≤ n.cc by omega), hext, if_true]
    simp
  generalize formatNsn (nsnOf n) (some m) .international [] = body at k1 k2 k3 k4 k5 k6 hfi
  obtain ⟨d, l, e, j1, j2, j3⟩ := blocks_of body.length body (Nat.le_refl _) k1 (by rw [k2]; omega) k3 k4 k5
  have hgrp := digitGroups_blocks d l j1 j3
  rw [← e] at hgrp
  have hflat : (d :: l.map (·.2)).flatten = nsnOf n := by
    rw [← hgrp, ← k2]
    unfold digitGroups
    rw [fields_flatten]
  refine ⟨((str!" "), d) :: l, x, hx, hx9, ?_, ?_, by simp; omega, hflat, fun alt => ?_⟩
  · rw [hfi, e]
    unfold inBlocks
    simp
  · intro x hx
    rcases List.mem_cons.1 hx with rfl | hx
    · exact ⟨(by unfold Gap; decide : Gap [32]), j1⟩
    · exact j3 x hx
  · have hdig : ∀ g ∈ d :: l.map (·.2), ∀ u ∈ g, isDig u = true := fun g hg u hu =>
      nsnOf_isDig n u (by rw [← hflat]; exact List.mem_flatten.2 ⟨g, hg, hu⟩)
    refine .usual (ext := str!";ext=" ++ n.ext) (by simp) (fun g hg => ?_) ?_ (.inr rfl)
    · constructor <;> intro h <;> have := hdig g hg _ h <;> revert this <;> decide
    · rw [hfr, k6, hgrp, decInt_nonneg (by omega)]
      rfl

/-- The INTERNATIONAL form of a valid number with an extension of up to nine digits is found at every leniency level, with the
extension. -/
theorem C106_international (n : PhoneNumber) (hv : isValidNumber Data.container n = .ok true) (h0 : n.nn ≠ 0) (hex : ¬ Ambiguous n)
    (hext : ShortExt n 9) (hne : n.ext ≠ [])
    (alt : List Metadata) (lev : Leniency) (a b region : Str) (ha : NoStart a) (hb : NoDigit b) (hh : b.head? ≠ some '#'.toNat)
    (hafter : ∀ u, b.head? = some u → ¬ Sticky u) (maxTries : Int) (hk : 0 < maxTries) :
    ∃ m c, Finder.findNumbers ⟨Data.container, alt, a ++ (format Data.container n .international ++ b), region, lev⟩ maxTries = .ok ([m], c) ∧
      m.start (a ++ (format Data.container n .international ++ b)) = blen a ∧ m.raw = format Data.container n .international ∧
      m.number.cc = n.cc ∧ nsnOf m.number = nsnOf n ∧ m.number.ext = n.ext := by
  obtain ⟨hcc, h2, h17, hla⟩ := valid_leftAlone n hv hex
  obtain ⟨l, x, hx, hx9, hf, h1, h3, h4, h5⟩ := international_blocks_ext n hcc h0 hne h17
  rw [hf]
  exact C106_blocks n hv h0 hex x hx (List.length_pos_iff.2 hne) (Nat.le_trans hext.1 hx9) hext.2 l h1 h3 h4 alt lev (.inr (.inr (h5 alt))) a b
    region ha hb hh hafter maxTries hk

/-! ## Cases -/

/-- The number of an office in London, with an extension. -/
def officeExt : PhoneNumber := { countryCode := some 44, nationalNumber := some 2087654321, extension := some (str!"456") }

example : isValidNumber Data.container officeExt = .ok true ∧ officeExt.nn ≠ 0 ∧ ¬ Ambiguous officeExt ∧ ShortExt officeExt 9 ∧ officeExt.ext ≠ [] :=
  ⟨by kernel_rfl, by decide, by decide +kernel, by unfold ShortExt; decide, by decide⟩

example : format Data.container officeExt .international = str!"+44 20 8765 4321 x456" := by kernel_rfl

example : WithExtension false (str!"650-253 0000, ext. 12") (str!"12") :=
  ⟨(str!"650-253 0000"), ((str!", ext. "), 20), by decide,
    ⟨(str!"650"), [((str!"-"), (str!"253")), ((str!" "), (str!"0000"))], by decide, by unfold Block; decide, by decide, by unfold Gap Block; decide⟩,
    by decide, by decide, by decide, by decide⟩

noncomputable def C106_case (lev : Leniency) (text : Str) : Finder := ⟨Data.container, Data.alt, text, (str!"US"), lev⟩

example : (((C106_case .exactGrouping (str!"Tel. +44 20 8765 4321 ext. 456, London")).findNumbers 9).toOption.map fun r =>
    r.1.map fun m => (m.at_, m.raw, m.number.ext)) = some [(5, (str!"+44 20 8765 4321 ext. 456"), (str!"456"))] := by kernel_rfl

example : (((C106_case .valid (str!"Call 650-253 0000, ext. 12!")).findNumbers 9).toOption.map fun r =>
    r.1.map fun m => (m.at_, m.raw, m.number.ext)) = some [(5, (str!"650-253 0000, ext. 12"), (str!"12"))] := by kernel_rfl

end Verif.Props
