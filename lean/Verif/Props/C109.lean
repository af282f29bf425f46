import Verif.Lemmas.LocalBlocks
import Verif.Lemmas.RuleAlign
import Verif.Props.C107
/-!
# C109: the NATIONAL form of a number at the levels that look at groups
-/
namespace Verif.Props
open Spec

/-- The parsed number has no country code written. -/
theorem national_src (n : PhoneNumber) (r : Str) (hv : isValidForRegion Data.container n r = .ok true) (hr : r ≠ str!"001")
    (hu : r ∉ natUnsettled) (hex : ¬ NatAmbiguous n) (h0 : n.nn ≠ 0) (hext : ShortExt n 9) {pn : PhoneNumber}
    (hp : parseKeepRaw Data.container (format Data.container n .national) r = .ok (none, pn)) : pn.src = .defaultCountry := by
  have hraw : ¬ (n.nn = 0 ∧ n.raw ≠ []) := fun h => h0 h.1
  obtain ⟨junk, t, y, c, hfmt, hj, hsp, hy, -, -, h2, h17, hcore, -⟩ := national_core n r hv hr hu hex hraw hext
  have hp' := parseHelper_core Data.container (format Data.container n .national) r true true {}
  rw [hcore] at hp'
  simp only [Refines] at hp'
  have : parseKeepRaw Data.container (format Data.container n .national) r = _ := hp'
  rw [hp] at this
  simp only [Except.ok.injEq, Prod.mk.injEq, true_and] at this
  rw [this]
  rfl

/-- What a level asks of the NATIONAL form of a number: POSSIBLE and VALID nothing more, STRICT_GROUPING that no group is split, and
EXACT_GROUPING that its blocks of digits are the groups. -/
def NatLevel (alt : List Metadata) (n : PhoneNumber) : Leniency → Prop
  | .possible => True
  | .valid => True
  | .strictGrouping => ∃ gs, Grouping Data.container alt n gs ∧ KeptTogether Data.container n gs (format Data.container n .national)
  | .exactGrouping => ∃ gs, Grouping Data.container alt n gs ∧ ExactlyGrouped n gs (format Data.container n .national)

/-- The NATIONAL form has no slash, and its digits are ASCII. -/
theorem national_chars (n : PhoneNumber) (r : Str) (hv : isValidForRegion Data.container n r = .ok true) (hr : r ≠ str!"001")
    (hu : r ∉ natUnsettled) (hex : ¬ NatAmbiguous n) (h0 : n.nn ≠ 0) (hext : ShortExt n 9) :
    ∀ u ∈ format Data.container n .national, u ≠ 47 ∧ (isDig u = true ∨ ((∀ v, ¬ UnicodeDigit (rune u) v) ∧ rune u = u)) := by
  have hloc : ∀ {lead : Bool} {s : Str}, WrittenLocally lead s → ∀ u ∈ s, u ≠ 47 ∧ (isDig u = true ∨ ((∀ v, ¬ UnicodeDigit (rune u) v) ∧ rune u = u)) := by
    intro lead s hw u hu
    rcases local_mem hw u hu with h | h
    · exact ⟨by intro h'; rw [h'] at h; revert h; decide, .inl h⟩
    · have : ∀ u ∈ (str!" -.()"), u ≠ 47 ∧ charDigit (rune u) = none ∧ rune u = u := by decide +kernel
      obtain ⟨a, b, c⟩ := this u h
      exact ⟨a, .inr ⟨(charDigit_none_iff _).1 b, c⟩⟩
  have hraw : ¬ (n.nn = 0 ∧ n.raw ≠ []) := fun h => h0 h.1
  by_cases hne : n.ext = []
  · obtain ⟨⟨lead, hw⟩, -⟩ := national_local n r hv hr hu hex hraw hne
    exact hloc hw
  · obtain ⟨-, m0, M0, rs, -, -, -, -, hmem, -, -, -⟩ := validFor_parts n r hv hr
    obtain ⟨x, hx, hx9, hf⟩ := national_withExt n (regionsOf_hasCC hmem) h0 hne
    obtain ⟨⟨lead, hw⟩, -⟩ := national_local { n with extension := none } r hv hr hu hex hraw rfl
    have hlab := (extLabels_chars x (formatLabels_ok x hx)).2.1
    rw [hf]
    intro u hu
    rcases List.mem_append.1 hu with h | h
    · exact hloc hw u h
    · rcases List.mem_append.1 h with h | h
      · obtain ⟨-, a, b, c⟩ := hlab u h
        exact ⟨a, .inr ⟨(charDigit_none_iff _).1 b, c⟩⟩
      · have := hext.2 u h
        rw [show '0'.toNat = 48 from rfl, show '9'.toNat = 57 from rfl] at this
        exact ⟨by omega, .inl (by simpa [isDig] using this)⟩

/-- How the NATIONAL form of a number is written and parsed, and that the level accepts it. -/
theorem national_levels (n : PhoneNumber) (r : Str) (hv : isValidForRegion Data.container n r = .ok true) (hr : r ≠ str!"001")
    (hu : r ∉ natUnsettled) (hex : ¬ NatAmbiguous n) (h0 : n.nn ≠ 0) (hext : ShortExt n 9) (alt : List Metadata) (lev : Leniency)
    (hl : NatLevel alt n lev) :
    ∃ lead pn, Writes lead (format Data.container n .national) ∧
      parseKeepRaw Data.container (format Data.container n .national) r = .ok (none, pn) ∧
      lev.verify Data.container alt pn (format Data.container n .national) = .ok true ∧ pn.cc = n.cc ∧ nsnOf pn = nsnOf n ∧ pn.ext = n.ext := by
  have key : ∀ l : Leniency, (l = .possible ∨ l = .valid) → ∃ lead pn, Writes lead (format Data.container n .national) ∧
      parseKeepRaw Data.container (format Data.container n .national) r = .ok (none, pn) ∧
      l.verify Data.container alt pn (format Data.container n .national) = .ok true ∧ pn.cc = n.cc ∧ nsnOf pn = nsnOf n ∧ pn.ext = n.ext := by
    intro l hl
    obtain ⟨lead, pn, k1, k2, k3, k4, k5, k6, -⟩ := mixed_mention n .national r l ⟨h0, .inr (.inr ⟨rfl, hl, hv, hr, hu, hex, hext⟩)⟩ alt
    exact ⟨lead, pn, k1, k2, k3, k4, k5, by rw [k6]; rfl⟩
  have hchars := national_chars n r hv hr hu hex h0 hext
  have hsl : ∀ pn, SlashesOk pn (format Data.container n .national) := by
    intro pn
    left
    have e : '/'.toNat = 47 := rfl
    rw [e, List.count_eq_zero.2 (fun h => (hchars _ h).1 rfl)]
    omega
  have hasc := asciiDigits_same fun u hu => (hchars u hu).2
  have strictly : lev = .strictGrouping ∨ lev = .exactGrouping → ∃ lead pn, Writes lead (format Data.container n .national) ∧
      parseKeepRaw Data.container (format Data.container n .national) r = .ok (none, pn) ∧
      lev.verify Data.container alt pn (format Data.container n .national) = .ok true ∧ pn.cc = n.cc ∧ nsnOf pn = nsnOf n ∧ pn.ext = n.ext := by
    intro hlev
    obtain ⟨lead, pn, k1, k2, k3, k4, k5, k6⟩ := key .valid (.inr rfl)
    obtain ⟨v1, v2, v3⟩ := (C85_valid alt pn _).1 k3
    have hsrc := national_src n r hv hr hu hex h0 hext k2
    have e4 : pn.nn = n.nn := by
      have h1 := congrArg digVal k5
      rw [nsnOf_eq, nsnOf_eq, digVal_zeros, digVal_zeros, digVal_dec, digVal_dec] at h1
      exact h1
    have hpn0 : pn.nn ≠ 0 := by rw [e4]; exact h0
    refine ⟨lead, pn, k1, k2, ?_, k4, k5, k6⟩
    rcases hlev with rfl | rfl
    · obtain ⟨gs, hg, hk⟩ := hl
      have hlen : (decInt pn.cc).length ≤ (format Data.container n .national).length + 1 := by
        have hraw : ¬ (n.nn = 0 ∧ n.raw ≠ []) := fun h => h0 h.1
        obtain ⟨junk, t, y, c, hfmt, -, -, -, h3, -⟩ := national_core n r hv hr hu hex hraw hext
        obtain ⟨hc0, hc1000, -⟩ := prefixFree_spec prefixFree_shipped (valid_hasCC v1)
        rw [decInt_nonneg (by omega), ← dec_eq_decimal]
        have h4 : (dec pn.cc.toNat).length ≤ 3 := (length_dec_le (by omega)).2 (by omega)
        have h5 := List.length_filter_le isDig t
        rw [hfmt, List.length_append, List.length_append]
        omega
      refine (C85_strict alt pn _ hpn0 hlen).2 ⟨v1, v2, hsl pn, v3, gs, _, grouping_same k4 k5 k6 hpn0 h0 hg, hasc, _, by
        unfold AfterCode; rw [if_pos hsrc], ?_⟩
      unfold KeptTogether at hk ⊢
      rw [k4, k5, k6]
      exact hk
    · obtain ⟨gs, hg, hk⟩ := hl
      refine (C85_exact alt pn _ hpn0).2 ⟨v1, v2, hsl pn, v3, gs, _, grouping_same k4 k5 k6 hpn0 h0 hg, hasc, ?_⟩
      unfold ExactlyGrouped at hk ⊢
      rw [k5, k6]
      exact hk
  cases lev with
  | possible => exact key _ (.inl rfl)
  | valid => exact key _ (.inr rfl)
  | strictGrouping => exact strictly (.inl rfl)
  | exactGrouping => exact strictly (.inr rfl)

/-- The NATIONAL form of a number that is valid for a region, perhaps with an extension, is found by a search for this region in a text
without other digits at every level that accepts its grouping, and the number found has the same country code, national significant
number and extension. -/
theorem C109_found (n : PhoneNumber) (r : Str) (hv : isValidForRegion Data.container n r = .ok true) (hr : r ≠ str!"001")
    (hu : r ∉ natUnsettled) (hex : ¬ NatAmbiguous n) (h0 : n.nn ≠ 0) (hext : ShortExt n 9) (alt : List Metadata) (lev : Leniency)
    (hl : NatLevel alt n lev) (a b : Str) (ha : NoStart a) (hb : NoDigit b) (hafter : ∀ u, b.head? = some u → ¬ Sticky u ∧ u ≠ '#'.toNat)
    (hbefore : ∀ u, a.getLast? = some u → ¬ Sticky u) (maxTries : Int) (hk : 0 < maxTries) :
    ∃ m c, Finder.findNumbers ⟨Data.container, alt, a ++ (format Data.container n .national ++ b), r, lev⟩ maxTries = .ok ([m], c) ∧
      m.start (a ++ (format Data.container n .national ++ b)) = blen a ∧ m.raw = format Data.container n .national ∧ m.number.cc = n.cc ∧
      nsnOf m.number = nsnOf n ∧ m.number.ext = n.ext := by
  obtain ⟨lead, pn, hw, hp, hver, e1, hnsn, e4⟩ := national_levels n r hv hr hu hex h0 hext alt lev hl
  obtain ⟨ms, c, h1, h2⟩ := C107_all ⟨Data.container, alt, a ++ (format Data.container n .national ++ b), r, lev⟩
    [⟨a, lead, format Data.container n .national, pn⟩] b (by simp [textOf]) ⟨by simpa using ⟨ha, hw⟩, by simp⟩ hb
    ⟨by simp, fun h => (hafter _ h).2 rfl⟩ (fun _ => ⟨by simpa using fun _ => hbefore, by simp, fun u hu => (hafter u hu).1⟩) (by simpa using ⟨hp, hver⟩)
    maxTries hk
  simp only [expected, List.map_eq_cons_iff, List.map_eq_nil_iff] at h2
  obtain ⟨m, l, rfl, e, rfl⟩ := h2
  simp only [Prod.mk.injEq, Nat.zero_add] at e
  exact ⟨m, c, h1, e.1, e.2.1, by rw [e.2.2]; exact e1, by rw [e.2.2]; exact hnsn, by rw [e.2.2]; exact e4⟩

/-! ## Numbers whose NATIONAL form is grouped as they are elsewhere -/

/-- The shipped metadata passes the static check. -/
theorem exactsOk_shipped : exactsOk Data.container natUnsettled = true := by
  simp only [exactsOk, mapGet_str]
  kernel_rfl

/-- The rules for the NATIONAL form and for the INTERNATIONAL form divide the number in the same way: if there is one for the former, then
there is one for the latter, and both have the same pattern. -/
def SamePattern (n : PhoneNumber) : Prop :=
  ∀ M, Data.container.metaFor n.cc (Data.container.mainRegion n.cc) = some M → ∀ p, Chosen M.formats (nsnOf n) (some p) →
    ∃ q, Chosen (rulesFor M .international) (nsnOf n) (some q) ∧ q.pattern = p.pattern

theorem digitGroups_sep (a t : Str) (u : Nat) (hu : isDig u = false) : digitGroups (a ++ u :: t) = digitGroups a ++ digitGroups t := by
  have key : ∀ (a cur : Str), fieldsAux isDig (a ++ u :: t) cur = fieldsAux isDig a cur ++ fieldsAux isDig t [] := by
    intro a
    induction a with
    | nil => intro cur; simp [fieldsAux, hu]
    | cons v a ih =>
      intro cur
      simp only [List.cons_append, fieldsAux]
      split
      · exact ih _
      · rw [ih, List.append_assoc]
  exact key a []

theorem digitGroups_digits {s : Str} (hs : ∀ u ∈ s, isDig u = true) (hne : s ≠ []) : digitGroups s = [s] := by
  unfold digitGroups fields
  have := fieldsAux_run isDig s [] [] hs
  rw [List.append_nil] at this
  rw [this]
  simp [fieldsAux, hne]

theorem blocks_lead {s : Str} (h : digitGroups s ≠ []) : ∃ lead, blocks s = lead ++ digitGroups s := by
  unfold blocks
  rw [if_neg h]
  exact ⟨_, rfl⟩

/-- The blocks of digits of the two forms. -/
theorem national_fits (n : PhoneNumber) (r : Str) (hv : isValidForRegion Data.container n r = .ok true) (hr : r ≠ str!"001")
    (hu : r ∉ natUnsettled) (hs : SamePattern n) {M : Metadata} (hM : Data.container.metaFor n.cc (Data.container.mainRegion n.cc) = some M) :
    (digitGroups (formatNsn (nsnOf n) (some M) .national []) = [nsnOf n] ∧ formatNsn (nsnOf n) (some M) .national [] = nsnOf n) ∨
    ∃ g rest pre c, digitGroups (formatNsn (nsnOf n) (some M) .international []) = g :: rest ∧
      digitGroups (formatNsn (nsnOf n) (some M) .national []) = pre ++ c :: rest ∧ g <:+ c := by
  obtain ⟨hval, m, M', rs, hm, hm', hmc, hk, hmem, hrs, hM1, hM'⟩ := validFor_parts n r hv hr
  rw [hM] at hM1
  cases hM1
  have hentry := regionsOf_entry hmem
  have hdig := nsnOf_isDig n
  have hne : nsnOf n ≠ [] := by rw [nsnOf_eq]; simp [dec_ne_nil]
  have hloc := List.all_eq_true.1 localsOk_shipped _ hentry
  rw [hrs] at hloc
  simp only [hM', Bool.and_eq_true, List.all_eq_true] at hloc
  have hexa := List.all_eq_true.1 exactsOk_shipped _ hentry
  dsimp only at hexa
  rw [hrs] at hexa
  simp only [hM', Bool.or_eq_true] at hexa
  have hexa : ∀ p ∈ M.formats, ∀ q ∈ (if M.intlFormats.isEmpty then M.formats else M.intlFormats), p.pattern.src = q.pattern.src →
      blocksFit (template p .national []) q.format = true := by
    rcases hexa with h | h
    · rw [List.all_eq_true] at h
      have := h r (by rw [← hrs]; exact hmem)
      exact absurd (by simpa using this) hu
    · intro p hp q hq e
      have h := List.all_eq_true.1 (List.all_eq_true.1 h p hp) q hq
      simpa [e] using h
  have hlay := List.all_eq_true.1 wf_layout M (Container.metaFor_mem hM)
  simp only [layoutOk, Bool.and_eq_true, List.all_eq_true] at hlay
  have hi : (if M.intlFormats = [] ∨ Fmt.international = .national then M.formats else M.intlFormats) = rulesFor M .international := by
    simp [rulesFor]
  have hi' : (if M.intlFormats.isEmpty then M.formats else M.intlFormats) = rulesFor M .international := by
    simp [rulesFor]
  have hlayi : ∀ q ∈ rulesFor M .international, layoutRuleOk q = true := by
    intro q hq
    unfold rulesFor at hq
    split at hq
    · exact hlay.1 q hq
    · exact hlay.2 q hq
  rw [hi'] at hexa
  have hch := chooseFormat_chosen (s := nsnOf n) hlay.1 hdig
  have hchi := chooseFormat_chosen (s := nsnOf n) hlayi hdig
  unfold formatNsn
  dsimp only
  rw [hi]
  simp only [or_true, if_true]
  cases hc : chooseFormat M.formats (nsnOf n) with
  | none => exact .inl ⟨digitGroups_digits hdig hne, rfl⟩
  | some p =>
    right
    rw [hc] at hch
    obtain ⟨q, hq, hpq⟩ := hs M hM p hch
    have hcq := chosen_unique hchi hq
    rw [hcq]
    dsimp only
    have hap : Applies p (nsnOf n) := by
      cases hch with
      | some _ k _ => exact k
    have haq : Applies q (nsnOf n) := by
      cases hq with
      | some _ k _ => exact k
    have h4 := (chooseFormat_acc _ _ _ hc).1
    have h4q := (chooseFormat_acc _ _ _ hcq).1
    obtain ⟨gs, hg, he⟩ := formatNsnUsingPattern_eq (hlay.1 p h4) hdig hap .national (carrier := []) (by simp)
    obtain ⟨gs', hg', he'⟩ := formatNsnUsingPattern_eq (hlayi q h4q) hdig haq .international (carrier := []) (by simp)
    rw [hpq, hg] at hg'
    cases hg'
    have htq : template q .international [] = q.format := by simp [template]
    rw [he, he', htq]
    simp only [tidy, reduceCtorEq, if_false]
    have hleast : least gs ≤ (nsnOf n).length := by
      obtain ⟨⟨gs', hg', h1, -⟩, -⟩ := hap
      rw [hg] at hg'
      cases hg'
      exact h1
    have k1 : ∀ g ∈ gs, 1 ≤ g.1 ∧ 1 ≤ g.2 := by
      have h := hloc.1 p h4
      simp only [localRuleOk, hg, Bool.and_eq_true, List.all_eq_true, Nat.ble_eq] at h
      exact h.1.1.1
    have ht : templateOk gs.length (template p .national []) = true := by
      have hp := hlay.1 p h4
      simp only [layoutRuleOk, hg, Bool.and_eq_true] at hp
      obtain ⟨⟨⟨-, q1⟩, q2⟩, -⟩ := hp
      unfold template
      rw [if_neg (by simp)]
      split
      · exact templateOk_putRule q1 q2
      · exact q1
    have ht' : templateOk gs.length q.format = true := by
      have hp := hlayi q h4q
      simp only [layoutRuleOk, hpq, hg, Bool.and_eq_true] at hp
      exact hp.1.1.2
    exact blocksFit_spec (cut_length gs _) (cut_groups k1 hdig hleast) ht ht' (hexa p h4 q h4q (by rw [hpq]))

/-- The groups of the number and the blocks of its NATIONAL form. -/
theorem national_groups (n : PhoneNumber) (r : Str) (hv : isValidForRegion Data.container n r = .ok true) (hr : r ≠ str!"001")
    (hu : r ∉ natUnsettled) (h0 : n.nn ≠ 0) (hext : ShortExt n 9) (hs : SamePattern n) (alt : List Metadata) :
    ∃ gs bs, Grouping Data.container alt n gs ∧ gs ≠ [] ∧ gs.flatten = nsnOf n ∧ (∀ g ∈ gs, g ≠ []) ∧
      digitGroups (format Data.container n .national) = bs ++ (if n.ext = [] then [] else [n.ext]) ∧
      (bs = [nsnOf n] ∧ (∃ y, format Data.container n .national = nsnOf n ++ (y ++ n.ext)) ∨ ∃ g rest pre c, gs = g :: rest ∧ bs = pre ++ c :: rest ∧ g <:+ c) := by
  obtain ⟨hval, m, M, rs, hm, hm', hmc, hk, hmem, hrs, hM, hM'⟩ := validFor_parts n r hv hr
  have hcc := regionsOf_hasCC hmem
  have hMm := Container.metaFor_mem hM
  have hraw : ¬ (n.nn = 0 ∧ n.raw ≠ []) := fun h => h0 h.1
  have hpos := (prefixFree_spec prefixFree_shipped hcc).1
  have hne : nsnOf n ≠ [] := by rw [nsnOf_eq]; simp [dec_ne_nil]
  have hfits := national_fits n r hv hr hu hs hM
  obtain ⟨k1, k2, k3, ⟨u, t, k4, k4'⟩, k5, k6⟩ := formatNsn_blocks M (List.all_eq_true.1 wf_layout M hMm) (List.all_eq_true.1 Data.wf_intlFormats M hMm)
    (List.all_eq_true.1 Data.wf_intlLiterals M hMm) (List.all_eq_true.1 wf_intlEnds M hMm) (List.all_eq_true.1 wf_intlSpaced M hMm)
    (nsnOf n) (nsnOf_isDig n) hne
  have hflat : (digitGroups (formatNsn (nsnOf n) (some M) .international [])).flatten = nsnOf n := by
    unfold digitGroups
    rw [fields_flatten]
    exact k2
  have hgne : digitGroups (formatNsn (nsnOf n) (some M) .international []) ≠ [] := by
    intro h
    rw [h] at hflat
    exact hne hflat.symm
  have hdig : ∀ g ∈ digitGroups (formatNsn (nsnOf n) (some M) .international []), ∀ u ∈ g, isDig u = true := fun g hg u hu =>
    nsnOf_isDig n u (by rw [← hflat]; exact List.mem_flatten.2 ⟨g, hg, hu⟩)
  have hgr : Grouping Data.container alt n (digitGroups (formatNsn (nsnOf n) (some M) .international [])) := by
    have hfr : format Data.container n .rfc3966 =
        str!"tel:+" ++ decInt n.cc ++ str!"-" ++ formatNsn (nsnOf n) (some M) .rfc3966 [] ++ (if n.ext = [] then [] else str!";ext=" ++ n.ext) := by
      simp only [format, if_neg hraw, formatCore, reduceCtorEq, if_false, hcc, Bool.not_true, Bool.false_eq_true, hM, prefixWithCC,
        appendExtension, if_true]
      split <;> simp
    refine .usual (ext := if n.ext = [] then [] else str!";ext=" ++ n.ext) hgne (fun g hg => ?_) ?_ ?_
    · constructor <;> intro h <;> have := hdig g hg _ h <;> revert this <;> decide
    · rw [hfr, k6]
    · split
      · exact .inl rfl
      · exact .inr rfl
  by_cases hnx : n.ext = []
  · have hfmt : format Data.container n .national = formatNsn (nsnOf n) (some M) .national [] := by
      simp only [format, if_neg hraw, formatCore, reduceCtorEq, if_false, hcc, Bool.not_true, Bool.false_eq_true, hM, prefixWithCC,
        appendExtension, hnx]
      simp
    refine ⟨_, _, hgr, hgne, hflat, fields_ne_nil _ _, by rw [hfmt, if_pos hnx, List.append_nil], ?_⟩
    rcases hfits with ⟨h, h'⟩ | h
    · exact .inl ⟨h, [], by rw [hfmt, h', hnx]; simp⟩
    · exact .inr h
  · obtain ⟨x, hx, hx9, hf⟩ := national_withExt n hcc h0 hnx
    have he3 : ∀ u ∈ n.ext, isDig u = true := fun u hu => by
      have := hext.2 u hu
      rw [show '0'.toNat = 48 from rfl, show '9'.toNat = 57 from rfl] at this
      simpa [isDig] using this
    have hfmt : format Data.container { n with extension := none } .national = formatNsn (nsnOf n) (some M) .national [] := by
      have hraw' : ¬ (({ n with extension := none } : PhoneNumber).nn = 0 ∧ ({ n with extension := none } : PhoneNumber).raw ≠ []) := hraw
      have hcc' : Data.container.hasCC ({ n with extension := none } : PhoneNumber).cc = true := hcc
      have hm' : Data.container.metaFor ({ n with extension := none } : PhoneNumber).cc
          (Data.container.mainRegion ({ n with extension := none } : PhoneNumber).cc) = some M := hM
      simp only [format, if_neg hraw', formatCore, reduceCtorEq, if_false, hcc', Bool.not_true, Bool.false_eq_true, hm', prefixWithCC,
        appendExtension]
      rfl
    rw [hfmt] at hf
    obtain ⟨f1, f2, -⟩ := extLabels_facts x (formatLabels_ok x hx)
    have hdg : digitGroups (format Data.container n .national) = digitGroups (formatNsn (nsnOf n) (some M) .national []) ++ [n.ext] := by
      rw [hf]
      have : ∀ (l : Str), l ≠ [] → (∀ u ∈ l, isDig u = false) → ∀ a, digitGroups (a ++ (l ++ n.ext)) = digitGroups a ++ [n.ext] := by
        intro l hl0 hl a
        cases l with
        | nil => exact absurd rfl hl0
        | cons v l =>
          rw [List.cons_append, digitGroups_sep a (l ++ n.ext) v (hl v (by simp))]
          unfold digitGroups fields
          rw [fieldsAux_skip isDig l n.ext fun u hu => hl u (by simp [hu])]
          exact congrArg _ (digitGroups_digits he3 hnx)
      exact this x.1 f1 (fun u hu => (f2 u hu).1) _
    refine ⟨_, _, hgr, hgne, hflat, fields_ne_nil _ _, by rw [hdg, if_neg hnx], ?_⟩
    rcases hfits with ⟨h, h'⟩ | h
    · exact .inl ⟨h, x.1, by rw [hf, h']⟩
    · exact .inr h

/-- Under the shipped metadata the NATIONAL form of such a number has its blocks as EXACT_GROUPING asks for. -/
theorem C109_grouped (n : PhoneNumber) (r : Str) (hv : isValidForRegion Data.container n r = .ok true) (hr : r ≠ str!"001")
    (hu : r ∉ natUnsettled) (h0 : n.nn ≠ 0) (hext : ShortExt n 9) (hs : SamePattern n) (alt : List Metadata) : NatLevel alt n .exactGrouping := by
  obtain ⟨gs, bs, hgr, hgne, hflat, hgs, hdg, hfits⟩ := national_groups n r hv hr hu h0 hext hs alt
  refine ⟨gs, hgr, .inr ?_⟩
  have hne : digitGroups (format Data.container n .national) ≠ [] := by
    rw [hdg]
    rcases hfits with ⟨h, -⟩ | ⟨g, rest, pre, c, h1, h2, h3⟩
    · rw [h]; simp
    · rw [h2]; simp
  obtain ⟨lead, hlead⟩ := blocks_lead hne
  refine ⟨lead ++ bs, if n.ext = [] then [] else [n.ext], by rw [hlead, hdg, List.append_assoc], by split <;> rfl, ?_⟩
  rcases hfits with ⟨h, -⟩ | ⟨g, rest, pre, c, h1, h2, h3⟩
  · exact .inl ⟨lead, nsnOf n, by rw [h], List.infix_refl _⟩
  · exact .inr ⟨g, rest, lead ++ pre, c, h1, by rw [h2]; simp, h3⟩

/-- Under the shipped metadata the NATIONAL form of such a number is found at EXACT_GROUPING. -/
theorem C109_exact (n : PhoneNumber) (r : Str) (hv : isValidForRegion Data.container n r = .ok true) (hr : r ≠ str!"001")
    (hu : r ∉ natUnsettled) (hex : ¬ NatAmbiguous n) (h0 : n.nn ≠ 0) (hext : ShortExt n 9) (hs : SamePattern n) (alt : List Metadata)
    (a b : Str) (ha : NoStart a) (hb : NoDigit b) (hafter : ∀ u, b.head? = some u → ¬ Sticky u ∧ u ≠ '#'.toNat)
    (hbefore : ∀ u, a.getLast? = some u → ¬ Sticky u) (maxTries : Int) (hk : 0 < maxTries) :
    ∃ m c, Finder.findNumbers ⟨Data.container, alt, a ++ (format Data.container n .national ++ b), r, .exactGrouping⟩ maxTries = .ok ([m], c) ∧
      m.start (a ++ (format Data.container n .national ++ b)) = blen a ∧ m.raw = format Data.container n .national ∧ m.number.cc = n.cc ∧
      nsnOf m.number = nsnOf n ∧ m.number.ext = n.ext :=
  C109_found n r hv hr hu hex h0 hext alt .exactGrouping (C109_grouped n r hv hr hu h0 hext hs alt) a b ha hb hafter hbefore maxTries hk

/-- This is so for every number of a country without rules of its own for the INTERNATIONAL form. -/
theorem C109_noIntl (n : PhoneNumber)
    (h : ∀ M, Data.container.metaFor n.cc (Data.container.mainRegion n.cc) = some M → M.intlFormats = []) : SamePattern n := by
  intro M hM p hp
  refine ⟨p, ?_, rfl⟩
  have : rulesFor M .international = M.formats := by simp [rulesFor, h M hM]
  rw [this]
  exact hp

/-- In the shipped metadata the rules for INTERNATIONAL are some of those for NATIONAL, in the same order. -/
theorem align_shipped : Data.container.allMeta.all alignOk = true := by kernel_rfl

/-- The rule that is used for the number within its country is not withheld from the INTERNATIONAL form: the country has no rules of
its own for the latter, or one of them has the same pattern for the same leading digits. -/
def RuleShared (n : PhoneNumber) : Prop :=
  ∀ M, Data.container.metaFor n.cc (Data.container.mainRegion n.cc) = some M → ∀ p, Chosen M.formats (nsnOf n) (some p) →
    M.intlFormats = [] ∨ ∃ q ∈ M.intlFormats, q.pattern = p.pattern ∧ q.leadingDigits.getLast? = p.leadingDigits.getLast?

/-- Then the two forms divide the number in the same way. -/
theorem C109_shared (n : PhoneNumber) (h : RuleShared n) : SamePattern n := by
  intro M hM p hp
  rcases h M hM p hp with hi | hq
  · refine ⟨p, ?_, rfl⟩
    have : rulesFor M .international = M.formats := by simp [rulesFor, hi]
    rw [this]
    exact hp
  · have hne : M.intlFormats ≠ [] := by
      obtain ⟨q, hq, -⟩ := hq
      exact List.ne_nil_of_mem hq
    have : rulesFor M .international = M.intlFormats := by simp [rulesFor, hne]
    rw [this]
    exact chosen_aligned (List.all_eq_true.1 align_shipped M (Container.metaFor_mem hM)) hne hp hq

/-- A check for one number. -/
theorem ruleShared_of_check (n : PhoneNumber) (h : (Data.container.metaFor n.cc (Data.container.mainRegion n.cc)).all (fun M =>
    M.intlFormats.isEmpty || (chooseFormat M.formats (nsnOf n)).all fun p => M.intlFormats.any fun q => sameRule p q) = true) : RuleShared n := by
  intro M hM p hp
  rw [hM] at h
  simp only [Option.all_some, Bool.or_eq_true, List.isEmpty_iff] at h
  have hlay := List.all_eq_true.1 wf_layout M (Container.metaFor_mem hM)
  simp only [layoutOk, Bool.and_eq_true, List.all_eq_true] at hlay
  refine h.imp_right fun h => ?_
  rw [chosen_unique (chooseFormat_chosen hlay.1 (nsnOf_isDig n)) hp] at h
  obtain ⟨q, hq, hs⟩ := List.any_eq_true.1 (by simpa using h)
  obtain ⟨h1, h2⟩ := sameRule_iff.1 hs
  exact ⟨q, hq, h1.symm, h2.symm⟩

/-! ## STRICT_GROUPING -/

/-- A block of digits in the text. -/
theorem digitGroups_split (k : Nat) : ∀ (s : Str), s.length ≤ k → ∀ (pre : List Str) (c : Str) (rest : List Str),
    digitGroups s = pre ++ c :: rest → ∃ x y, s = x ++ (c ++ y) ∧ x.filter isDig = pre.flatten ∧ digitGroups y = rest ∧
      ∀ u, y.head? = some u → isDig u = false := by
  induction k with
  | zero =>
    intro s hs pre c rest h
    have : s = [] := List.length_eq_zero_iff.1 (by omega)
    subst this
    simp [digitGroups, fields, fieldsAux] at h
  | succ k ih =>
    intro s hs pre c rest h
    have hst := fields_step isDig s
    have hsplit : s.takeWhile (fun u => !isDig u) ++ s.dropWhile (fun u => !isDig u) = s := List.takeWhile_append_dropWhile
    have hjunk : (s.takeWhile (fun u => !isDig u)).filter isDig = [] := by
      rw [List.filter_eq_nil_iff]
      intro u hu
      have := mem_takeWhile_sat hu
      simpa using this
    unfold digitGroups at h
    rw [hst] at h
    cases hd : s.dropWhile (fun u => !isDig u) with
    | nil => rw [hd] at h; simp at h
    | cons u t =>
      rw [hd] at h hsplit
      have hu : isDig u = true := by
        have := List.head?_dropWhile_not (fun u => !isDig u) s
        rw [hd] at this
        simpa using this
      have h2 : (u :: t).takeWhile isDig ++ (u :: t).dropWhile isDig = u :: t := List.takeWhile_append_dropWhile
      have hlen : ((u :: t).dropWhile isDig).length ≤ k := by
        have e1 := congrArg List.length hsplit
        have e2 := congrArg List.length h2
        have e3 : 1 ≤ ((u :: t).takeWhile isDig).length := by simp [hu]
        simp only [List.length_append] at e1 e2
        omega
      dsimp only at h
      cases pre with
      | nil =>
        simp only [List.nil_append, List.cons.injEq] at h
        refine ⟨s.takeWhile (fun u => !isDig u), (u :: t).dropWhile isDig, ?_, by simpa using hjunk, h.2, ?_⟩
        · rw [← h.1, h2, hsplit]
        · intro v hv
          have := List.head?_dropWhile_not isDig (u :: t)
          rw [hv] at this
          simpa using this
      | cons p pre =>
        simp only [List.cons_append, List.cons.injEq] at h
        obtain ⟨x, y, k1, k2, k3, k4⟩ := ih _ hlen pre c rest h.2
        refine ⟨s.takeWhile (fun u => !isDig u) ++ ((u :: t).takeWhile isDig ++ x), y, ?_, ?_, k3, k4⟩
        · rw [List.append_assoc, List.append_assoc, ← k1, h2, hsplit]
        · rw [List.filter_append, List.filter_append, hjunk, k2, List.nil_append, h.1, List.flatten_cons]
          congr 1
          rw [List.filter_eq_self]
          intro v hv
          rw [← h.1] at hv
          exact mem_takeWhile_sat hv

/-- The digits written before the number itself, which are those of a national prefix, do not include the first digit of the number. -/
def PrefixApart (n : PhoneNumber) : Prop :=
  ∀ x, (format Data.container n .national).filter isDig = x ++ (nsnOf n ++ n.ext) → ∀ u, (nsnOf n).head? = some u → u ∉ x

theorem firstAt_apart {x g y : Str} (hg : g ≠ []) (h : ∀ u, g.head? = some u → u ∉ x) : FirstAt (x ++ (g ++ y)) g x y := by
  refine ⟨rfl, fun a' b' e => ?_⟩
  by_cases hl : x.length ≤ a'.length
  · exact hl
  · exfalso
    cases g with
    | nil => exact hg rfl
    | cons v g =>
      have h1 : (x ++ (v :: g ++ y))[a'.length]? = some v := by rw [e]; simp
      rw [List.getElem?_append_left (by omega)] at h1
      exact h v rfl (List.mem_of_getElem? h1)

theorem inOrder_groups (e : Str) : ∀ (gs : List Str) (y : Str) (more : List Str), digitGroups y = gs ++ more →
    (e = [] ∨ ∃ m, more = [e] ++ m) → InOrder e gs y := by
  intro gs
  induction gs with
  | nil =>
    intro y more h he
    rcases he with rfl | ⟨m, rfl⟩
    · exact ⟨[], y, by simp⟩
    · obtain ⟨x, z, h1, -⟩ := digitGroups_split y.length y (Nat.le_refl _) [] e m (by simpa using h)
      exact ⟨x, z, h1⟩
  | cons g gs ih =>
    intro y more h he
    obtain ⟨x, z, h1, -, h2, -⟩ := digitGroups_split y.length y (Nat.le_refl _) [] g (gs ++ more) (by simpa using h)
    exact ⟨x, z, h1, ih z more h2 he⟩

theorem inOrder_flatten {e y : Str} (h : InOrder e [] y) : ∀ gs : List Str, InOrder e gs (gs.flatten ++ y)
  | [] => by simpa using h
  | g :: gs => ⟨[], gs.flatten ++ y, by simp, inOrder_flatten h gs⟩

/-- Under the shipped metadata the NATIONAL form of such a number keeps its groups together as STRICT_GROUPING asks for. -/
theorem C109_kept (n : PhoneNumber) (r : Str) (hv : isValidForRegion Data.container n r = .ok true) (hr : r ≠ str!"001")
    (hu : r ∉ natUnsettled) (hex : ¬ NatAmbiguous n) (h0 : n.nn ≠ 0) (hext : ShortExt n 9) (hs : SamePattern n) (hp : PrefixApart n)
    (alt : List Metadata) : NatLevel alt n .strictGrouping := by
  obtain ⟨gs, bs, hgr, hgne, hflat, hgs, hdg, hfits⟩ := national_groups n r hv hr hu h0 hext hs alt
  refine ⟨gs, hgr, ?_⟩
  rcases hfits with ⟨-, y, hy⟩ | ⟨g, rest, pre, c, rfl, rfl, c', rfl⟩
  · cases gs with
    | nil => exact absurd rfl hgne
    | cons g rest =>
      rw [List.flatten_cons] at hflat
      refine ⟨g, rest, [], rest.flatten ++ (y ++ n.ext), rfl, ⟨by rw [hy, ← hflat]; simp, by simp⟩, fun _ => ⟨y ++ n.ext, by rw [← hflat]; simp⟩, fun _ => ?_⟩
      exact inOrder_flatten ⟨y, [], by simp⟩ rest
  · obtain ⟨x, y, k1, k2, k3, k4⟩ := digitGroups_split _ _ (Nat.le_refl _) pre (c' ++ g) (rest ++ (if n.ext = [] then [] else [n.ext])) (by
      rw [hdg]; simp)
    have hg0 := hgs g (by simp)
    have hE : (if n.ext = [] then [] else [n.ext] : List Str).flatten = n.ext := by
      split
      · next h => rw [h]; rfl
      · simp
    have hdigits : (format Data.container n .national).filter isDig = (pre.flatten ++ c') ++ (nsnOf n ++ n.ext) := by
      rw [← fields_flatten]
      rw [show fields isDig (format Data.container n .national) = digitGroups (format Data.container n .national) from rfl, hdg, ← hflat]
      simp only [List.flatten_append, List.flatten_cons, hE, List.append_assoc]
    have hap := hp _ hdigits
    have hhead : ∀ u, g.head? = some u → (nsnOf n).head? = some u ∧ isDig u = true := by
      intro u h
      cases g with
      | nil => exact absurd rfl hg0
      | cons v g =>
        have : v = u := by simpa using h
        subst this
        rw [List.flatten_cons] at hflat
        exact ⟨by rw [← hflat]; rfl, nsnOf_isDig n v (by rw [← hflat]; simp)⟩
    have hfirst : FirstAt (format Data.container n .national) g (x ++ c') y := by
      have := firstAt_apart (x := x ++ c') (y := y) hg0 fun u h hm => by
        obtain ⟨e1, e2⟩ := hhead u h
        refine hap u e1 ?_
        rw [← k2]
        rcases List.mem_append.1 hm with h | h
        · exact List.mem_append.2 (.inl (List.mem_filter.2 ⟨h, e2⟩))
        · exact List.mem_append.2 (.inr h)
      rw [k1]
      simpa using this
    refine ⟨g, rest, x ++ c', y, rfl, hfirst, fun h => ?_, fun _ => ?_⟩
    · obtain ⟨-, u, b', v, e, hd⟩ := h
      have h1 := k4 u (by rw [e]; rfl)
      rcases (national_chars n r hv hr hu hex h0 hext u (by rw [k1, e]; simp)).2 with h2 | ⟨h2, -⟩
      · rw [h1] at h2; cases h2
      · exact absurd hd (h2 v)
    · refine inOrder_groups n.ext rest y _ k3 ?_
      split
      · next h => exact .inl h
      · exact .inr ⟨[], rfl⟩

/-- Under the shipped metadata the NATIONAL form of such a number is found at STRICT_GROUPING. -/
theorem C109_strict (n : PhoneNumber) (r : Str) (hv : isValidForRegion Data.container n r = .ok true) (hr : r ≠ str!"001")
    (hu : r ∉ natUnsettled) (hex : ¬ NatAmbiguous n) (h0 : n.nn ≠ 0) (hext : ShortExt n 9) (hs : SamePattern n) (hp : PrefixApart n)
    (alt : List Metadata) (a b : Str) (ha : NoStart a) (hb : NoDigit b) (hafter : ∀ u, b.head? = some u → ¬ Sticky u ∧ u ≠ '#'.toNat)
    (hbefore : ∀ u, a.getLast? = some u → ¬ Sticky u) (maxTries : Int) (hk : 0 < maxTries) :
    ∃ m c, Finder.findNumbers ⟨Data.container, alt, a ++ (format Data.container n .national ++ b), r, .strictGrouping⟩ maxTries = .ok ([m], c) ∧
      m.start (a ++ (format Data.container n .national ++ b)) = blen a ∧ m.raw = format Data.container n .national ∧ m.number.cc = n.cc ∧
      nsnOf m.number = nsnOf n ∧ m.number.ext = n.ext :=
  C109_found n r hv hr hu hex h0 hext alt .strictGrouping (C109_kept n r hv hr hu hex h0 hext hs hp alt) a b ha hb hafter hbefore maxTries hk

/-! ## Several numbers in one text -/

/-- What is asked of a number that is written into a text which is searched for region `r` at level `lev`: in E164 form it is valid; in
INTERNATIONAL form it is valid and an extension has at most nine digits; in NATIONAL form it is valid for the region, an extension has at
most nine digits, and the level accepts its grouping. -/
def WritableAt (alt : List Metadata) (r : Str) (lev : Leniency) (n : PhoneNumber) (f : Fmt) : Prop :=
  n.nn ≠ 0 ∧
  ((f = .e164 ∧ isValidNumber Data.container n = .ok true ∧ ¬ Ambiguous n) ∨
   (f = .international ∧ isValidNumber Data.container n = .ok true ∧ ¬ Ambiguous n ∧ ShortExt n 9) ∨
   (f = .national ∧ NatLevel alt n lev ∧ isValidForRegion Data.container n r = .ok true ∧ r ≠ str!"001" ∧ r ∉ natUnsettled ∧
      ¬ NatAmbiguous n ∧ ShortExt n 9))

theorem writableAt_mentioned {alt : List Metadata} {r : Str} {lev : Leniency} {n : PhoneNumber} {f : Fmt} (h : WritableAt alt r lev n f) :
    Mentioned alt r lev n f := by
  obtain ⟨h0, h | h | ⟨rfl, hl, hv, hr, hu, hex, hext⟩⟩ := h
  · exact mixed_mention n f r lev ⟨h0, .inl h⟩ alt
  · exact mixed_mention n f r lev ⟨h0, .inr (.inl h)⟩ alt
  · obtain ⟨lead, pn, k1, k2, k3, k4, k5, k6⟩ := national_levels n r hv hr hu hex h0 hext alt lev hl
    exact ⟨lead, pn, k1, k2, k3, k4, k5, by rw [k6]; rfl, fun h => absurd rfl h⟩

/-- With the shipped data, at every level: write any number of numbers into a text that otherwise has no digits (before the last number
also no opening brackets and plus signs), each in E164 form, in INTERNATIONAL form or in the NATIONAL form of the region the text is
searched for, the latter two perhaps with an extension.  The search returns all of them at their places, in their order, and nothing
else, and what it returns has the same country codes, national significant numbers and extensions. -/
theorem C109_forms (l : Entries) (r : Str) (lev : Leniency) (alt : List Metadata) (hl : ∀ x ∈ l, WritableAt alt r lev x.2.1 x.2.2)
    (rest : Str) (hb : ∀ x ∈ l, NoStart x.1) (hr : NoDigit rest)
    (hap : ∀ x ∈ l.tail, x.2.2 = .national → Splits x.1)
    (hs : ∀ x ∈ l.tail, ∀ u, x.1.head? = some u → ¬ Sticky u ∧ u ≠ '#'.toNat) (hs' : ∀ u, rest.head? = some u → ¬ Sticky u ∧ u ≠ '#'.toNat)
    (hn : ∀ x ∈ l, x.2.2 = .national → ∀ u, x.1.getLast? = some u → ¬ Sticky u) (maxTries : Int) (hk : 0 < maxTries) :
    ∃ ms c, Finder.findNumbers ⟨Data.container, alt, written Data.container l rest, r, lev⟩ maxTries = .ok (ms, c) ∧
      ms.map (fun m => (m.start (written Data.container l rest), m.raw, m.number.cc, nsnOf m.number, m.number.ext)) =
        placesExt Data.container 0 l :=
  mentions_found l r lev alt (fun x hx => writableAt_mentioned (hl x hx)) rest hb hr hap hs hs' hn maxTries hk

/-! ## Cases -/

/-- The hypotheses are met by a British number with an extension, and by a Kazakh one, whose region is not the main region of its code. -/
example : isValidForRegion Data.container officeExt (str!"GB") = .ok true ∧ (str!"GB") ∉ natUnsettled ∧ ¬ NatAmbiguous officeExt ∧
    officeExt.nn ≠ 0 ∧ ShortExt officeExt 9 ∧ SamePattern officeExt ∧ PrefixApart officeExt := by
  refine ⟨by kernel_rfl, by decide, by decide +kernel, by decide, by unfold ShortExt; decide, C109_noIntl _ fun M hM => ?_, fun x hx u hu => ?_⟩
  rotate_left
  · rw [show (format Data.container officeExt .national).filter isDig = (str!"0") ++ (nsnOf officeExt ++ officeExt.ext) by kernel_rfl] at hx
    rw [← List.append_cancel_right hx]
    have : u = '2'.toNat := by
      rw [show (nsnOf officeExt).head? = some '2'.toNat by decide +kernel] at hu
      exact (Option.some.inj hu).symm
    rw [this]
    decide
  have h : (Data.container.metaFor officeExt.cc (Data.container.mainRegion officeExt.cc)).map (·.intlFormats.isEmpty) = some true := by kernel_rfl
  rw [hM] at h
  simpa using h

/-- A number of a country with rules of its own for the INTERNATIONAL form. -/
example : RuleShared officeUS ∧ SamePattern officeUS := by
  have h : RuleShared officeUS := ruleShared_of_check _ (by kernel_rfl)
  exact ⟨h, C109_shared _ h⟩

/-- The rule for the German service number 2277 12 is withheld from the INTERNATIONAL form. -/
def serviceDE : PhoneNumber := { countryCode := some 49, nationalNumber := some 227712 }

example : format Data.container serviceDE .national = (str!"227712") ∧ format Data.container serviceDE .international = (str!"+49 2277 12") := by
  constructor <;> kernel_rfl

/-- A number with an extension in NATIONAL form and one in INTERNATIONAL form may be written into a text that is searched at EXACT_GROUPING. -/
example : WritableAt Data.alt (str!"GB") .exactGrouping officeExt .national ∧ WritableAt Data.alt (str!"GB") .exactGrouping officeUS .international := by
  refine ⟨⟨by decide, .inr (.inr ⟨rfl, C109_grouped officeExt (str!"GB") (by kernel_rfl) (by decide) (by decide) (by decide) (by unfold ShortExt; decide)
      (C109_noIntl _ fun M hM => ?_) _, by kernel_rfl, by decide, by decide, by decide +kernel, by unfold ShortExt; decide⟩)⟩,
    ⟨by decide, .inr (.inl ⟨rfl, by kernel_rfl, by decide +kernel, by unfold ShortExt; decide⟩)⟩⟩
  have h : (Data.container.metaFor officeExt.cc (Data.container.mainRegion officeExt.cc)).map (·.intlFormats.isEmpty) = some true := by kernel_rfl
  rw [hM] at h
  simpa using h

/-- A national form at EXACT_GROUPING. -/
noncomputable def C109_case (r t : Str) (lev : Leniency) : Finder := ⟨Data.container, Data.alt, t, r, lev⟩

example : (((C109_case (str!"GB") (str!"Tel. 020 8765 4321 x456.") .exactGrouping).findNumbers 1).toOption.map fun r =>
      r.1.map fun m => (m.at_, m.raw, m.number.ext)) = some [(5, (str!"020 8765 4321 x456"), (str!"456"))] ∧
    (((C109_case (str!"US") (str!"Call (650) 253-0000.") .exactGrouping).findNumbers 1).toOption.map fun r =>
      r.1.map fun m => (m.at_, m.raw)) = some [(5, (str!"(650) 253-0000"))] ∧
    (((C109_case (str!"GB") (str!"Tel. 020 8765 4321 x456, +1 650-253-0000.") .exactGrouping).findNumbers 1).toOption.map fun r =>
      r.1.map fun m => (m.at_, m.raw, m.number.ext)) = some [(5, (str!"020 8765 4321 x456"), (str!"456")), (25, (str!"+1 650-253-0000"), [])] ∧
    (((C109_case (str!"GB") (str!"Tel. 020 8765 4321 x456.") .strictGrouping).findNumbers 1).toOption.map fun r =>
      r.1.map fun m => (m.at_, m.raw, m.number.ext)) = some [(5, (str!"020 8765 4321 x456"), (str!"456"))] := by
  refine ⟨?_, ?_, ?_, ?_⟩ <;> kernel_rfl

/-- Another division of the same digits is not accepted. -/
example : (((C109_case (str!"GB") (str!"Tel. 020 876 54321 x456.") .valid).findNumbers 1).toOption.map fun r =>
      r.1.map fun m => (m.at_, m.raw)) = some [(5, (str!"020 876 54321 x456"))] ∧
    (((C109_case (str!"GB") (str!"Tel. 020 876 54321 x456.") .exactGrouping).findNumbers 1).toOption.map fun r =>
      r.1.map fun m => (m.at_, m.raw)) = some [] := by
  constructor <;> kernel_rfl

/-- The rule may not be dropped for Argentina: the NATIONAL form of a mobile number is found at VALID, but not at EXACT_GROUPING. -/
def mobileAR : PhoneNumber := { countryCode := some 54, nationalNumber := some 91123456789 }

example : isValidForRegion Data.container mobileAR (str!"AR") = .ok true ∧ format Data.container mobileAR .national = (str!"011 15-2345-6789") ∧
    (((C109_case (str!"AR") (str!"Tel. 011 15-2345-6789.") .valid).findNumbers 1).toOption.map fun r =>
      r.1.map fun m => (m.at_, m.raw)) = some [(5, (str!"011 15-2345-6789"))] ∧
    (((C109_case (str!"AR") (str!"Tel. 011 15-2345-6789.") .exactGrouping).findNumbers 9).toOption.map fun r =>
      r.1.map fun m => (m.at_, m.raw)) = some [] := by
  refine ⟨?_, ?_, ?_, ?_⟩ <;> kernel_rfl

end Verif.Props
