import Verif.Spec.Reading
import Verif.Lemmas.ExtText
import Verif.Lemmas.MatcherTotal
import Verif.Props.C13
import Verif.Props.C15
/-!
# Where the parts of a parsed number come from: lemmas
-/
namespace Verif
open Spec

theorem stripNationalPrefix_off (a : Str) (m : Metadata) :
    PrefixOff m a (stripNationalPrefix a m).2.1 ∧ (stripNationalPrefix a m).2.2 <:+: a := by
  unfold stripNationalPrefix
  split
  · exact ⟨.kept, List.nil_infix⟩
  · split
    · exact ⟨.kept, List.nil_infix⟩
    · rename_i x hx
      have hg : x.group a 1 <:+: a := by
        unfold Match.group
        split
        · unfold slice; exact (List.take_prefix _ _).isInfix.trans (List.drop_suffix _ _).isInfix
        · exact List.nil_infix
      have hi : ∀ k : Nat, (if m.npParsing.re.groups > k then x.group a 1 else []) <:+: a := by
        intro k; split
        · exact hg
        · exact List.nil_infix
      simp only
      split
      · rename_i hl
        have hl : LeftOut m x := by
          rcases hl with h | ⟨h1, h2⟩
          · exact .inl h
          · exact .inr ⟨h1, Option.isNone_iff_eq_none.1 h2⟩
        split
        · exact ⟨.kept, List.nil_infix⟩
        · exact ⟨.leftOut hx hl, hi 0⟩
      · rename_i hl
        have hl : ¬ LeftOut m x := by
          rintro (h | ⟨h1, h2⟩)
          · exact hl (.inl h)
          · exact hl (.inr ⟨h1, by rw [h2]; rfl⟩)
        split
        · exact ⟨.kept, List.nil_infix⟩
        · exact ⟨.rewritten hx hl, hi 1⟩

theorem finishCore_off {nat nsn c : Str} {m : Option Metadata} (h : finishCore nat m = .ok (.ok (nsn, c))) :
    (nsn = nat ∨ ∃ md, m = some md ∧ PrefixOff md nat nsn) ∧ c <:+: nat := by
  unfold finishCore at h
  split at h
  · cases h
  · simp only [bind, Except.bind, pure, Except.pure] at h
    cases hs : stripStage nat m with
    | error p => rw [hs] at h; cases h
    | ok r =>
      obtain ⟨a, b⟩ := r
      rw [hs] at h
      simp only at h
      split at h
      · cases h
      · split at h
        · cases h
        · simp only [Except.ok.injEq, Prod.mk.injEq] at h
          obtain ⟨rfl, rfl⟩ := h
          unfold stripStage at hs
          cases m with
          | none =>
            simp only [Except.ok.injEq, Prod.mk.injEq] at hs
            obtain ⟨rfl, rfl⟩ := hs
            exact ⟨.inl rfl, List.nil_infix⟩
          | some md =>
            simp only [bind, Except.bind, pure, Except.pure] at hs
            have ho := stripNationalPrefix_off nat md
            split at hs
            · cases hs
            · simp only [Except.ok.injEq] at hs
              split at hs
              · simp only [Prod.mk.injEq] at hs
                obtain ⟨rfl, rfl⟩ := hs
                exact ⟨.inr ⟨md, rfl, ho.1⟩, ho.2⟩
              · simp only [Prod.mk.injEq] at hs
                obtain ⟨rfl, rfl⟩ := hs
                exact ⟨.inl rfl, List.nil_infix⟩

theorem parsePrefixAsIdd_some {idd : Re} {ds rest : Str} (h : parsePrefixAsIdd idd ds = some rest) :
    ∃ x, idd.find ds = some x ∧ x.start = 0 ∧ rest = ds.drop x.stop := by
  unfold parsePrefixAsIdd at h
  split at h
  · cases h
  · rename_i x hx
    split at h
    · cases h
    · rename_i h0
      refine ⟨x, hx, by omega, ?_⟩
      simp only at h
      split at h
      · split at h
        · cases h
        · cases h; rfl
      · cases h; rfl

/-- An extraction without plus signs. -/
theorem Loose.extract_bare {P b : Str} {C : Container} (hC : regionsOk C = true) (hP : Props.prefixFree C = true) (hl : Loose P b)
    {region : Str} {code : Int} {rest : Str} {src : CCSource}
    (h : extractOnce C b (C.metaForRegion region) = .ok (.ok (code, rest, src))) :
    (code = 0 ∧ rest = [] ∧ src = .defaultCountry) ∨
    (src = .withIdd ∧ ∃ m x, C.metaForRegion region = some m ∧ m.internationalPrefix.re.find (normalizeDigitsOnly b) = some x ∧ x.start = 0 ∧
      C.hasCC code = true ∧ (normalizeDigitsOnly b).drop x.stop = decimal code.toNat ++ rest) ∨
    (src = .withoutPlusSign ∧ ∃ m r, C.metaForRegion region = some m ∧ code = m.countryCode ∧ C.hasCC code = true ∧
      normalizeDigitsOnly b = decimal m.countryCode.toNat ++ r ∧ PrefixOff m r rest) := by
  generalize hmeta : C.metaForRegion region = md? at h
  unfold extractOnce at h
  cases md? with
  | none =>
    simp only [hl.tail] at h
    have hno : parsePrefixAsIdd nonMatchIdd (normalizeDigitsOnly b) = none := by
      unfold parsePrefixAsIdd
      rw [nonMatch_find _ (normalizeDigitsOnly_digits b)]
    rw [hno] at h
    simp only [ne_eq, not_true_eq_false, if_false, Except.ok.injEq, Prod.mk.injEq] at h
    exact .inl ⟨h.1.symm, h.2.1.symm, h.2.2.symm⟩
  | some md =>
    have hcc := (metaForRegion_some hC hmeta).1
    simp only [hl.tail] at h
    cases hi : parsePrefixAsIdd md.internationalPrefix.re (normalizeDigitsOnly b) with
    | some full =>
      simp only [hi] at h
      obtain ⟨x, hx, h0, rfl⟩ := parsePrefixAsIdd_some hi
      rw [if_pos (by simp)] at h
      split at h
      · cases h
      · split at h
        · rename_i hc
          simp only [Except.ok.injEq, Prod.mk.injEq] at h
          obtain ⟨rfl, rfl, rfl⟩ := h
          have := Props.C13_extracted C _ _ _ rfl hc
          exact .inr (.inl ⟨rfl, md, x, rfl, hx, h0, this.1, this.2.2.2⟩)
        · cases h
    | none =>
      simp only [hi] at h
      rw [if_neg (by simp)] at h
      split at h
      · rename_i hp
        simp only [bind, Except.bind] at h
        split at h
        · cases h
        · split at h
          · simp only [pure, Except.pure, Except.ok.injEq, Prod.mk.injEq] at h
            obtain ⟨rfl, rfl, rfl⟩ := h
            have hpos := (Props.prefixFree_spec hP hcc).1
            refine .inr (.inr ⟨rfl, md, _, rfl, rfl, hcc, ?_, (stripNationalPrefix_off _ md).1⟩)
            rw [decInt_nonneg (by omega)] at hp ⊢
            have hp : decimal md.countryCode.toNat <+: normalizeDigitsOnly b := List.isPrefixOf_iff_prefix.1 hp
            obtain ⟨t, ht⟩ := hp
            rw [← ht]; simp
          · simp only [pure, Except.pure, Except.ok.injEq, Prod.mk.injEq] at h
            exact .inl ⟨h.1.symm, h.2.1.symm, h.2.2.symm⟩
      · simp only [Except.ok.injEq, Prod.mk.injEq] at h
        exact .inl ⟨h.1.symm, h.2.1.symm, h.2.2.symm⟩

/-- What is found after the plus signs, if there are some. -/
theorem Loose.extract_found {P b : Str} {C : Container} (hC : regionsOk C = true) (hP : Props.prefixFree C = true) (hl : Loose P b)
    {region : Str} {code : Int} {rest : Str} {src : CCSource}
    (h : extractCore C (P ++ b) (C.metaForRegion region) = .ok (.ok (code, rest, src))) :
    (code = 0 ∧ P = [] ∧ rest = [] ∧ src = .defaultCountry) ∨
    (code ≠ 0 ∧ C.hasCC code = true ∧ src ≠ .defaultCountry ∧
      CodeFound C region (decide (P ≠ [])) (normalizeDigitsOnly b) src code rest) := by
  have h00 := hasCC_zero hC
  have hz : ∀ c, C.hasCC c = true → c ≠ 0 := fun c hc h0 => by rw [h0, h00] at hc; cases hc
  by_cases h0 : P = []
  · subst h0
    have hx : extractCore C b (C.metaForRegion region) = .ok (.ok (code, rest, src)) := h
    have hx1 : extractOnce C b (C.metaForRegion region) = .ok (.ok (code, rest, src)) := by
      unfold extractCore at hx
      cases h1 : extractOnce C b (C.metaForRegion region) with
      | error p => rw [h1] at hx; cases hx
      | ok r =>
        rw [h1] at hx
        cases r with
        | ok r => cases hx; rfl
        | error e =>
          simp only [bind, Except.bind, plus_find_none b hl.not_plus] at hx
          cases hx
    rcases hl.extract_bare hC hP hx1 with h1 | ⟨rfl, m, x, h1, h2, h3, h4, h5⟩ | ⟨rfl, m, r, h1, rfl, h2, h3, h4⟩
    · exact .inl ⟨h1.1, rfl, h1.2⟩
    · exact .inr ⟨hz _ h4, h4, by simp, .idd h1 h2 h3 h4 h5 (by simp)⟩
    · exact .inr ⟨hz _ h2, h2, by simp, .bare (by simp) h1 h3 h4⟩
  · right
    have hplus := extractOnce_plus C P b (C.metaForRegion region) h0 (fun u hu => isPlus_iff.1 (hl.signs u hu)) hl.not_plus
    rw [hl.norm_body] at hplus
    unfold extractCore at h
    rw [hplus, hl.find_plus h0] at h
    simp only [List.drop_left, hl.ne_nil, if_false] at h
    by_cases hs : blen (normalizeDigitsOnly b) ≤ minLengthForNSN
    · rw [if_pos hs] at h
      simp only [bind, Except.bind, pure, Except.pure, reduceCtorEq, if_false, Except.ok.injEq] at h
    · rw [if_neg hs] at h
      by_cases hc : (extractCC C (normalizeDigitsOnly b)).1 ≠ 0
      · rw [if_pos hc] at h
        simp only [bind, Except.bind, pure, Except.pure, Except.ok.injEq, Prod.mk.injEq] at h
        obtain ⟨rfl, rfl, rfl⟩ := h
        have := Props.C13_extracted C _ _ _ rfl hc
        exact ⟨hc, this.1, by simp, .sign (by simp [h0]) this.1 this.2.2.2⟩
      · rw [if_neg hc] at h
        simp only [bind, Except.bind, pure, Except.pure, if_true] at h
        have hc : (extractCC C (normalizeDigitsOnly b)).1 = 0 := by simpa using hc
        have hnone : ∀ c rest, C.hasCC c = true → normalizeDigitsOnly b ≠ decimal c.toNat ++ rest := by
          intro c r hcc he
          have hd := normalizeDigitsOnly_digits b
          rw [he] at hc hd
          rw [Props.C13_unique C hP h00 c r hcc (fun u hu => (isDig_iff u).1 (hd u (by simp [hu])))] at hc
          exact hz c hcc hc
        cases h1 : extractOnce C b (C.metaForRegion region) with
        | error p => rw [h1] at h; cases h
        | ok r =>
          rw [h1] at h
          simp only at h
          have h1' : extractOnce C b (C.metaForRegion region) = .ok (.ok (code, rest, src)) ∧ code ≠ 0 := by
            split at h
            · cases h
            · rename_i hr
              simp only [Except.ok.injEq] at h
              subst h
              refine ⟨h1, ?_⟩
              rintro rfl
              exact hr _ _ rfl
          obtain ⟨h1', hne⟩ := h1'
          rcases hl.extract_bare hC hP h1' with h1 | ⟨rfl, m, x, h1, h2, h3, h4, h5⟩ | ⟨rfl, m, r, h1, rfl, h2, h3, h4⟩
          · exact absurd h1.1 hne
          · exact ⟨hne, h4, by simp, .idd h1 h2 h3 h4 h5 (fun _ => hnone)⟩
          · exact absurd h3 (hnone _ _ h2)

/-- The whole reading of a number. -/
theorem Loose.viable_found {P b : Str} {C : Container} (hC : regionsOk C = true) (hP : Props.prefixFree C = true)
    (hN : nonGeoOk C = true) (hG : C.allMeta.all hasGeneralLengths = true) (hl : Loose P b) {region : Str} {o : ParseOut}
    (hr : checkRegion C (P ++ b) region = true) (h : parseViable C (P ++ b) region = .ok (.ok o)) :
    ∃ src nat, o.source = some src ∧ CodeFound C region (decide (P ≠ [])) (normalizeDigitsOnly b) src o.cc nat ∧
      NationalRead C region src o.cc nat o.nsn ∧ o.carrier <:+: nat := by
  unfold parseViable at h
  simp only [hl.noExt, bind, Except.bind] at h
  cases hx : extractCore C (P ++ b) (C.metaForRegion region) with
  | error p => rw [hx] at h; cases h
  | ok r =>
    rw [hx] at h
    cases r with
    | error e => cases h
    | ok r =>
      obtain ⟨code, rest, src⟩ := r
      simp only at h
      rcases hl.extract_found hC hP hx with ⟨rfl, rfl, rfl, rfl⟩ | ⟨h1, h2, h3, h4⟩
      · rw [if_neg (by simp)] at h
        split at h
        · cases h
        · rename_i v hv
          cases v with
          | error e => cases h
          | ok v =>
            obtain ⟨nsn, carrier⟩ := v
            have hvr : C.validRegion region = true := by
              by_cases hvr : C.validRegion region = true
              · exact hvr
              · simp only [checkRegion, hvr, Bool.false_or, Bool.and_eq_true, List.nil_append] at hr
                have := hr.2
                simp [Re.isMatch, plus_find_none b hl.not_plus] at this
            obtain ⟨md, hmd, hcc⟩ := regionsOk_meta hC hvr
            have hne := (metaForRegion_some hC hmd).2
            simp only [pure, Except.pure, Except.ok.injEq, hmd, if_pos hne] at h
            subst h
            obtain ⟨k1, k2⟩ := finishCore_off hv
            rw [hl.norm, List.nil_append] at k1 k2
            refine ⟨.defaultCountry, normalizeDigitsOnly b, rfl, .default (by simp) hmd, ?_, k2⟩
            rcases k1 with k1 | ⟨m, k1, k3⟩
            · exact .inl k1
            · exact .inr ⟨m, by rw [if_pos rfl]; exact k1, k3⟩
      · rw [if_pos h1, finishCore_main hN hG] at h
        split at h
        · cases h
        · rename_i v hv
          cases v with
          | error e => cases h
          | ok v =>
            obtain ⟨nsn, carrier⟩ := v
            simp only [pure, Except.pure, Except.ok.injEq] at h
            subst h
            obtain ⟨k1, k2⟩ := finishCore_off hv
            refine ⟨src, rest, rfl, h4, ?_, k2⟩
            rcases k1 with k1 | ⟨m, k1, k3⟩
            · exact .inl k1
            · exact .inr ⟨m, by rw [if_neg h3]; exact k1, k3⟩

/-- The whole reading of a text that says a number. -/
theorem numberText_read {C : Container} (hC : regionsOk C = true) (hP : Props.prefixFree C = true)
    (hN : nonGeoOk C = true) (hG : C.allMeta.all hasGeneralLengths = true) {s ds region : Str} {plus : Bool} (hs : NumberText s plus ds)
    {o : ParseOut} (h : parseCore C s region true = .ok (.ok o)) :
    ∃ src nat, o.source = some src ∧ CodeFound C region plus ds src o.cc nat ∧
      NationalRead C region src o.cc nat o.nsn ∧ o.carrier <:+: nat := by
  obtain ⟨P, b, h1, h2, h3, h4, h5⟩ := numberText_parts hs
  have hp : decide (P ≠ []) = plus := by
    cases plus
    · simp [h2.1 rfl]
    · simp only [decide_eq_true_eq]
      intro h0; exact absurd (h2.2 h0) (by simp)
  have k1 := hs.short
  unfold parseCore at h
  rw [if_neg h5, if_neg (by simp only [maxInputStringLength]; omega), h4] at h
  simp only [bind, Except.bind, h1.viable, Bool.not_true, Bool.false_eq_true, if_false] at h
  split at h
  · cases h
  · rename_i hr
    have hr : checkRegion C (P ++ b) region = true := by simpa using hr
    have := h1.viable_found hC hP hN hG hr h
    rwa [hp, h3] at this

end Verif
