import Verif.Lemmas.NonEmpty
import Verif.Lemmas.Ext
import Verif.Props.C02
import Verif.Props.C06
import Verif.Props.C08
import Verif.Props.C26
/-!
# C19: FormatInOriginalFormat never changes the dialled digits
-/
namespace Verif
open Spec

theorem formatByPattern_ne {C : Container} (hf : C.allMeta.all natFormatsOk = true)
    {n : PhoneNumber} {m : Metadata} {p : NumberFormat} (hm : m ∈ C.allMeta) (hp : p ∈ m.formats) :
    formatByPattern C n .national [{ p with npRule := [] }] ≠ [] := by
  unfold formatByPattern
  split
  · exact nsnOf_ne_nil n
  · simp only [prefixWithCC]
    apply appendExtension_ne
    split
    · exact nsnOf_ne_nil n
    · rename_i q hq
      obtain ⟨h1, h2⟩ := chooseFormat_acc _ _ _ hq
      simp only [List.mem_singleton] at h1
      subst h1
      simp only at h2
      have h := List.all_eq_true.1 (List.all_eq_true.1 hf m hm) p hp
      simp only [Bool.and_eq_true] at h
      simp only [formatNsnUsingPattern, ne_eq, not_true, false_and, and_false, if_false, reduceCtorEq]
      exact templateNonEmpty_ne h.1 (nsnOf_isDig n) (nsnOf_ne_nil n) h2

theorem originalNational_ne {C : Container} (hf : C.allMeta.all natFormatsOk = true)
    {n : PhoneNumber} {out : Str} (h : originalNational C n = .ok out) : out ≠ [] := by
  have hnat := format_national_ne hf n
  unfold originalNational at h
  simp only [bind, Except.bind, pure, Except.pure] at h
  split at h
  · cases h; exact hnat
  · split at h
    · cases h
    · split at h
      · cases h; exact hnat
      · split at h
        · cases h; exact hnat
        · rename_i p hp
          split at h
          · split at h
            · cases h; exact hnat
            · rename_i i hi hd
              simp only [Except.ok.injEq] at h
              rw [← h]
              obtain ⟨h1, -⟩ := chooseFormat_acc _ _ _ hp
              cases hm : C.metaForRegion (C.mainRegion n.cc) with
              | none => rw [hm] at h1; cases h1
              | some m =>
                rw [hm] at h1
                exact formatByPattern_ne hf (Container.metaForRegion_mem hm) h1
          · cases h; exact hnat

/-- A text that parses has at least two bytes. -/
theorem parseCore_two {C : Container} {s region : Str} {check : Bool} {o : ParseOut} (h : parseCore C s region check = .ok (.ok o)) :
    2 ≤ blen s := by
  unfold parseCore at h
  split at h
  · cases h
  · rename_i h0
    split at h
    · cases h
    · simp only [bind, Except.bind] at h
      split at h
      · cases h
      · rename_i b hb
        cases b with
        | error e => cases h
        | ok national =>
          simp only at h
          split at h
          · cases h
          · rename_i hv
            have hv2 : 2 ≤ blen national := by
              simp only [isViable, minLengthForNSN] at hv
              by_cases hlt : blen national < 2
              · simp [hlt] at hv
              · omega
            -- a text of one byte has no phone context
            have hs : 2 ≤ s.length ∨ s.length = 1 := by
              have := List.length_pos_iff.2 h0; omega
            rcases hs with hs | hs
            · have := length_le_blen s; omega
            · have hidx : indexOf s rfcPhoneContext = none := by
                cases hi : indexOf s rfcPhoneContext with
                | none => rfl
                | some i =>
                  rcases indexOf_le hi with h | h
                  · have : rfcPhoneContext.length = 15 := rfl
                    omega
                  · exact absurd h.1 (by decide)
              unfold buildNationalNumber at hb
              simp only [hidx, Option.isSome_none, Bool.false_eq_true, false_and, if_false, Except.ok.injEq] at hb
              rw [← hb] at hv2
              obtain ⟨c, hc⟩ := dropIsub_prefix (extractPossibleNumber s)
              obtain ⟨a, b, hab⟩ := extractPossibleNumber_infix s
              have e1 := congrArg blen hc
              have e2 := congrArg blen hab
              simp only [blen_append] at e1 e2
              omega

theorem stripIntlPrefix_src (s : Str) (idd : Re) : (stripIntlPrefix s idd).2 ≠ .unspecified := by
  unfold stripIntlPrefix
  split
  · simp
  · split
    · simp
    · simp only
      split <;> simp

theorem extractOnce_src {C : Container} {s : Str} {m : Option Metadata} {code : Int} {rest : Str} {src : CCSource}
    (h : extractOnce C s m = .ok (.ok (code, rest, src))) : src ≠ .unspecified := by
  unfold extractOnce at h
  cases m with
  | none =>
    have hi := stripIntlPrefix_src s nonMatchIdd
    generalize hst : stripIntlPrefix s nonMatchIdd = st at hi
    obtain ⟨full, source⟩ := st
    simp only [hst] at h hi
    by_cases hd : source ≠ .defaultCountry
    · rw [if_pos hd] at h
      split at h
      · cases h
      · split at h
        · simp only [Except.ok.injEq, Prod.mk.injEq] at h
          rw [← h.2.2]; exact hi
        · cases h
    · rw [if_neg hd] at h
      simp only [Except.ok.injEq, Prod.mk.injEq] at h
      rw [← h.2.2]; exact hi
  | some md =>
    have hi := stripIntlPrefix_src s md.internationalPrefix.re
    generalize hst : stripIntlPrefix s md.internationalPrefix.re = st at hi
    obtain ⟨full, source⟩ := st
    simp only [hst] at h hi
    by_cases hd : source ≠ .defaultCountry
    · rw [if_pos hd] at h
      split at h
      · cases h
      · split at h
        · simp only [Except.ok.injEq, Prod.mk.injEq] at h
          rw [← h.2.2]; exact hi
        · cases h
    · rw [if_neg hd] at h
      split at h
      · simp only [bind, Except.bind] at h
        split at h
        · cases h
        · split at h
          · simp only [pure, Except.pure, Except.ok.injEq, Prod.mk.injEq] at h
            rw [← h.2.2]; simp
          · simp only [pure, Except.pure, Except.ok.injEq, Prod.mk.injEq] at h
            rw [← h.2.2]; exact hi
      · simp only [Except.ok.injEq, Prod.mk.injEq] at h
        rw [← h.2.2]; exact hi

theorem extractCore_src {C : Container} {s : Str} {m : Option Metadata} {code : Int} {rest : Str} {src : CCSource}
    (h : extractCore C s m = .ok (.ok (code, rest, src))) : src ≠ .unspecified := by
  unfold extractCore at h
  cases h1 : extractOnce C s m with
  | error p => rw [h1] at h; cases h
  | ok r =>
    rw [h1] at h
    cases r with
    | ok r => cases h; exact extractOnce_src h1
    | error e =>
      simp only [bind, Except.bind] at h
      split at h
      · split at h
        · split at h
          · cases h
          · split at h
            · cases h
            · rename_i x _ _ _ v hv
              split at h
              · cases h
              · cases h
                exact extractOnce_src hv
        · cases h
      · cases h

theorem parseViable_source {C : Container} {national region : Str} {o : ParseOut} (h : parseViable C national region = .ok (.ok o))
    (hcc : o.cc ≠ 0) :
    ∃ src, o.source = some src ∧ src ≠ .unspecified := by
  unfold parseViable at h
  simp only [bind, Except.bind] at h
  cases he : extractCore C (stripExtension national).2 (C.metaForRegion region) with
  | error p => simp [he] at h
  | ok r =>
    simp only [he] at h
    cases r with
    | error e => cases h
    | ok r =>
      obtain ⟨code, rest, src⟩ := r
      have hsrc : src ≠ .unspecified := extractCore_src he
      simp only at h
      split at h
      · split at h
        · cases h
        · split at h
          · cases h
          · cases h; exact ⟨src, rfl, hsrc⟩
      · split at h
        · cases h
        · split at h
          · cases h
          · simp only [pure, Except.pure, Except.ok.injEq] at h
            by_cases hr : region ≠ []
            · rw [if_pos hr, if_pos hr] at h
              rw [← h]; exact ⟨src, rfl, hsrc⟩
            · rw [if_neg hr] at h
              rw [← h] at hcc
              exact absurd rfl hcc

theorem originalNational_ok {C : Container} (hg : C.allMeta.all hasGeneralLengths = true) (hb : Built C) (ht : tablesOk C = true)
    (hd : C.allMeta.all hasAllDescs = true) (n : PhoneNumber) : ∃ out, originalNational C n = .ok out := by
  have hraw : ∀ raw np region, ∃ b, rawContainsNationalPrefix C raw np region = .ok b := by
    intro raw np region
    unfold rawContainsNationalPrefix
    simp only
    split
    · obtain ⟨e, m, hr⟩ := (Props.C06_no_panic C hg ((normalizeDigitsOnly raw).drop np.length) region).1
      simp only [hr, bind, Except.bind]
      cases e with
      | some e => exact ⟨false, rfl⟩
      | none =>
        obtain ⟨v, t, hv, -⟩ := Props.C26_valid_iff_type C hb ht hd m
        exact ⟨v, hv⟩
    · exact ⟨false, rfl⟩
  unfold originalNational
  obtain ⟨b, hr⟩ := hraw n.raw (C.nddPrefix (C.mainRegion n.cc) true) (C.mainRegion n.cc)
  simp only [hr, bind, Except.bind, pure, Except.pure]
  repeat' split
  all_goals exact ⟨_, rfl⟩

theorem dropByte_ne {s out : Str} (h : dropByte s = .ok out) (h2 : 2 ≤ blen s) : out ≠ [] := by
  cases s with
  | nil => cases h
  | cons u t =>
    simp only [dropByte, Except.ok.injEq] at h
    rw [← h]
    intro h0
    simp only [List.append_eq_nil_iff, List.map_eq_nil_iff] at h0
    obtain ⟨h1, rfl⟩ := h0
    simp only [blen_cons, blen_nil, width] at h2
    simp only [unitBytes] at h1
    repeat' split at h1
    all_goals simp_all

theorem parseCore_source {C : Container} {s region : Str} {check : Bool} {o : ParseOut} (h : parseCore C s region check = .ok (.ok o))
    (hcc : o.cc ≠ 0) : ∃ src, o.source = some src ∧ src ≠ .unspecified := by
  unfold parseCore at h
  split at h
  · cases h
  · split at h
    · cases h
    · simp only [bind, Except.bind] at h
      split at h
      · cases h
      · rename_i b hb
        cases b with
        | error e => cases h
        | ok national =>
          simp only at h
          split at h
          · cases h
          · split at h
            · cases h
            · exact parseViable_source h hcc

namespace Props
open Spec

/-- `FormatInOriginalFormat` on a message that carries its raw input and the source of its country code: whatever the metadata, a
non-empty result has exactly the diallable characters of the raw input. -/
theorem C19_any (C : Container) (n : PhoneNumber) (r out : Str) (hraw : n.raw ≠ []) (hsrc : n.src ≠ .unspecified)
    (h : formatInOriginal C n r = .ok out) : out = [] ∨ diallableOf out = diallableOf n.raw := by
  unfold formatInOriginal at h
  split at h
  · cases h; exact .inr rfl
  · rename_i hp
    simp only [bind, Except.bind] at h
    split at h
    · cases h
    · rename_i v hv
      by_cases h0 : v = []
      · simp [h0, pure, Except.pure] at h; exact .inl h
      · rw [if_pos ⟨h0, hraw⟩] at h
        simp only [C02_filter] at h
        by_cases hd : diallableOf v = diallableOf n.raw
        · simp [hd, pure, Except.pure] at h; rw [← h]; exact .inr hd
        · simp [hd, pure, Except.pure] at h; rw [← h]; exact .inr rfl

/-- A number parsed with its raw input kept is always formatted in its original format (no panic), and the diallable characters of
the result are those of the text that was parsed. -/
theorem C19_parsed (C : Container) (hb : Built C) (ht : tablesOk C = true) (hr : regionsOk C = true)
    (hT : C.allMeta.all transformOk = true) (hd : C.allMeta.all hasAllDescs = true) (hg : C.allMeta.all hasGeneralLengths = true)
    (hf : C.allMeta.all natFormatsOk = true) (s region r : Str) (n : PhoneNumber)
    (h : parseKeepRaw C s region = .ok (none, n)) :
    ∃ out, formatInOriginal C n r = .ok out ∧ out ≠ [] ∧ diallableOf out = diallableOf s := by
  obtain ⟨o, h1, rfl⟩ := parse_core_of_ok h
  obtain ⟨hcc, -⟩ := parseCore_spec hr hT h1
  have h2 := parseCore_two h1
  have hsrc : ∃ src, o.source = some src ∧ src ≠ .unspecified := by
    refine parseCore_source h1 ?_
    intro h0; rw [h0, hasCC_zero hr] at hcc; cases hcc
  obtain ⟨src, hsrc, hne⟩ := hsrc
  generalize hn : o.apply s true {} = n
  have e1 : n.raw = s := by rw [← hn]; rfl
  have e2 : n.src = src := by rw [← hn]; simp [PhoneNumber.src, ParseOut.apply, hsrc]
  have e3 : n.cc = o.cc := by rw [← hn]; rfl
  have hs : s ≠ [] := by intro h0; rw [h0] at h2; simp at h2
  rw [← e3] at hcc
  have key : ∃ v, originalBody C n r = .ok v ∧ v ≠ [] := by
    obtain ⟨w, hw⟩ := originalNational_ok hg hb ht hd n
    unfold originalBody
    split
    · exact ⟨_, rfl, format_international_ne hcc⟩
    · exact ⟨_, rfl, formatOutOfCountry_ne hf hcc r⟩
    · have : 2 ≤ blen (format C n .international) := by
        rcases format_international_eq (n := n) hcc with h | ⟨t, h⟩
        · rw [h.2.2, e1]; exact h2
        · rw [h]
          have := length_le_blen (43 :: (decInt n.cc ++ 32 :: t))
          simp at this ⊢; omega
      cases hdb : dropByte (format C n .international) with
      | ok v => exact ⟨v, rfl, dropByte_ne hdb this⟩
      | error p =>
        cases hfi : format C n .international with
        | nil => rw [hfi] at this; simp at this
        | cons a b => rw [hfi] at hdb; cases hdb
    · exact ⟨w, hw, originalNational_ne hf hw⟩
  obtain ⟨v, hv, hv0⟩ := key
  have hok : ∃ out, formatInOriginal C n r = .ok out ∧ out ≠ [] := by
    unfold formatInOriginal
    split
    · exact ⟨_, rfl, by rw [e1]; exact hs⟩
    · rw [if_neg (by rw [e2]; exact hne)]
      simp only [hv, bind, Except.bind]
      rw [if_pos ⟨hv0, by rw [e1]; exact hs⟩]
      split
      · exact ⟨_, rfl, by rw [e1]; exact hs⟩
      · exact ⟨_, rfl, hv0⟩
  obtain ⟨out, ho, ho0⟩ := hok
  refine ⟨out, ho, ho0, ?_⟩
  have := C19_any C n r out (by rw [e1]; exact hs) (by rw [e2]; exact hne) ho
  rw [← e1]
  exact this.resolve_left ho0

/-- The shipped metadata: unconditional. -/
theorem C19_shipped (s region r : Str) (n : PhoneNumber) (h : parseKeepRaw Data.container s region = .ok (none, n)) :
    ∃ out, formatInOriginal Data.container n r = .ok out ∧ out ≠ [] ∧ diallableOf out = diallableOf s :=
  C19_parsed _ built_shipped Data.wf_tables Data.wf_regions Data.wf_transform Data.wf_allDescs Data.wf_generalLengths
    Data.wf_natFormats s region r n h

/-- A message that does not record the source of its country code is not covered: it is formatted nationally, whatever its raw
input says.  Parsing never produces such a message. -/
theorem C19_no_source : ∃ n out, n.raw = str!"+44 20 7031 3000" ∧ formatInOriginal Data.container n (str!"GB") = .ok out ∧
    diallableOf out ≠ diallableOf n.raw :=
  ⟨{ countryCode := some 44, nationalNumber := some 2070313000, rawInput := some (str!"+44 20 7031 3000") }, str!"020 7031 3000",
    rfl, by kernel_rfl, by decide +kernel⟩

/-- Concrete cases: the number is reformatted when its digits are kept, and returned as typed otherwise. -/
example : ∃ n, parseKeepRaw Data.container (str!"02070313000") (str!"GB") = .ok (none, n) ∧
    formatInOriginal Data.container n (str!"GB") = .ok (str!"020 7031 3000") :=
  ⟨{ countryCode := some 44, nationalNumber := some 2070313000, rawInput := some (str!"02070313000"),
     countryCodeSource := some .defaultCountry }, by kernel_rfl, by kernel_rfl⟩

end Props
end Verif
