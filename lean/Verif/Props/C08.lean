import Verif.Lemmas.Viable
import Verif.Props.C05
import Verif.Data.Wf
/-!
# C08: a parsed number carries a supported country code and a bounded NSN
-/
namespace Verif

theorem regionsOk_meta {C : Container} (h : Spec.regionsOk C = true) {r : Str} (hr : C.validRegion r = true) :
    ∃ m, C.metaForRegion r = some m ∧ C.hasCC m.countryCode = true := by
  simp only [Spec.regionsOk, Bool.and_eq_true, List.all_eq_true] at h
  have hv := hr
  simp only [Container.validRegion, Bool.and_eq_true, decide_eq_true_eq] at hr
  have := h.2 r (by simpa using hr.2)
  split at this
  · rename_i m hm
    exact ⟨m, by simp [Container.metaForRegion, hv, hm], this⟩
  · cases this

theorem hasCC_zero {C : Container} (h : Spec.regionsOk C = true) : C.hasCC 0 = false := by
  simp only [Spec.regionsOk, Bool.and_eq_true, Bool.not_eq_true'] at h; exact h.1

theorem metaForRegion_some {C : Container} (h : Spec.regionsOk C = true) {r : Str} {m : Metadata}
    (hm : C.metaForRegion r = some m) : C.hasCC m.countryCode = true ∧ r ≠ [] := by
  have hv : C.validRegion r = true := by
    unfold Container.metaForRegion at hm; split at hm
    · assumption
    · cases hm
  obtain ⟨m', h1, h2⟩ := regionsOk_meta h hv
  rw [hm] at h1; cases h1
  refine ⟨h2, ?_⟩
  rintro rfl; simp [Container.validRegion] at hv

theorem stripStage_digits {national : Str} {m : Option Metadata} {r : Str × Str} (h : stripStage national m = .ok r)
    (hm : ∀ md, m = some md → Spec.transformOk md = true) (hd : ∀ u ∈ national, isDig u = true) :
    ∀ u ∈ r.1, isDig u = true := by
  unfold stripStage at h
  cases m with
  | none => cases h; exact hd
  | some md =>
    simp only [bind, Except.bind] at h
    split at h
    · cases h
    · have := stripNationalPrefix_digits national md (hm md rfl) hd
      cases h
      split
      · exact this
      · exact hd

theorem finishCore_spec {national : Str} {m : Option Metadata} {nsn carrier : Str}
    (h : finishCore national m = .ok (.ok (nsn, carrier)))
    (hm : ∀ md, m = some md → Spec.transformOk md = true) (hd : ∀ u ∈ national, isDig u = true) :
    (∀ u ∈ nsn, isDig u = true) ∧ 2 ≤ nsn.length ∧ nsn.length ≤ 17 := by
  unfold finishCore at h
  split at h
  · cases h
  · cases hs : stripStage national m with
    | error p => rw [hs] at h; cases h
    | ok r =>
      rw [hs] at h
      simp only [bind, Except.bind] at h
      have h1 := stripStage_digits hs hm hd
      split at h
      · cases h
      · split at h
        · cases h
        · rename_i h2 h3
          cases h
          rw [blen_digits h1] at h2 h3
          exact ⟨h1, by simpa [minLengthForNSN] using h2, by simpa [maxLengthForNSN] using h3⟩

theorem parseViable_spec {C : Container} (hC : Spec.regionsOk C = true) (hT : C.allMeta.all Spec.transformOk = true)
    {national region : Str} {o : ParseOut} (hv : isViable national = true) (hr : checkRegion C national region = true)
    (h : parseViable C national region = .ok (.ok o)) :
    C.hasCC o.cc = true ∧ (∀ u ∈ o.nsn, isDig u = true) ∧ 2 ≤ o.nsn.length ∧ o.nsn.length ≤ 17 := by
  have hall : ∀ md ∈ C.allMeta, Spec.transformOk md = true := List.all_eq_true.1 hT
  have hreg : ∀ md, C.metaForRegion region = some md → C.hasCC md.countryCode = true ∧ Spec.transformOk md = true :=
    fun md hm => ⟨(metaForRegion_some hC hm).1, hall md (Container.metaForRegion_mem hm)⟩
  unfold parseViable at h
  simp only [bind, Except.bind] at h
  split at h
  · cases h
  · rename_i r hx
    cases r with
    | error e => cases h
    | ok r =>
      obtain ⟨code, rest, src⟩ := r
      simp only at h
      split at h
      · rename_i hc
        split at h
        · cases h
        · rename_i f hf
          cases f with
          | error e => cases h
          | ok f =>
            obtain ⟨nsn, carrier⟩ := f
            cases h
            rcases extractCore_spec hx hreg with h1 | h1
            · exact absurd h1.1 hc
            · refine ⟨h1.1, finishCore_spec hf ?_ h1.2.1⟩
              intro md hm
              unfold finishMeta at hm
              split at hm
              · exact hall md (Container.metaFor_mem hm)
              · exact hall md (Container.metaForRegion_mem hm)
      · rename_i hc
        have hc : code = 0 := by omega
        subst hc
        have hx0 := extractCore_zero hx
        have hz := extractOnce_spec hx0 hreg
        have hz : rest = [] ∧ src = .defaultCountry := by
          rcases hz with hz | hz
          · exact hz.2
          · rw [hasCC_zero hC] at hz; exact absurd hz.1 (by simp)
        -- the region is valid: otherwise there is a plus sign and a code is found
        have hvr : C.validRegion region = true := by
          by_cases hvr : C.validRegion region = true
          · exact hvr
          · simp only [checkRegion, hvr, Bool.false_or, Bool.and_eq_true] at hr
            obtain ⟨a, b, hab, ha0, ha, hb⟩ := viable_plus_start hv hr.2
            rw [hab, extractOnce_plus C a b _ ha0 ha hb] at hx0
            split at hx0
            · cases hx0
            · split at hx0
              · simp only [Except.ok.injEq, Prod.mk.injEq] at hx0
                rename_i hn
                exact absurd hx0.1 hn
              · cases hx0
        obtain ⟨md, hmd, hcc⟩ := regionsOk_meta hC hvr
        split at h
        · cases h
        · rename_i f hf
          cases f with
          | error e => cases h
          | ok f =>
            obtain ⟨nsn, carrier⟩ := f
            cases h
            have hne := (metaForRegion_some hC hmd).2
            refine ⟨by simp [hne, hmd, hcc], finishCore_spec hf (fun md hm => (hreg md hm).2) ?_⟩
            rw [hz.1]; simpa using normalize_digits _

theorem parseCore_spec {C : Container} (hC : Spec.regionsOk C = true) (hT : C.allMeta.all Spec.transformOk = true)
    {s region : Str} {o : ParseOut} (h : parseCore C s region true = .ok (.ok o)) :
    C.hasCC o.cc = true ∧ (∀ u ∈ o.nsn, isDig u = true) ∧ 2 ≤ o.nsn.length ∧ o.nsn.length ≤ 17 := by
  unfold parseCore at h
  split at h
  · cases h
  · split at h
    · cases h
    · simp only [bind, Except.bind] at h
      split at h
      · cases h
      · rename_i b hb
        cases b with
        | error e => cases h
        | ok national =>
          simp only at h
          split at h
          · cases h
          · rename_i hv
            split at h
            · cases h
            · rename_i hr
              exact parseViable_spec hC hT (by simpa using hv) (by simpa using hr) h

theorem parse_core_of_ok {C : Container} {s region : Str} {k check : Bool} {pn n : PhoneNumber}
    (h : parseHelper C s region k check pn = .ok (none, n)) :
    ∃ o, parseCore C s region check = .ok (.ok o) ∧ n = o.apply s k pn := by
  have h1 := parseHelper_core C s region k check pn
  cases hc : parseCore C s region check with
  | error p => rw [hc, h] at h1; cases h1
  | ok r =>
    rw [hc] at h1
    cases r with
    | error e => obtain ⟨n1, h1⟩ := h1; rw [h] at h1; cases h1
    | ok o => simp only [Refines] at h1; rw [h] at h1; cases h1; exact ⟨o, rfl, rfl⟩

/-- The NSN of the parsed number is the text that was analysed. -/
theorem nsnOf_apply (o : ParseOut) (s : Str) (k : Bool) (pn : PhoneNumber) (hd : ∀ u ∈ o.nsn, isDig u = true)
    (h2 : 2 ≤ o.nsn.length) (h17 : o.nsn.length ≤ 17) (hf : pn.numberOfLeadingZeros = none) : nsnOf (o.apply s k pn) = o.nsn := by
  have := Props.C05_store o.nsn pn (fun u hu => (isDig_iff u).1 (hd u hu)) h2 h17 hf
  rw [← this]
  rfl

namespace Props
open Spec

/-- If parsing succeeds (with or without keeping the raw input), the country code of the result is a supported calling code and
its national significant number consists of 2 to 17 ASCII digits. -/
theorem C08_parsed (C : Container) (hC : regionsOk C = true) (hT : C.allMeta.all transformOk = true) (s region : Str)
    (n : PhoneNumber) (h : parse C s region = .ok (none, n) ∨ parseKeepRaw C s region = .ok (none, n)) :
    (∃ cc, n.countryCode = some cc ∧ C.hasCC cc = true) ∧
    AllDigits (nsnOf n) ∧ 2 ≤ (nsnOf n).length ∧ (nsnOf n).length ≤ 17 := by
  have : ∃ k o, parseCore C s region true = .ok (.ok o) ∧ n = o.apply s k {} := by
    rcases h with h | h
    · obtain ⟨o, h1, h2⟩ := parse_core_of_ok h; exact ⟨_, o, h1, h2⟩
    · obtain ⟨o, h1, h2⟩ := parse_core_of_ok h; exact ⟨_, o, h1, h2⟩
  obtain ⟨k, o, h1, rfl⟩ := this
  obtain ⟨h2, h3, h4, h5⟩ := parseCore_spec hC hT h1
  refine ⟨⟨o.cc, rfl, h2⟩, ?_⟩
  rw [nsnOf_apply o s k {} h3 h4 h5 rfl]
  exact ⟨fun u hu => (isDig_iff u).1 (h3 u hu), h4, h5⟩

/-- The shipped metadata: unconditional.  `supportedCodes` is the list behind `GetSupportedCallingCodes`. -/
theorem C08_shipped (s region : Str) (n : PhoneNumber)
    (h : parse Data.container s region = .ok (none, n) ∨ parseKeepRaw Data.container s region = .ok (none, n)) :
    n.cc ∈ Data.container.supportedCodes ∧ AllDigits (nsnOf n) ∧ 2 ≤ (nsnOf n).length ∧ (nsnOf n).length ≤ 17 := by
  obtain ⟨⟨cc, h1, h2⟩, h3⟩ := C08_parsed _ Data.wf_regions Data.wf_transform s region n h
  refine ⟨?_, h3⟩
  have hs : Data.container.supportedCodes = Data.container.ccToRegion.map (·.1) := by kernel_rfl
  rw [hs, PhoneNumber.cc, h1]
  exact mapGet_isSome_iff.1 h2

example : regionsOk Data.container = true ∧ Data.container.allMeta.all transformOk = true := ⟨Data.wf_regions, Data.wf_transform⟩
example : ∃ n, parse Data.container (str!"044 668 18 00") (str!"CH") = .ok (none, n) ∧ nsnOf n = str!"446681800" :=
  ⟨{ countryCode := some 41, nationalNumber := some 446681800 }, by kernel_rfl, by decide +kernel⟩

end Props
end Verif
