import Verif.Lemmas.Valid
import Verif.Props.C02
import Verif.Props.C06
import Verif.Props.C15
import Verif.Props.C26
/-!
# C20: mobile dialling strings contain only diallable characters

Full statement: for every number and calling region, `FormatNumberForMobileDialing(n, region, false)` consists of `0`–`9`, `+`,
`*` and `#`.  It is false of the code in two corners (`C20_false_unsupported`, `C20_false_zeros`): a number with an unsupported
country code is answered with its raw input, and so is a number whose national number is 0.  `C20_diallable_partial` covers every
number outside these corners.
-/
namespace Verif
open Spec

theorem canBeInternationallyDialled_ok {C : Container} (hb : Built C) (ht : tablesOk C = true) (hd : C.allMeta.all hasAllDescs = true)
    (n : PhoneNumber) : ∃ b, canBeInternationallyDialled C n = .ok b := by
  obtain ⟨r, hr, -⟩ := regionForNumber_ok hb ht hd n
  unfold canBeInternationallyDialled
  simp only [hr, bind, Except.bind]
  cases hm : C.metaForRegion r with
  | none => exact ⟨true, rfl⟩
  | some m =>
    have h := List.all_eq_true.1 hd m (Container.metaForRegion_mem hm)
    simp only [hasAllDescs, Bool.and_eq_true] at h
    obtain ⟨x, hx⟩ := Option.isSome_iff_exists.1 h.2
    obtain ⟨b, hb, -⟩ := isMatchingDesc_spec (nsnOf n) (nsnOf_isDig n) x
    simp only [hx, hb]
    exact ⟨_, rfl⟩

namespace Props

theorem diallableOf_all (s : Str) : ∀ u ∈ diallableOf s, IsDiallable u := by
  intro u hu; simpa using (List.mem_filter.1 hu).2

/-- A number with a supported country code, and not the combination of national number 0 with raw input: the result consists of
diallable characters. -/
theorem C20_diallable_partial (C : Container) (hC : prefixFree C = true) (n : PhoneNumber) (r out : Str) (hcc : C.hasCC n.cc = true)
    (hraw : ¬ (n.nn = 0 ∧ n.raw ≠ [])) (h : formatForMobile C n r false = .ok out) : ∀ u ∈ out, IsDiallable u := by
  have h0 := (prefixFree_spec hC hcc).1
  unfold formatForMobile at h
  simp only [hcc, Bool.not_true, Bool.false_eq_true, if_false, bind, Except.bind, pure, Except.pure] at h
  have hd : ∀ s, normalizeDiallable s = out → ∀ u ∈ out, IsDiallable u := by
    rintro s rfl; rw [C02_filter]; exact diallableOf_all s
  split at h
  · cases h
  · split at h
    · split at h
      · exact hd _ (Except.ok.inj h)
      · split at h
        · split at h
          · cases h
          · exact hd _ (Except.ok.inj h)
        · split at h
          · cases h
          · exact hd _ (Except.ok.inj h)
    · split at h
      · cases h
      · split at h
        · obtain ⟨d, h1, h2, -⟩ := C15_only_digits C { n with extension := none } (by show 0 ≤ n.cc; omega) hraw
          rw [h1] at h
          rw [← Except.ok.inj h]
          intro u hu
          rcases List.mem_cons.1 hu with rfl | hu
          · exact .inr (.inl rfl)
          · exact .inl (h2 u hu)
        · exact hd _ (Except.ok.inj h)

/-- The shipped metadata: the call returns normally, and outside the two corners its result is diallable. -/
theorem C20_shipped_partial (n : PhoneNumber) (r : Str) :
    ∃ out, formatForMobile Data.container n r false = .ok out ∧
      (Data.container.hasCC n.cc = true → ¬ (n.nn = 0 ∧ n.raw ≠ []) → ∀ u ∈ out, IsDiallable u) := by
  have hok : ∃ out, formatForMobile Data.container n r false = .ok out := by
    obtain ⟨v, t, -, hty, -⟩ := C26_valid_iff_type _ built_shipped Data.wf_tables Data.wf_allDescs { n with extension := none }
    obtain ⟨b, hb⟩ := canBeInternationallyDialled_ok built_shipped Data.wf_tables Data.wf_allDescs { n with extension := none }
    have key : ∀ (P : Prop) [Decidable P], (if P then .ok b else .ok false : Go Bool) = .ok (if P then b else false) := by
      intro P _; split <;> rfl
    unfold formatForMobile
    by_cases hcc : Data.container.hasCC n.cc = true
    · simp only [hcc, hty, hb, Bool.not_true, Bool.false_eq_true, if_false, bind, Except.bind, pure, Except.pure]
      by_cases hreg : r = Data.container.mainRegion n.cc
      · rw [if_pos hreg]
        split
        · exact ⟨_, rfl⟩
        · by_cases h1 : n.cc = nanpaCountryCode
          · have hl : ∃ v, testNumberLength (nsnOf { n with extension := none }) (Data.container.metaForRegion r) .unknown = .ok v := by
              have hv : (Data.container.metaForRegion (Data.container.mainRegion nanpaCountryCode)).isSome = true := by kernel_rfl
              rw [hreg, h1]
              obtain ⟨m, hm⟩ := Option.isSome_iff_exists.1 hv
              rw [hm]
              exact testNumberLength_unknown_ok (List.all_eq_true.1 Data.wf_generalLengths m (Container.metaForRegion_mem hm)) _
            obtain ⟨v, hl⟩ := hl
            rw [if_pos h1]
            cases b <;> simp only [hl, Bool.false_eq_true, if_true, if_false] <;> exact ⟨_, rfl⟩
          · rw [if_neg h1]
            simp only [key]
            exact ⟨_, rfl⟩
      · rw [if_neg hreg]
        simp only [key]
        repeat' split
        all_goals exact ⟨_, rfl⟩
    · simp only [hcc]
      exact ⟨_, rfl⟩
  obtain ⟨out, ho⟩ := hok
  exact ⟨out, ho, fun h1 h2 => C20_diallable_partial _ prefixFree_shipped n r out h1 h2 ho⟩

/-- First corner: the country code is not supported, and the raw input is returned as typed. -/
theorem C20_false_unsupported : ∃ n r out, formatForMobile Data.container n r false = .ok out ∧ ¬ ∀ u ∈ out, IsDiallable u :=
  ⟨{ countryCode := some 999, nationalNumber := some 12345, rawInput := some (str!"call me") }, str!"US", str!"call me",
    by kernel_rfl, by decide⟩

/-- Second corner: a valid number (a Tajik mobile number made of nine zeros) is answered with its raw input. -/
theorem C20_false_zeros : ∃ s n r out, parseKeepRaw Data.container s (str!"TJ") = .ok (none, n) ∧
    isValidNumber Data.container n = .ok true ∧
    formatForMobile Data.container n r false = .ok out ∧ ¬ ∀ u ∈ out, IsDiallable u :=
  ⟨str!"+992 000-00-00-00",
    { countryCode := some 992, nationalNumber := some 0, italianLeadingZero := some true, numberOfLeadingZeros := some 8
      rawInput := some (str!"+992 000-00-00-00"), countryCodeSource := some .withPlusSign }, str!"US", str!"+992 000-00-00-00",
    by kernel_rfl, by kernel_rfl, by kernel_rfl, by decide⟩

/-- A case inside the theorem. -/
example : formatForMobile Data.container { countryCode := some 44, nationalNumber := some 2070313000 } (str!"GB") false =
    .ok (str!"02070313000") ∧ Data.container.hasCC 44 = true := ⟨by kernel_rfl, by kernel_rfl⟩

end Props
end Verif
