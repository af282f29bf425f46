import Verif.Props.C31
import Verif.Props.C06
/-!
# C54: invalid example numbers exist and are invalid
-/
namespace Verif
open Spec

theorem invalidExampleLoop_spec {C : Container} (hb : Built C) (ht : tablesOk C = true) (hd : C.allMeta.all hasAllDescs = true)
    (hg : C.allMeta.all hasGeneralLengths = true) (ex r : Str) (l : Nat) :
    ∃ o, invalidExampleLoop C ex r l = .ok o ∧ (∀ n, o = some n → isValidNumber C n = .ok false) ∧
      ((∃ k n, minLengthForNSN ≤ k ∧ k ≤ l ∧ parse C (ex.take k) r = .ok (none, n) ∧ isValidNumber C n = .ok false) → o ≠ none) := by
  induction l with
  | zero => exact ⟨none, rfl, by simp, by rintro ⟨k, n, h1, h2, -⟩; simp only [minLengthForNSN] at h1; omega⟩
  | succ l ih =>
    obtain ⟨o, h1, h2, h3⟩ := ih
    unfold invalidExampleLoop
    split
    · refine ⟨none, rfl, by simp, ?_⟩
      rintro ⟨k, n, h4, h5, -⟩; omega
    · obtain ⟨⟨e, n, hp⟩, -⟩ := Props.C06_no_panic C hg (ex.take (l + 1)) r
      obtain ⟨v, t, hv, -, -⟩ := Props.C26_valid_iff_type C hb ht hd n
      have key : o ≠ none ∨ ¬ ∃ k n, minLengthForNSN ≤ k ∧ k ≤ l ∧ parse C (ex.take k) r = .ok (none, n) ∧ isValidNumber C n = .ok false := by
        by_cases hk : ∃ k n, minLengthForNSN ≤ k ∧ k ≤ l ∧ parse C (ex.take k) r = .ok (none, n) ∧ isValidNumber C n = .ok false
        · exact .inl (h3 hk)
        · exact .inr hk
      simp only [hp, bind, Except.bind, pure, Except.pure]
      cases e with
      | some e =>
        refine ⟨o, h1, h2, ?_⟩
        rintro ⟨k, n', h4, h5, h6, h7⟩
        refine h3 ⟨k, n', h4, ?_, h6, h7⟩
        rcases Nat.lt_or_eq_of_le h5 with h8 | rfl
        · omega
        · rw [h6] at hp; simp at hp
      | none =>
        simp only [hv]
        cases v with
        | false => exact ⟨some n, by simp, by rintro n' h; cases h; exact hv, by simp⟩
        | true =>
          refine ⟨o, by simpa using h1, h2, ?_⟩
          rintro ⟨k, n', h4, h5, h6, h7⟩
          refine h3 ⟨k, n', h4, ?_, h6, h7⟩
          rcases Nat.lt_or_eq_of_le h5 with h8 | rfl
          · omega
          · rw [h6] at hp; simp at hp; rw [← hp, h7] at hv; simp at hv

theorem hasInvalid_spec {ms : List Metadata} {m : Metadata} {ex : Str} {l : Nat} (h : hasInvalid ms m ex l = true) :
    ∃ k nsn, k ≤ l ∧ plainNsn m (ex.take k) = some nsn ∧ typeAmong nsn ms = some .unknown := by
  induction l with
  | zero => simp [hasInvalid] at h
  | succ l ih =>
    unfold hasInvalid at h
    cases hp : plainNsn m (ex.take (l + 1)) with
    | none =>
      simp only [hp] at h
      obtain ⟨k, nsn, h1, h2⟩ := ih h
      exact ⟨k, nsn, by omega, h2⟩
    | some nsn =>
      simp only [hp] at h
      by_cases hu : typeAmong nsn ms = some .unknown
      · exact ⟨l + 1, nsn, by omega, hp, hu⟩
      · have : hasInvalid ms m ex l = true := by split at h <;> simp_all
        obtain ⟨k, nsn, h1, h2⟩ := ih this
        exact ⟨k, nsn, by omega, h2⟩

theorem plainNsn_length {m : Metadata} {d nsn : Str} (h : plainNsn m d = some nsn) : 3 ≤ d.length := by
  unfold plainNsn at h
  cases h1 : d.all isDig && Nat.ble 3 d.length && Nat.ble d.length 250 with
  | false => simp [h1] at h
  | true => simp only [Bool.and_eq_true, Nat.ble_eq] at h1; exact h1.1.2

namespace Props

/-- Whatever the metadata, `GetInvalidExampleNumber` returns nothing but invalid numbers. -/
theorem C54_invalid (C : Container) (hb : Built C) (ht : tablesOk C = true) (hd : C.allMeta.all hasAllDescs = true)
    (hg : C.allMeta.all hasGeneralLengths = true) (r : Str) :
    ∃ o, invalidExample C r = .ok o ∧ ∀ n, o = some n → isValidNumber C n = .ok false := by
  unfold invalidExample
  split
  · exact ⟨none, rfl, by simp⟩
  · simp only []
    split
    · exact ⟨none, rfl, by simp⟩
    · obtain ⟨o, h1, h2, -⟩ := invalidExampleLoop_spec hb ht hd hg (descEx (descByType (C.metaForRegion r) .fixedLine)) r
        ((descEx (descByType (C.metaForRegion r) .fixedLine)).length - 1)
      exact ⟨o, h1, h2⟩

/-- The shipped metadata: an invalid number for every supported region. -/
theorem C54_shipped (r : Str) (hr : Data.container.validRegion r = true) :
    ∃ n, invalidExample Data.container r = .ok (some n) ∧ isValidNumber Data.container n = .ok false := by
  obtain ⟨h1, m, h2, h3, h4⟩ := validRegion_meta built_shipped Data.wf_tables hr
  have hmem : m ∈ metasOf Data.container (Data.container.regionsOf m.countryCode) := List.mem_filterMap.2 ⟨r, h4, h3⟩
  have h5 := List.all_eq_true.1 Data.wf_invalid _ (regionsOf_entry h4)
  have h5 := List.all_eq_true.1 h5 m hmem
  obtain ⟨k, nsn, h6, h7, h8⟩ := hasInvalid_spec h5
  have hk := plainNsn_length h7
  rw [List.length_take] at hk
  obtain ⟨n, h9, t, h10, h11⟩ := parse_plain built_shipped Data.wf_tables Data.wf_allDescs Data.wf_regions Data.wf_transform hr h2 h1 h4 h7
  obtain rfl : NumType.unknown = t := by rw [h8] at h11; exact Option.some.inj h11
  obtain ⟨v, t', h12, h13, h14⟩ := C26_shipped n
  obtain rfl : NumType.unknown = t' := by rw [h10] at h13; exact Except.ok.inj h13
  have hv : isValidNumber Data.container n = .ok false := by
    rw [h12]; cases v with
    | false => rfl
    | true => exact absurd rfl (h14.1 rfl)
  obtain ⟨o, h15, h16, h17⟩ := invalidExampleLoop_spec built_shipped Data.wf_tables Data.wf_allDescs Data.wf_generalLengths
    (descEx (descByType (some m) .fixedLine)) r ((descEx (descByType (some m) .fixedLine)).length - 1)
  have h18 := h17 ⟨k, n, by simp only [minLengthForNSN]; omega, h6, h9, hv⟩
  cases o with
  | none => exact absurd rfl h18
  | some n' =>
    refine ⟨n', ?_, h16 n' rfl⟩
    unfold invalidExample
    rw [hr, h2]
    simp only [Bool.not_true, Bool.false_eq_true, if_false]
    rw [if_neg (by intro h0; rw [h0] at hk; simp at hk), h15]

/-- And nothing for any other text. -/
theorem C54_unsupported (C : Container) (r : Str) (hr : C.validRegion r = false) : invalidExample C r = .ok none := by
  simp [invalidExample, hr]

example : invalidExample Data.container (str!"GB") = .ok (some { countryCode := some 44, nationalNumber := some 121234567 }) := by
  kernel_rfl

end Props
end Verif
