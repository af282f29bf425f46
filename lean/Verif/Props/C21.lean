import Verif.Lemmas.Tables
import Verif.Regex.Acc
import Verif.Props.C15
/-!
# C21: formatting for a call from another country
-/
namespace Verif.Spec

/-- The tilde and the characters that look like it. -/
def tildes : Str := ['~'.toNat, '⁓'.toNat, '∼'.toNat, '～'.toNat]

/-- An international dialling prefix that leaves no choice: digits, possibly with one tilde (wait for a tone) between two runs of
digits. -/
def IsUniquePrefix (s : Str) : Prop :=
  (AllDigits s ∧ s ≠ []) ∨ ∃ a t b, s = a ++ t :: b ∧ t ∈ tildes ∧ AllDigits a ∧ a ≠ [] ∧ AllDigits b ∧ b ≠ []

/-- The prefix dialled from a region: the preferred one, else the only one. -/
def DialPrefix (m : Metadata) (p : Str) : Prop :=
  p ≠ [] ∧ ((m.preferredInternationalPrefix ≠ [] ∧ p = m.preferredInternationalPrefix) ∨
    (m.preferredInternationalPrefix = [] ∧ IsUniquePrefix m.internationalPrefix.src ∧ p = m.internationalPrefix.src))

end Verif.Spec

namespace Verif
open Spec

theorem uniqueInternationalPrefix_iff (s : Str) : uniqueInternationalPrefix.isMatch s = true ↔ IsUniquePrefix s := by
  have hd : ∀ u, (⟨false, [(48, 57)], []⟩ : Cls).mem u = true ↔ IsDigit u := by
    intro u
    simp only [Cls.mem, Cls.has, inRanges, List.any_nil, Bool.or_false, bne_iff_ne, ne_eq, Bool.not_eq_false,
      Bool.and_eq_true, Nat.ble_eq, IsDigit, rune]
    split <;> simp [badBase] at * <;> omega
  have ht : ∀ u, (⟨false, [(126, 126), (8275, 8275), (8764, 8764), (65374, 65374)], []⟩ : Cls).mem u = true ↔ u ∈ tildes := by
    intro u
    simp only [Cls.mem, Cls.has, inRanges, List.any_nil, Bool.or_false, bne_iff_ne, ne_eq, Bool.not_eq_false,
      Bool.and_eq_true, Bool.or_eq_true, Nat.ble_eq, rune]
    have e : tildes = [126, 8275, 8764, 65374] := rfl
    rw [e]
    split <;> simp [badBase] at * <;> omega
  have he : uniqueInternationalPrefix = (Re.cat (.rep (.cls ⟨false, [(48, 57)], []⟩) 1 none true)
    (.rep (.cat (.cls ⟨false, [(126, 126), (8275, 8275), (8764, 8764), (65374, 65374)], []⟩)
      (.rep (.cls ⟨false, [(48, 57)], []⟩) 1 none true)) 0 (some 1) true)).full := by rfl
  rw [he, full_isMatch_iff, acc_cat]
  simp only [acc_plus_cls, acc_opt, acc_cat, acc_cls, hd, ht]
  constructor
  · rintro ⟨w1, w2, rfl, ⟨h1, h2⟩, rfl | ⟨_, b, rfl, ⟨t, rfl, h3⟩, h4, h5⟩⟩
    · left; simpa using ⟨h2, h1⟩
    · exact .inr ⟨w1, t, b, rfl, h3, h2, h1, h5, h4⟩
  · rintro (⟨h1, h2⟩ | ⟨a, t, b, rfl, h1, h2, h3, h4, h5⟩)
    · exact ⟨s, [], by simp, ⟨h2, h1⟩, .inl rfl⟩
    · exact ⟨a, t :: b, rfl, ⟨h3, h2⟩, .inr ⟨[t], b, rfl, ⟨t, rfl, h1⟩, h5, h4⟩⟩

theorem Built.nanpa {C : Container} (h : Built C) (r : Str) : C.isNanpa r = true ↔ r ∈ C.regionsOf 1 := by
  obtain ⟨coll, ccMap, h⟩ := h
  unfold newContainer at h
  split at h
  · cases h
  · cases h
    simp only [Container.isNanpa, Container.regionsOf, decide_eq_true_eq]
    exact Iff.rfl

theorem Built.validRegion {C : Container} (_ : Built C) (h0 : ([] : Str) ∉ C.supportedRegions) (r : Str) :
    C.validRegion r = true ↔ r ∈ C.supportedRegions := by
  simp only [Container.validRegion, Bool.and_eq_true, decide_eq_true_eq]
  constructor
  · exact fun h => h.2
  · intro h
    exact ⟨by rintro rfl; exact h0 h, h⟩

namespace Props

/-- From a region that is not supported, the INTERNATIONAL format is used. -/
theorem C21_unsupported_region (C : Container) (n : PhoneNumber) (r : Str) (h : r ∉ C.supportedRegions) :
    formatOutOfCountry C n r = format C n .international := by
  have : C.validRegion r = false := by
    simp only [Container.validRegion, Bool.and_eq_false_iff, decide_eq_false_iff_not]
    exact .inr h
  simp [formatOutOfCountry, this]

/-- A number whose country code is not supported: just the national significant number. -/
theorem C21_unsupported_code (C : Container) (n : PhoneNumber) (r : Str) (hr : C.validRegion r = true) (h : C.hasCC n.cc = false) :
    formatOutOfCountry C n r = nsnOf n := by
  simp [formatOutOfCountry, hr, h]

/-- Within the North American numbering plan: `1`, a space and the national format. -/
theorem C21_nanpa (C : Container) (hb : Built C) (n : PhoneNumber) (r : Str) (hr : C.validRegion r = true) (h1 : n.cc = 1)
    (h : r ∈ C.regionsOf 1) : formatOutOfCountry C n r = str!"1 " ++ format C n .national := by
  have hcc : C.hasCC n.cc = true := by rw [h1]; exact regionsOf_hasCC h
  have hd : decInt n.cc = [49] := by rw [h1]; rfl
  rw [formatOutOfCountry, if_neg (by simp [hr]), if_neg (by simp [hcc]), if_pos ⟨h1, (hb.nanpa r).2 h⟩, hd]
  rfl

/-- Elsewhere, a call within the same country code uses the national format. -/
theorem C21_same (C : Container) (n : PhoneNumber) (r : Str) (m : Metadata) (hm : C.metaForRegion r = some m)
    (h : m.countryCode = n.cc) (hcc : C.hasCC n.cc = true) (h1 : n.cc ≠ 1) : formatOutOfCountry C n r = format C n .national := by
  have hr : C.validRegion r = true := by
    unfold Container.metaForRegion at hm; split at hm
    · assumption
    · cases hm
  rw [formatOutOfCountry, if_neg (by simp [hr]), if_neg (by simp [hcc]), if_neg (fun h => h1 h.1),
    if_pos ⟨h1, by simp [Container.ccForValidRegion, hm, h]⟩]

/-- In every other case: let `+` followed by `rest` be the INTERNATIONAL format (of the message without raw input).  The result is
the dialling prefix of the calling region, a space and `rest`; without such a prefix it is the INTERNATIONAL format. -/
theorem C21_abroad (C : Container) (hb : Built C) (ht : tablesOk C = true) (hC : prefixFree C = true) (n : PhoneNumber) (r : Str) (m : Metadata)
    (hm : C.metaForRegion r = some m) (hcc : C.hasCC n.cc = true) (h : m.countryCode ≠ n.cc) :
    ∃ body, format C { n with rawInput := none } .international = '+'.toNat :: (decimal n.cc.toNat ++ ' '.toNat :: body) ∧
      (∀ p, DialPrefix m p → formatOutOfCountry C n r = p ++ ' '.toNat :: (decimal n.cc.toNat ++ ' '.toNat :: body)) ∧
      ((∀ p, ¬ DialPrefix m p) → formatOutOfCountry C n r = '+'.toNat :: (decimal n.cc.toNat ++ ' '.toNat :: body)) := by
  have hr : C.validRegion r = true := by
    unfold Container.metaForRegion at hm; split at hm
    · assumption
    · cases hm
  have h0 := (prefixFree_spec hC hcc).1
  have hdec := decInt_nonneg (c := n.cc) (by omega)
  have hn1 : ¬ (n.cc = nanpaCountryCode ∧ C.isNanpa r = true) := by
    rintro ⟨h1, h2⟩
    have hmem := (hb.nanpa r).1 h2
    rcases regionsOf_meta hb ht hmem with ⟨h3, -⟩ | ⟨-, -, m', h3, -, h4⟩
    · have hm' := (hb.supported r).1 (by simp only [Container.validRegion, Bool.and_eq_true, decide_eq_true_eq] at hr; exact hr.2)
      exact hm'.1 h3
    · rw [hm] at h3; cases h3
      exact h (h4.trans h1.symm)
  have hn2 : ¬ (n.cc ≠ nanpaCountryCode ∧ n.cc = C.ccForValidRegion r) := by
    rintro ⟨h1, h2⟩
    simp only [Container.ccForValidRegion, hm] at h2
    exact h h2.symm
  have hout : formatOutOfCountry C n r =
      let p := if m.preferredInternationalPrefix ≠ [] then m.preferredInternationalPrefix
        else if uniqueInternationalPrefix.isMatch m.internationalPrefix.src then m.internationalPrefix.src else []
      let body := appendExtension n (C.metaFor n.cc (C.mainRegion n.cc)) .international
        (formatNsn (nsnOf n) (C.metaFor n.cc (C.mainRegion n.cc)) .international [])
      if p ≠ [] then p ++ 32 :: (decInt n.cc ++ 32 :: body) else prefixWithCC n.cc .international body := by
    rw [formatOutOfCountry, if_neg (by simp [hr]), if_neg (by simp [hcc]), if_neg hn1, if_neg hn2]
    simp only [hm]
  refine ⟨appendExtension n (C.metaFor n.cc (C.mainRegion n.cc)) .international
      (formatNsn (nsnOf n) (C.metaFor n.cc (C.mainRegion n.cc)) .international []), ?_, ?_, ?_⟩
  · have hraw : ¬ (({ n with rawInput := none } : PhoneNumber).nn = 0 ∧ ({ n with rawInput := none } : PhoneNumber).raw ≠ []) := by
      simp [PhoneNumber.raw]
    have hcc' : C.hasCC ({ n with rawInput := none } : PhoneNumber).cc = true := hcc
    rw [format, if_neg hraw, formatCore, if_neg (by simp), if_neg (by simp [hcc']), prefixWithCC, ← hdec]
    rfl
  · rintro p ⟨hp, ⟨h1, rfl⟩ | ⟨h1, h2, rfl⟩⟩
    · rw [hout]; simp only [if_pos h1]; rw [hdec]; rfl
    · rw [hout]
      simp only [if_neg (not_not_intro h1), (uniqueInternationalPrefix_iff _).2 h2, if_true, if_pos hp]; rw [hdec]; rfl
  · intro hp
    have hempty : (if m.preferredInternationalPrefix ≠ [] then m.preferredInternationalPrefix
        else if uniqueInternationalPrefix.isMatch m.internationalPrefix.src then m.internationalPrefix.src else []) = [] := by
      split
      · rename_i h1; exact absurd ⟨h1, .inl ⟨h1, rfl⟩⟩ (hp _)
      · rename_i h1
        split
        · rename_i h2
          have h2 := (uniqueInternationalPrefix_iff _).1 h2
          cases hs : m.internationalPrefix.src with
          | nil => rfl
          | cons a b => exact absurd ⟨by simp [hs], .inr ⟨Classical.not_not.1 h1, h2, rfl⟩⟩ (hp m.internationalPrefix.src)
        · rfl
    rw [hout]
    simp only [hempty]
    simp [prefixWithCC, hdec]

/-- The shipped metadata: the four cases, for every number and calling region. -/
theorem C21_shipped (n : PhoneNumber) (r : Str) :
    (r ∉ Data.container.supportedRegions → formatOutOfCountry Data.container n r = format Data.container n .international) ∧
    (∀ m, Data.container.metaForRegion r = some m →
      (n.cc ∉ Data.container.supportedCodes → formatOutOfCountry Data.container n r = nsnOf n) ∧
      (n.cc = 1 → m.countryCode = 1 → formatOutOfCountry Data.container n r = str!"1 " ++ format Data.container n .national) ∧
      (n.cc ∈ Data.container.supportedCodes → n.cc ≠ 1 → m.countryCode = n.cc →
        formatOutOfCountry Data.container n r = format Data.container n .national) ∧
      (n.cc ∈ Data.container.supportedCodes → m.countryCode ≠ n.cc →
        ∃ body, format Data.container { n with rawInput := none } .international =
            '+'.toNat :: (decimal n.cc.toNat ++ ' '.toNat :: body) ∧
          (∀ p, DialPrefix m p →
            formatOutOfCountry Data.container n r = p ++ ' '.toNat :: (decimal n.cc.toNat ++ ' '.toNat :: body)) ∧
          ((∀ p, ¬ DialPrefix m p) →
            formatOutOfCountry Data.container n r = '+'.toNat :: (decimal n.cc.toNat ++ ' '.toNat :: body)))) := by
  have hs : Data.container.supportedCodes = Data.container.ccToRegion.map (·.1) := by kernel_rfl
  have hcc : ∀ c, c ∈ Data.container.supportedCodes ↔ Data.container.hasCC c = true := by
    intro c; rw [hs]; exact mapGet_isSome_iff.symm
  refine ⟨C21_unsupported_region _ n r, fun m hm => ?_⟩
  have hr : Data.container.validRegion r = true := by
    unfold Container.metaForRegion at hm; split at hm
    · assumption
    · cases hm
  refine ⟨?_, ?_, ?_, ?_⟩
  · intro h
    rw [hcc, Bool.not_eq_true] at h
    exact C21_unsupported_code _ n r hr h
  · intro h1 h2
    refine C21_nanpa _ built_shipped n r hr h1 ?_
    obtain ⟨-, m', h3, -, h5⟩ := validRegion_meta built_shipped Data.wf_tables hr
    rw [hm] at h3; cases h3
    rwa [h2] at h5
  · intro h1 h2 h3
    exact C21_same _ n r m hm h3 ((hcc _).1 h1) h2
  · intro h1 h2
    exact C21_abroad _ built_shipped Data.wf_tables prefixFree_shipped n r m hm ((hcc _).1 h1) h2

/-- From Singapore (no unique prefix, no preferred one) and from Australia (preferred prefix) to Switzerland. -/
example : formatOutOfCountry Data.container { countryCode := some 41, nationalNumber := some 446681800 } (str!"SG") =
    str!"+41 44 668 18 00" := by kernel_rfl
example : formatOutOfCountry Data.container { countryCode := some 41, nationalNumber := some 446681800 } (str!"AU") =
    str!"0011 41 44 668 18 00" := by kernel_rfl
example : formatOutOfCountry Data.container { countryCode := some 1, nationalNumber := some 6502530000 } (str!"BS") =
    str!"1 (650) 253-0000" := by kernel_rfl
example : ∃ m, Data.container.metaForRegion (str!"AU") = some m ∧ DialPrefix m (str!"0011") := by
  obtain ⟨m, h1⟩ : ∃ m, Data.container.metaForRegion (str!"AU") = some m :=
    Option.isSome_iff_exists.1 (show (Data.container.metaForRegion (str!"AU")).isSome = true by kernel_rfl)
  have h2 : (Data.container.metaForRegion (str!"AU")).map (·.preferredInternationalPrefix) = some (str!"0011") := by kernel_rfl
  rw [h1] at h2
  simp only [Option.map_some, Option.some.injEq] at h2
  exact ⟨m, h1, by decide, .inl ⟨by rw [h2]; decide, h2.symm⟩⟩

end Props
end Verif
