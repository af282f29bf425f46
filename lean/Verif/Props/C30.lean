import Verif.Model.Nsn
import Verif.Regex.Lang
import Verif.Lemmas.Str
import Verif.Data.Wf
import Verif.Lemmas.Container
import Verif.Props.C04
/-!
# C30: the number type is decided by a fixed priority
-/
namespace Verif.Spec

/-- A national significant number matches a description: its length is listed (an empty list allows every length) and the whole
number is in the language of the description's pattern. -/
def DescMatches (nsn : Str) (d : Desc) : Prop :=
  (d.lengths = [] ∨ (nsn.length : Int) ∈ d.lengths) ∧ (d.pattern.getD ⟨[], .eps⟩).re.Acc 0 nsn []

/-- `DescMatches` for a description that may be absent. -/
def Matches (nsn : Str) (d : Option Desc) : Prop := ∃ x, d = some x ∧ DescMatches nsn x

/-- The kinds of numbers that are looked at before fixed line and mobile, in order of priority. -/
def specialKinds (m : Metadata) : List (Option Desc × NumType) :=
  [(m.premium, .premiumRate), (m.tollFree, .tollFree), (m.sharedCost, .sharedCost), (m.voip, .voip), (m.personal, .personalNumber),
   (m.pager, .pager), (m.uan, .uan), (m.voicemail, .voicemail)]

/-- The type of a national significant number under a metadata entry. -/
inductive HasType (nsn : Str) (m : Metadata) : NumType → Prop
  /-- the general description does not match -/
  | notGeneral (h : ¬ Matches nsn m.general) : HasType nsn m .unknown
  /-- the first special kind that matches -/
  | special {pre post : List (Option Desc × NumType)} {d : Option Desc} {t : NumType} (hg : Matches nsn m.general)
      (hs : specialKinds m = pre ++ (d, t) :: post) (hd : Matches nsn d) (hpre : ∀ x ∈ pre, ¬ Matches nsn x.1) : HasType nsn m t
  /-- fixed line and mobile cannot be told apart, or both match -/
  | both (hg : Matches nsn m.general) (hs : ∀ x ∈ specialKinds m, ¬ Matches nsn x.1) (hf : Matches nsn m.fixedLine)
      (hm : m.sameMobileFixed = true ∨ Matches nsn m.mobile) : HasType nsn m .fixedLineOrMobile
  | fixed (hg : Matches nsn m.general) (hs : ∀ x ∈ specialKinds m, ¬ Matches nsn x.1) (hf : Matches nsn m.fixedLine)
      (hsame : m.sameMobileFixed = false) (hm : ¬ Matches nsn m.mobile) : HasType nsn m .fixedLine
  | mobile (hg : Matches nsn m.general) (hs : ∀ x ∈ specialKinds m, ¬ Matches nsn x.1) (hf : ¬ Matches nsn m.fixedLine)
      (hsame : m.sameMobileFixed = false) (hm : Matches nsn m.mobile) : HasType nsn m .mobile
  | neither (hg : Matches nsn m.general) (hs : ∀ x ∈ specialKinds m, ¬ Matches nsn x.1) (hf : ¬ Matches nsn m.fixedLine)
      (hm : m.sameMobileFixed = true ∨ ¬ Matches nsn m.mobile) : HasType nsn m .unknown

end Verif.Spec

namespace Verif
open Spec

theorem isMatchingDesc_spec (nsn : Str) (hn : ∀ u ∈ nsn, isDig u = true) (d : Desc) :
    ∃ b, isMatchingDesc nsn (some d) = .ok b ∧ (b = true ↔ Matches nsn (some d)) := by
  have hl : blen nsn = nsn.length := blen_digits hn
  have hp : (descPat (some d)).re = (d.pattern.getD ⟨[], .eps⟩).re := rfl
  have hM : Matches nsn (some d) ↔ DescMatches nsn d := ⟨fun ⟨x, hx, h⟩ => by cases hx; exact h, fun h => ⟨d, rfl, h⟩⟩
  rw [hM]
  simp only [isMatchingDesc, isPossibleForDesc, bind, Except.bind, pure, Except.pure, hl, hp]
  by_cases h1 : d.lengths ≠ [] ∧ (nsn.length : Int) ∉ d.lengths
  · refine ⟨false, by simp only [h1, and_self, if_true, ne_eq, not_false_eq_true, Bool.false_and], ?_⟩
    simp only [DescMatches, Bool.false_eq_true, false_iff]
    rintro ⟨h2 | h2, _⟩
    · exact h1.1 h2
    · exact h1.2 h2
  · refine ⟨(d.pattern.getD ⟨[], .eps⟩).re.full.isMatch nsn, by simp only [if_neg h1, Bool.and_self], ?_⟩
    rw [full_isMatch_iff]
    unfold DescMatches
    constructor
    · intro h
      refine ⟨?_, h⟩
      by_cases h0 : d.lengths = []
      · exact .inl h0
      · refine .inr (Decidable.by_contra fun h2 => h1 ⟨h0, h2⟩)
    · exact fun h => h.2

end Verif

namespace Verif.Props
open Spec

/-- A number has at most one type. -/
theorem HasType.unique {nsn : Str} {m : Metadata} {t t' : NumType} (h : HasType nsn m t) (h' : HasType nsn m t') : t = t' := by
  have mem : ∀ {pre post : List (Option Desc × NumType)} {d : Option Desc} {t : NumType}, specialKinds m = pre ++ (d, t) :: post →
      (d, t) ∈ specialKinds m := fun h => by rw [h]; simp
  cases h with
  | notGeneral h => cases h' <;> first | rfl | contradiction
  | special hg hs hd hpre =>
    cases h' with
    | notGeneral h => contradiction
    | special hg' hs' hd' hpre' =>
      rw [hs] at hs'
      rcases List.append_eq_append_iff.1 hs' with ⟨x, hx1, hx2⟩ | ⟨x, hx1, hx2⟩
      · cases x with
        | nil => simp at hx2; exact hx2.1.2
        | cons y x =>
          simp at hx2
          have hy := hpre' y (by rw [hx1]; simp)
          rw [← hx2.1] at hy
          exact absurd hd hy
      · cases x with
        | nil => simp at hx2; exact hx2.1.2.symm
        | cons y x =>
          simp at hx2
          have hy := hpre y (by rw [hx1]; simp)
          rw [← hx2.1] at hy
          exact absurd hd' hy
    | both hg' hs' => exact absurd hd (hs' _ (mem hs))
    | fixed hg' hs' => exact absurd hd (hs' _ (mem hs))
    | mobile hg' hs' => exact absurd hd (hs' _ (mem hs))
    | neither hg' hs' => exact absurd hd (hs' _ (mem hs))
  | both hg hs =>
    cases h' <;> first | rfl | contradiction | (rename_i h3 h4 h2; exact absurd h3 (hs _ (mem h2))) | simp_all
  | fixed hg hs =>
    cases h' <;> first | rfl | contradiction | (rename_i h3 h4 h2; exact absurd h3 (hs _ (mem h2))) | simp_all
  | mobile hg hs =>
    cases h' <;> first | rfl | contradiction | (rename_i h3 h4 h2; exact absurd h3 (hs _ (mem h2))) | simp_all
  | neither hg hs =>
    cases h' <;> first | rfl | contradiction | (rename_i h3 h4 h2; exact absurd h3 (hs _ (mem h2))) | simp_all

theorem hasAllDescs_some {m : Metadata} (h : hasAllDescs m = true) {d : Option Desc} (hd : d ∈ typeDescs m) : ∃ x, d = some x := by
  simp only [hasAllDescs, Bool.and_eq_true, List.all_eq_true] at h
  exact Option.isSome_iff_exists.1 (h.1 d hd)

/-- For every number and every metadata entry that has all descriptions, the helper returns the type given by the specification. -/
theorem C30_type (m : Metadata) (h : hasAllDescs m = true) (nsn : Str) (hn : AllDigits nsn) (t : NumType) :
    numberTypeHelper nsn (some m) = .ok t ↔ HasType nsn m t := by
  suffices hs : ∃ t, numberTypeHelper nsn (some m) = .ok t ∧ HasType nsn m t by
    obtain ⟨t', h1, h2⟩ := hs
    rw [h1]
    constructor
    · intro e; cases e; exact h2
    · intro e; rw [HasType.unique h2 e]
  have hd : ∀ u ∈ nsn, isDig u = true := fun u hu => (isDig_iff u).2 (hn u hu)
  have key : ∀ d ∈ typeDescs m, ∃ b, isMatchingDesc nsn d = .ok b ∧ (b = true ↔ Matches nsn d) := by
    intro d hm
    obtain ⟨x, rfl⟩ := hasAllDescs_some h hm
    exact isMatchingDesc_spec nsn hd x
  obtain ⟨bg, eg, sg⟩ := key m.general (by simp [typeDescs])
  obtain ⟨b1, e1, s1⟩ := key m.premium (by simp [typeDescs])
  obtain ⟨b2, e2, s2⟩ := key m.tollFree (by simp [typeDescs])
  obtain ⟨b3, e3, s3⟩ := key m.sharedCost (by simp [typeDescs])
  obtain ⟨b4, e4, s4⟩ := key m.voip (by simp [typeDescs])
  obtain ⟨b5, e5, s5⟩ := key m.personal (by simp [typeDescs])
  obtain ⟨b6, e6, s6⟩ := key m.pager (by simp [typeDescs])
  obtain ⟨b7, e7, s7⟩ := key m.uan (by simp [typeDescs])
  obtain ⟨b8, e8, s8⟩ := key m.voicemail (by simp [typeDescs])
  obtain ⟨bf, ef, sf⟩ := key m.fixedLine (by simp [typeDescs])
  obtain ⟨bm, em, sm⟩ := key m.mobile (by simp [typeDescs])
  unfold numberTypeHelper
  simp only [Option.bind_some, eg, e1, e2, e3, e4, e5, e6, e7, e8, ef, em, bind, Except.bind, pure, Except.pure]
  cases bg with
  | false => exact ⟨_, rfl, .notGeneral (fun h => absurd (sg.2 h) (by simp))⟩
  | true =>
    have hg := sg.1 rfl
    simp only [Bool.not_true, Bool.false_eq_true, if_false]
    cases b1 with
    | true => exact ⟨_, rfl, .special (pre := []) hg rfl (s1.1 rfl) (by simp)⟩
    | false =>
    have n1 : ¬ Matches nsn m.premium := fun h => absurd (s1.2 h) (by simp)
    cases b2 with
    | true => exact ⟨_, rfl, .special (pre := [_]) hg rfl (s2.1 rfl) (by simp [n1])⟩
    | false =>
    have n2 : ¬ Matches nsn m.tollFree := fun h => absurd (s2.2 h) (by simp)
    cases b3 with
    | true => exact ⟨_, rfl, .special (pre := [_, _]) hg rfl (s3.1 rfl) (by simp [n1, n2])⟩
    | false =>
    have n3 : ¬ Matches nsn m.sharedCost := fun h => absurd (s3.2 h) (by simp)
    cases b4 with
    | true => exact ⟨_, rfl, .special (pre := [_, _, _]) hg rfl (s4.1 rfl) (by simp [n1, n2, n3])⟩
    | false =>
    have n4 : ¬ Matches nsn m.voip := fun h => absurd (s4.2 h) (by simp)
    cases b5 with
    | true => exact ⟨_, rfl, .special (pre := [_, _, _, _]) hg rfl (s5.1 rfl) (by simp [n1, n2, n3, n4])⟩
    | false =>
    have n5 : ¬ Matches nsn m.personal := fun h => absurd (s5.2 h) (by simp)
    cases b6 with
    | true => exact ⟨_, rfl, .special (pre := [_, _, _, _, _]) hg rfl (s6.1 rfl) (by simp [n1, n2, n3, n4, n5])⟩
    | false =>
    have n6 : ¬ Matches nsn m.pager := fun h => absurd (s6.2 h) (by simp)
    cases b7 with
    | true => exact ⟨_, rfl, .special (pre := [_, _, _, _, _, _]) hg rfl (s7.1 rfl) (by simp [n1, n2, n3, n4, n5, n6])⟩
    | false =>
    have n7 : ¬ Matches nsn m.uan := fun h => absurd (s7.2 h) (by simp)
    cases b8 with
    | true => exact ⟨_, rfl, .special (pre := [_, _, _, _, _, _, _]) hg rfl (s8.1 rfl) (by simp [n1, n2, n3, n4, n5, n6, n7])⟩
    | false =>
    have n8 : ¬ Matches nsn m.voicemail := fun h => absurd (s8.2 h) (by simp)
    have ns : ∀ x ∈ specialKinds m, ¬ Matches nsn x.1 := by simp [specialKinds, n1, n2, n3, n4, n5, n6, n7, n8]
    simp only [Bool.false_eq_true, if_false]
    rcases Bool.eq_false_or_eq_true m.sameMobileFixed with hsame | hsame <;> cases bf <;> cases bm <;>
      simp only [hsame, if_true, Bool.false_eq_true, if_false]
    · exact ⟨_, rfl, .neither hg ns (fun h => absurd (sf.2 h) (by simp)) (.inl hsame)⟩
    · exact ⟨_, rfl, .neither hg ns (fun h => absurd (sf.2 h) (by simp)) (.inl hsame)⟩
    · exact ⟨_, rfl, .both hg ns (sf.1 rfl) (.inl hsame)⟩
    · exact ⟨_, rfl, .both hg ns (sf.1 rfl) (.inl hsame)⟩
    · exact ⟨_, rfl, .neither hg ns (fun h => absurd (sf.2 h) (by simp)) (.inr (fun h => absurd (sm.2 h) (by simp)))⟩
    · exact ⟨_, rfl, .mobile hg ns (fun h => absurd (sf.2 h) (by simp)) hsame (sm.1 rfl)⟩
    · exact ⟨_, rfl, .fixed hg ns (sf.1 rfl) hsame (fun h => absurd (sm.2 h) (by simp))⟩
    · exact ⟨_, rfl, .both hg ns (sf.1 rfl) (.inr (sm.1 rfl))⟩

/-- `GetNumberType`: the type of the number's NSN under the metadata of its region; UNKNOWN when there is none. -/
theorem C30_number (C : Container) (n : PhoneNumber) (r : Str) (hr : regionForNumber C n = .ok r)
    (hC : C.allMeta.all hasAllDescs = true) (t : NumType) :
    numberType C n = .ok t ↔ match C.metaFor n.cc r with | some m => HasType (nsnOf n) m t | none => t = .unknown := by
  simp only [numberType, hr, bind, Except.bind]
  cases hm : C.metaFor n.cc r with
  | none =>
    simp only [pure, Except.pure, Except.ok.injEq]
    exact eq_comm
  | some m => exact C30_type m (List.all_eq_true.1 hC m (Container.metaFor_mem hm)) _ (C04_digits n) t

example : Data.container.allMeta.all hasAllDescs = true := Data.wf_allDescs
example : numberType Data.container { countryCode := some 41, nationalNumber := some 446681800 } = .ok .fixedLine := by kernel_rfl
example : numberType Data.container { countryCode := some 1, nationalNumber := some 8002345678 } = .ok .tollFree := by kernel_rfl
example : regionForNumber Data.container { countryCode := some 1, nationalNumber := some 2423651234 } = .ok (str!"BS") := by kernel_rfl

end Verif.Props
