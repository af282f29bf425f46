import Verif.Props.C45
import Verif.Props.C26
import Verif.Data.Zones
/-!
# C56: carrier names only for mobile numbers, safe names only without portability
-/
namespace Verif.Props
open Verif Spec

/-- The types a carrier is looked up for. -/
def MobileType (t : NumType) : Prop := t = .mobile ∨ t = .fixedLineOrMobile ∨ t = .pager

theorem isMobileType_iff (t : NumType) : isMobileType t = true ↔ MobileType t := by
  simp [isMobileType, MobileType, or_assoc]

/-- The name found for the digits `ds`: of the longest prefix, or empty. -/
def NameOf (m : List (Int × Bytes)) (ds : Str) (v : Bytes) : Prop :=
  (∃ p k, LongestPrefix m ds 9 p k v) ∨ (NoPrefix m ds 9 ∧ v = [])

/-- `GetNameForNumber`: the name of the longest prefix for mobile types, empty for all others; no error. -/
theorem C56_name (C : Container) (m : List (Int × Bytes)) (hk : (m.map (·.1)).Nodup) (n : PhoneNumber) (t : NumType)
    (ht : numberType C n = .ok t) (hcc : 0 ≤ n.cc) (hraw : ¬ (n.nn = 0 ∧ n.raw ≠ [])) :
    ∃ v, carrierForNumber C (some m) n = .ok (some v) ∧ (MobileType t → NameOf m (decimal n.cc.toNat ++ nsnOf n) v) ∧
      (¬ MobileType t → v = []) := by
  simp only [carrierForNumber, ht, bind, Except.bind, pure, Except.pure]
  by_cases h : MobileType t
  · obtain ⟨v, h1, h2⟩ := C45_carrier C m hk n hcc hraw
    exact ⟨v, by rw [(isMobileType_iff t).2 h, if_pos rfl, h1], fun _ => h2, fun h' => absurd h h'⟩
  · have hb : isMobileType t = false := by rw [← Bool.not_eq_true, isMobileType_iff]; exact h
    exact ⟨[], by simp [hb], fun h' => absurd h' h, fun _ => rfl⟩

/-- A number of a known type on the shipped metadata has a positive country code: nothing needs to be assumed about it. -/
theorem C56_shipped (m : List (Int × Bytes)) (hk : (m.map (·.1)).Nodup) (n : PhoneNumber) (hraw : ¬ (n.nn = 0 ∧ n.raw ≠ [])) :
    ∃ t r v s, numberType Data.container n = .ok t ∧ regionForNumber Data.container n = .ok r ∧
      carrierForNumber Data.container (some m) n = .ok (some v) ∧ carrierSafe Data.container (some m) n = .ok (some s) ∧
      (MobileType t → NameOf m (decimal n.cc.toNat ++ nsnOf n) v) ∧ (¬ MobileType t → v = []) ∧
      ((∃ x ∈ Data.container.allMeta, Data.container.metaForRegion r = some x ∧ x.mobilePortable = true) → s = []) ∧
      ((∀ x, Data.container.metaForRegion r = some x → x.mobilePortable = false) → s = v) := by
  obtain ⟨_, t, _, ht, _⟩ := C26_shipped n
  obtain ⟨r, hr, _⟩ := regionForNumber_ok built_shipped Data.wf_tables Data.wf_allDescs n
  have hv : ∃ v, carrierForNumber Data.container (some m) n = .ok (some v) ∧ (MobileType t → NameOf m (decimal n.cc.toNat ++ nsnOf n) v) ∧
      (¬ MobileType t → v = []) := by
    by_cases hm : MobileType t
    · have hcc : 0 ≤ n.cc := by
        rcases regionForNumber_cases built_shipped Data.wf_tables Data.wf_allDescs n with hr | ⟨r, x, hr, hmem, hx, _⟩
        · have := (C30_number _ n [] hr Data.wf_allDescs t).1 ht
          rw [metaFor_nil] at this
          rcases hm with h | h | h <;> rw [this] at h <;> cases h
        · exact Int.le_of_lt (cc_pos hmem)
      exact C56_name _ m hk n t ht hcc hraw
    · refine ⟨[], ?_, fun h => absurd h hm, fun _ => rfl⟩
      have hb : isMobileType t = false := by rw [← Bool.not_eq_true, isMobileType_iff]; exact hm
      simp [carrierForNumber, ht, bind, Except.bind, pure, Except.pure, hb]
  obtain ⟨v, h1, h2, h3⟩ := hv
  by_cases hp : Data.container.isMobilePortable r = true
  · refine ⟨t, r, v, [], ht, hr, h1, ?_, h2, h3, fun _ => rfl, fun h => ?_⟩
    · simp [carrierSafe, hr, bind, Except.bind, pure, Except.pure, hp]
    · unfold Container.isMobilePortable at hp
      split at hp
      · rename_i x hx; rw [h x hx] at hp; cases hp
      · cases hp
  · refine ⟨t, r, v, v, ht, hr, h1, ?_, h2, h3, ?_, fun _ => rfl⟩
    · simp only [carrierSafe, hr, bind, Except.bind, hp, Bool.false_eq_true, if_false, h1]
    · rintro ⟨x, _, hx, hxp⟩
      exact absurd (by simp [Container.isMobilePortable, hx, hxp]) hp

/-- The exception is real: the Tajik mobile number 000000000, parsed keeping the raw input "+992 000000000", is valid and of type
MOBILE, and looking up its carrier fails, because formatting it gives the raw text back. -/
theorem C56_raw_fails : ∃ n, parseKeepRaw Data.container (str!"+992 000000000") (str!"ZZ") = .ok (none, n) ∧
    isValidNumber Data.container n = .ok true ∧ numberType Data.container n = .ok .mobile ∧
    ∀ m, carrierForNumber Data.container (some m) n = .ok none := by
  refine ⟨{ countryCode := some 992, nationalNumber := some 0, italianLeadingZero := some true, numberOfLeadingZeros := some 8, rawInput := some (str!"+992 000000000"), countryCodeSource := some .withPlusSign }, ?_⟩
  refine ⟨by kernel_rfl, by kernel_rfl, by kernel_rfl, fun m => ?_⟩
  have ht : numberType Data.container { countryCode := some 992, nationalNumber := some 0, italianLeadingZero := some true, numberOfLeadingZeros := some 8, rawInput := some (str!"+992 000000000"), countryCodeSource := some .withPlusSign } = .ok .mobile := by kernel_rfl
  simp only [carrierForNumber, ht, bind, Except.bind, pure, Except.pure]
  rfl

example : numberType Data.container { countryCode := some 41, nationalNumber := some 798765432 } = .ok .mobile ∧
    regionForNumber Data.container { countryCode := some 41, nationalNumber := some 798765432 } = .ok (str!"CH") ∧
    Data.container.isMobilePortable (str!"CH") = true := by
  refine ⟨by kernel_rfl, by kernel_rfl, by kernel_rfl⟩

end Verif.Props
