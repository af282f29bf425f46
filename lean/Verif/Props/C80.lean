import Verif.Spec.Typed
import Verif.Props.C79
/-!
# C80: a number typed in its region, with or without the national prefix, is read as that number
-/
namespace Verif.Props
open Spec

theorem bareOk_shipped : (Data.container.regionMeta.all fun e => bareOk e.2) = true := by
  kernel_rfl

theorem prefixOk_shipped : (Data.container.regionMeta.all fun e => decide (e.1 ∈ prefixUnsettled) || prefixOk e.2) = true := by
  simp only [prefixOk, decide_int]
  kernel_rfl

/-- What was typed: separators, then the digits with separators between them, and an extension with its label. -/
def Typed (s digits ext : Str) : Prop :=
  ∃ junk t y, s = junk ++ (t ++ y) ∧ (∀ u ∈ junk, u ∈ gapL) ∧ Spaced t ∧ t.filter isDig = digits ∧ ExtPart y ext ∧ blen s ≤ 250

theorem typed_core {r : Str} {m : Metadata} (hval : Data.container.validRegion r = true) (hm : Data.container.metaForRegion r = some m)
    (hl : typedLengths m = true) {nsn : Str} (hdig : ∀ u ∈ nsn, isDig u = true) (hk : OfKind m nsn) {b : Str} (hb : ∀ u ∈ b, isDig u = true)
    (hb3 : b.length ≤ 3) {Xs : List (List Re)} (hrb : readsBack m b Xs = true) (hX : ∀ G ∈ Xs, AccAny G nsn)
    (hcc : ∀ u ∈ decInt m.countryCode, isDig u = true) {s ext : Str} (hs : Typed s (b ++ nsn) ext) :
    ∃ c, parseCore Data.container s r true = .ok (.ok ⟨m.countryCode, ext, nsn, some .defaultCountry, c⟩) ∧ 3 ≤ nsn.length ∧ nsn.length ≤ 17 := by
  have hall := List.all_eq_true.1 Data.wf_lengthTables m (Container.metaForRegion_mem hm)
  obtain ⟨g, hg, hl1, hl2, h3, h17⟩ : ∃ g, m.general = some g ∧ (nsn.length : Int) ∈ g.lengths ∧ (nsn.length : Int) ∉ g.localLengths ∧
      3 ≤ nsn.length ∧ nsn.length ≤ 17 := by
    obtain ⟨⟨g, hg, hl', -⟩, -⟩ := hk
    simp only [typedLengths, hg, Bool.and_eq_true, List.all_eq_true, Nat.ble_eq] at hl
    obtain ⟨h0, h1⟩ := hl
    have hl' := hl'.resolve_left (by intro h; simp [h] at h0)
    obtain ⟨⟨h2, h3⟩, h4⟩ := h1 _ hl'
    refine ⟨g, hg, hl', fun h5 => ?_, by omega, by omega⟩
    simp only [Bool.not_eq_true', List.any_eq_false] at h4
    exact h4 _ h5 (by simp)
  obtain ⟨junk, t, y, rfl, hj, ht, htd, hy, h250⟩ := hs
  obtain ⟨i1, i2, c, i3⟩ := readsBack_parts hrb hb hdig hX hk hg hcc hall ⟨hl1, hl2⟩
  have hbd : ∀ u ∈ b ++ nsn, isDig u = true := by
    intro u hu
    rcases List.mem_append.1 hu with hu | hu
    · exact hb u hu
    · exact hdig u hu
  have hfin : finishCore (t.filter isDig) (some m) = .ok (.ok (nsn, c)) := by
    unfold finishCore
    simp only [htd, i3, bind, Except.bind, blen_digits hdig, blen_digits hbd, minLengthForNSN, maxLengthForNSN, List.length_append]
    rw [if_neg (by omega), if_neg (by omega), if_neg (by omega)]
    rfl
  exact ⟨c, parseCore_national hval hm hj ht hy (by rw [htd]; simp; omega) h250 (by rw [htd]; exact i1) (by rw [htd]; exact i2) hfin, h3, h17⟩

theorem listed_acc {l : List (Nat × Str)} {n : PhoneNumber} (h : ¬ BeginsAsListed l n) :
    ∀ G ∈ (listedFor l n.cc.toNat).map notStart, AccAny G (nsnOf n) := by
  intro G hG
  obtain ⟨b, hb, rfl⟩ := List.mem_map.1 hG
  exact notStart_acc (nsnOf_isDig n) fun hp => h ⟨b, hb, hp⟩

theorem all_meta {p : Str → Metadata → Bool} {l : List (Str × Metadata)} (h : (l.all fun e => p e.1 e.2) = true) {r : Str} {m : Metadata}
    (hm : mapGet l r = some m) : p r m = true := List.all_eq_true.1 h _ (mapGet_mem hm)

/-- What a text gives when it is read as the number `n` with the extension `ext`. -/
def ReadsWith (pn n : PhoneNumber) (ext : Str) : Prop := pn.cc = n.cc ∧ nsnOf pn = nsnOf n ∧ pn.extension.getD [] = ext

theorem readsWith_of_core {s r ext : Str} {n : PhoneNumber} {src : CCSource} {c : Str}
    (h : parseCore Data.container s r true = .ok (.ok ⟨n.cc, ext, nsnOf n, some src, c⟩)) (h2 : 2 ≤ (nsnOf n).length)
    (h17 : (nsnOf n).length ≤ 17) : ∃ pn, parse Data.container s r = .ok (none, pn) ∧ ReadsWith pn n ext := by
  have hp := parseHelper_core Data.container s r false true {}
  rw [h] at hp
  simp only [Refines] at hp
  refine ⟨_, hp, rfl, C05_store (nsnOf n) {} (C04_digits n) h2 h17 rfl, ?_⟩
  show (if ext ≠ [] then some ext else none).getD [] = ext
  by_cases h : ext = []
  · rw [if_neg (by simp [h]), h]; rfl
  · rw [if_pos h]; rfl

/-- The digits of a number valid for a region, typed there with separators and an extension, are read as the number. -/
theorem C80_bare (n : PhoneNumber) (r : Str) (hv : isValidForRegion Data.container n r = .ok true) (hr : r ≠ str!"001")
    (hex : ¬ BeginsAsListed bareAmbiguous n) (s ext : Str) (hs : Typed s (nsnOf n) ext) :
    ∃ pn, parse Data.container s r = .ok (none, pn) ∧ ReadsWith pn n ext := by
  obtain ⟨hval, m, M, rs, hm, hm', hmc, hk, hmem, -⟩ := validFor_parts n r hv hr
  have h0 : 0 ≤ n.cc := by have := (prefixFree_spec prefixFree_shipped (regionsOf_hasCC hmem)).1; omega
  have hok : bareOk m = true := all_meta (p := fun _ m => bareOk m) bareOk_shipped hm'
  simp only [bareOk, Bool.and_eq_true] at hok
  obtain ⟨c, hcore, h3, h17⟩ := typed_core hval hm hok.1 (nsnOf_isDig n) hk (b := []) (by simp) (by simp) hok.2
    (by rw [hmc]; exact listed_acc hex) (by rw [hmc, decInt_nonneg h0, ← dec_eq_decimal]; exact dec_digits _) hs
  rw [hmc] at hcore
  exact readsWith_of_core hcore (by omega) h17

/-- So are the digits after the national prefix of the region, outside of the North American plan and Argentina. -/
theorem C80_prefix (n : PhoneNumber) (r : Str) (hv : isValidForRegion Data.container n r = .ok true) (hr : r ≠ str!"001")
    (hu : r ∉ prefixUnsettled) (h1 : n.cc ≠ 1) (hnp : Data.container.nddPrefix r true ≠ []) (hex : ¬ BeginsAsListed prefixAmbiguous n)
    (s ext : Str) (hs : Typed s (Data.container.nddPrefix r true ++ nsnOf n) ext) :
    ∃ pn, parse Data.container s r = .ok (none, pn) ∧ ReadsWith pn n ext := by
  obtain ⟨hval, m, M, rs, hm, hm', hmc, hk, hmem, -⟩ := validFor_parts n r hv hr
  have h0 : 0 ≤ n.cc := by have := (prefixFree_spec prefixFree_shipped (regionsOf_hasCC hmem)).1; omega
  have hndd : Data.container.nddPrefix r true = dialledNdd m := by
    simp only [Container.nddPrefix, hm, if_true, dialledNdd]
    congr 1
    funext u
    rw [Bool.eq_iff_iff]; simp [← Bool.not_eq_true]
  rw [hndd] at hnp hs
  have hok : bareOk m = true := all_meta (p := fun _ m => bareOk m) bareOk_shipped hm'
  simp only [bareOk, Bool.and_eq_true] at hok
  have hpo := all_meta (p := fun r m => decide (r ∈ prefixUnsettled) || prefixOk m) prefixOk_shipped hm'
  simp only [hu, decide_false, Bool.false_or, prefixOk, Bool.or_eq_true, List.isEmpty_iff, hnp, false_or, hmc, h1, Bool.false_eq_true,
    Bool.and_eq_true, List.all_eq_true, Nat.ble_eq] at hpo
  obtain ⟨c, hcore, h3, h17⟩ := typed_core hval hm hok.1 (nsnOf_isDig n) hk hpo.1.1 hpo.1.2 hpo.2
    (by exact listed_acc hex) (by rw [hmc, decInt_nonneg h0, ← dec_eq_decimal]; exact dec_digits _) hs
  rw [hmc] at hcore
  exact readsWith_of_core hcore (by omega) h17

/-- In the North American plan the national prefix is the country code, 1: a valid number of ten digits of any of its regions, typed after
1 in any of its regions, is read as the number. -/
theorem C80_nanpa (n : PhoneNumber) (r : Str) (hr : r ∈ Data.container.supportedRegions) (hcc : Data.container.ccForRegion r = 1)
    (h1 : n.cc = 1) (hv : isValidNumber Data.container n = .ok true) (h10 : (nsnOf n).length = 10) (s ext : Str)
    (hs : Typed s ((str!"1") ++ nsnOf n) ext) : ∃ pn, parse Data.container s r = .ok (none, pn) ∧ ReadsWith pn n ext := by
  obtain ⟨junk, t, y, rfl, hj, ht, htd, hy, h250⟩ := hs
  obtain ⟨-, c, hcore⟩ := nanpa_core n r hr hcc h1 hv h10 hj ht hy h250 htd
  exact readsWith_of_core hcore (by omega) (by omega)

/-- `n` is valid for `r`, and `s`, typed in `r`, is read as the number `cc`, `nsn`. -/
def MisreadAs (n : PhoneNumber) (r s : Str) (cc : Int) (nsn : Str) : Prop :=
  isValidForRegion Data.container n r = .ok true ∧
    (parse Data.container s r).map (fun x => (x.1, x.2.cc, nsnOf x.2)) = .ok (none, cc, nsn)

/-- Exceptions are needed for numbers typed alone: the digits are taken for an international prefix and a number of another country. -/
theorem C80_needed_bare :
    MisreadAs { countryCode := some 7, nationalNumber := some 81085538605587 } (str!"RU") (str!"81085538605587") 855 (str!"38605587") ∧
    MisreadAs { countryCode := some 375, nationalNumber := some 8108210447 } (str!"BY") (str!"8108210447") 82 (str!"10447") := by
  refine ⟨⟨?_, ?_⟩, ?_, ?_⟩ <;> kernel_rfl

/-- Exceptions are needed for numbers typed after the national prefix: the prefix and the first digits are taken for an international
prefix, or the prefix is taken for a part of the number. -/
theorem C80_needed_prefix :
    MisreadAs { countryCode := some 54, nationalNumber := some 1115468954 } (str!"AR") (str!"01115468954") 54 (str!"01115468954") ∧
    MisreadAs { countryCode := some 57, nationalNumber := some 3333015159 } (str!"CO") (str!"03333015159") 57 (str!"03333015159") ∧
    MisreadAs { countryCode := some 250, nationalNumber := some 6184855, italianLeadingZero := some true } (str!"RW") (str!"006184855")
      61 (str!"84855") ∧
    MisreadAs { countryCode := some 598, nationalNumber := some 19871526 } (str!"UY") (str!"019871526") 7 (str!"1526") ∧
    MisreadAs { countryCode := some 972, nationalNumber := some 1599404373 } (str!"IL") (str!"01599404373") 994 (str!"04373") := by
  refine ⟨⟨?_, ?_⟩, ⟨?_, ?_⟩, ⟨?_, ?_⟩, ⟨?_, ?_⟩, ?_, ?_⟩ <;> kernel_rfl

/-- A London number. -/
def londonTyped : PhoneNumber := { countryCode := some 44, nationalNumber := some 2070313000 }

-- typed alone, with an extension
example : isValidForRegion Data.container londonTyped (str!"GB") = .ok true ∧ ¬ BeginsAsListed bareAmbiguous londonTyped ∧
    ¬ BeginsAsListed prefixAmbiguous londonTyped ∧ (str!"GB") ∉ prefixUnsettled ∧ Data.container.nddPrefix (str!"GB") true = str!"0" := by
  refine ⟨?_, by decide +kernel, by decide +kernel, by decide, ?_⟩ <;> kernel_rfl
example : Typed (str!"(20) 7031-3000 ext. 7") (str!"2070313000") (str!"7") :=
  ⟨str!"(", str!"20) 7031-3000", str!" ext. 7", rfl, by decide,
    ⟨by decide, ⟨_, _, rfl, by decide⟩, ⟨str!"20) 7031-300", 48, rfl, by decide⟩⟩, by decide,
    .some ((str!" ext. "), 20) (str!"7") (by decide) (by decide) (by decide) (by decide), by decide⟩
example : parse Data.container (str!"(20) 7031-3000 ext. 7") (str!"GB") =
    .ok (none, { countryCode := some 44, nationalNumber := some 2070313000, extension := some (str!"7") }) := by kernel_rfl
-- and after the national prefix
example : Typed (str!"(0)20 7031 3000") ((str!"0") ++ str!"2070313000") [] :=
  ⟨str!"(", str!"0)20 7031 3000", [], rfl, by decide,
    ⟨by decide, ⟨_, _, rfl, by decide⟩, ⟨str!"0)20 7031 300", 48, rfl, by decide⟩⟩, by decide, .none, by decide⟩
-- Brazil: the pattern of the national prefix also covers carrier codes
example : isValidForRegion Data.container { countryCode := some 55, nationalNumber := some 1123456789 } (str!"BR") = .ok true ∧
    (str!"BR") ∉ prefixUnsettled ∧ Data.container.nddPrefix (str!"BR") true = str!"0" := by
  refine ⟨?_, by decide, ?_⟩ <;> kernel_rfl
-- a Canadian number typed in Barbados
example : (str!"BB") ∈ Data.container.supportedRegions ∧ Data.container.ccForRegion (str!"BB") = 1 ∧
    isValidNumber Data.container { countryCode := some 1, nationalNumber := some 6045551234 } = .ok true := by
  refine ⟨by decide +kernel, ?_, ?_⟩ <;> kernel_rfl

end Verif.Props
