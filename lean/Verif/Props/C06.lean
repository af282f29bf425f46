import Verif.Model.Parse
import Verif.Lemmas.Container
import Verif.Lemmas.Str
import Verif.Data.Wf
/-!
# C06: parsing never panics and fails only with the documented errors

`ParseErr` is the type of the five documented errors, so a value of `Option ParseErr` is "success or a documented error".
-/
namespace Verif

theorem testLengths_ok {possible : List Int} (loc : List Int) (len : Int) (h : possible ≠ []) :
    ∃ v, testLengths possible loc len = .ok v := by
  cases possible with
  | nil => exact absurd rfl h
  | cons a t =>
    simp only [testLengths]
    repeat' split
    all_goals exact ⟨_, rfl⟩

theorem testNumberLength_unknown_ok {m : Metadata} (h : Spec.hasGeneralLengths m = true) (s : Str) :
    ∃ v, testNumberLength s (some m) .unknown = .ok v := by
  unfold Spec.hasGeneralLengths at h
  cases hg : m.general with
  | none => simp [hg] at h
  | some d =>
    have hl : d.lengths ≠ [] := by simpa [hg] using h
    have : testNumberLength s (some m) .unknown = testLengths d.lengths d.localLengths (blen s) := by
      simp [testNumberLength, testNumberLengthSimple, descByType, lengthsOf, hg, hl, bind, Except.bind]
    rw [this]; exact testLengths_ok _ _ hl

theorem buildNationalNumber_ok (s : Str) : ∃ r, buildNationalNumber s = .ok r := by
  unfold buildNationalNumber
  simp only
  split
  · exact ⟨_, rfl⟩
  · rename_i hv
    split
    · rename_i i hi
      have hne : extractPhoneContext s (some (i + 1)) ≠ [] := by
        intro h0
        apply hv
        rw [hi, h0]
        simp [isPhoneContextValid]
      rw [hi]
      cases hc : extractPhoneContext s (some (i + 1)) with
      | nil => exact absurd hc hne
      | cons c0 t =>
        have hstart : ∀ st, st = (match indexOf s rfcPrefix with
            | some j => if j < i + 1 then j + rfcPrefix.length else 0
            | none => 0) → st ≤ i + 1 := by
          intro st hst
          subst hst
          split
          · rename_i j hj
            split
            · rename_i hlt
              apply Nat.le_of_not_lt
              intro hbad
              have hlen : rfcPrefix.length = 4 := by decide
              have hb2 : i + 1 < j + 4 := hbad
              clear hbad
              have h1 := indexOf_getElem? hi (k := 0) (by decide)
              have h2 := indexOf_getElem? hj (k := i + 1 - j) (by rw [hlen]; omega)
              rw [show j + (i + 1 - j) = i + 1 by omega] at h2
              rw [Nat.add_zero, h2] at h1
              have : ∀ k, k < 4 → rfcPrefix[k]? ≠ rfcPhoneContext[0]? := by decide
              exact this _ (by omega) h1
            · omega
          · omega
        have hi' : i + 1 ≤ s.length := by
          rcases indexOf_le hi with h | h
          · omega
          · exact h.2
        simp only [bind, Except.bind, goSlice]
        rw [if_pos ⟨hstart _ rfl, hi'⟩]
        exact ⟨_, rfl⟩
    · exact ⟨_, rfl⟩

theorem maybeExtractCC_ok {C : Container} (hC : C.allMeta.all Spec.hasGeneralLengths = true) (s : Str) (m : Option Metadata)
    (hm : ∀ md, m = some md → md ∈ C.allMeta) (keepRaw : Bool) (pn : PhoneNumber) :
    ∃ r, maybeExtractCC C s m keepRaw pn = .ok r := by
  cases m with
  | none =>
    unfold maybeExtractCC
    simp only
    repeat' split
    all_goals exact ⟨_, rfl⟩
  | some md =>
    unfold maybeExtractCC
    simp only
    split
    · exact ⟨_, rfl⟩
    · split
      · repeat' split
        all_goals exact ⟨_, rfl⟩
      · split
        · obtain ⟨v, hv⟩ := testNumberLength_unknown_ok (List.all_eq_true.1 hC md (hm md rfl))
            (stripIntlPrefix s md.internationalPrefix.re).1
          simp only [hv, bind, Except.bind]
          split <;> exact ⟨_, rfl⟩
        · exact ⟨_, rfl⟩

theorem parseExtract_ok {C : Container} (hC : C.allMeta.all Spec.hasGeneralLengths = true) (s : Str) (m : Option Metadata)
    (hm : ∀ md, m = some md → md ∈ C.allMeta) (keepRaw : Bool) (pn : PhoneNumber) :
    ∃ r, parseExtract C s m keepRaw pn = .ok r := by
  unfold parseExtract
  obtain ⟨r, hr⟩ := maybeExtractCC_ok hC s m hm keepRaw pn
  simp only [hr, bind, Except.bind]
  split
  · exact ⟨_, rfl⟩
  · split
    · split
      · rename_i x _ _
        obtain ⟨r2, hr2⟩ := maybeExtractCC_ok hC (s.drop x.stop) m hm keepRaw r.number
        simp only [hr2]
        split <;> exact ⟨_, rfl⟩
      · exact ⟨_, rfl⟩
    · exact ⟨_, rfl⟩

theorem stripStage_ok {C : Container} (hC : C.allMeta.all Spec.hasGeneralLengths = true) (s : Str) (m : Option Metadata)
    (hm : ∀ md, m = some md → md ∈ C.allMeta) : ∃ r, stripStage s m = .ok r := by
  cases m with
  | none => exact ⟨_, rfl⟩
  | some md =>
    obtain ⟨v, hv⟩ := testNumberLength_unknown_ok (List.all_eq_true.1 hC md (hm md rfl)) (stripNationalPrefix s md).2.1
    simp only [stripStage, bind, Except.bind, hv]
    exact ⟨_, rfl⟩

theorem parseFinish_ok {C : Container} (hC : C.allMeta.all Spec.hasGeneralLengths = true) (s : Str) (m : Option Metadata)
    (hm : ∀ md, m = some md → md ∈ C.allMeta) (keepRaw : Bool) (pn : PhoneNumber) :
    ∃ r, parseFinish s m keepRaw pn = .ok r := by
  unfold parseFinish
  obtain ⟨r, hr⟩ := stripStage_ok hC s m hm
  simp only [hr, bind, Except.bind]
  repeat' split
  all_goals exact ⟨_, rfl⟩

theorem parseHelper_ok {C : Container} (hC : C.allMeta.all Spec.hasGeneralLengths = true) (s region : Str)
    (keepRaw check : Bool) (pn : PhoneNumber) : ∃ r, parseHelper C s region keepRaw check pn = .ok r := by
  unfold parseHelper
  split
  · exact ⟨_, rfl⟩
  · split
    · exact ⟨_, rfl⟩
    · obtain ⟨b, hb⟩ := buildNationalNumber_ok s
      simp only [hb, bind, Except.bind]
      cases b with
      | error e => exact ⟨_, rfl⟩
      | ok nat =>
        simp only
        split
        · exact ⟨_, rfl⟩
        · split
          · exact ⟨_, rfl⟩
          · obtain ⟨r, hr⟩ := parseExtract_ok hC (stripExtension nat).2 (C.metaForRegion region)
              (fun md h => Container.metaForRegion_mem h) keepRaw
              (if (stripExtension nat).1 ≠ [] then
                { (if keepRaw = true then { pn with rawInput := some s } else pn) with extension := some (stripExtension nat).1 }
               else if keepRaw = true then { pn with rawInput := some s } else pn)
            simp only [hr]
            cases r.code with
            | error e => exact ⟨_, rfl⟩
            | ok code =>
              simp only
              split
              · refine parseFinish_ok hC _ _ ?_ _ _
                intro md h
                split at h
                · exact Container.metaFor_mem h
                · exact Container.metaForRegion_mem h
              · exact parseFinish_ok hC _ _ (fun md h => Container.metaForRegion_mem h) _ _

namespace Props

/-- For every metadata whose entries have a general description with lengths, every string, region and message: `Parse` and
its raw-keeping variant return normally, with success or one of the documented errors. -/
theorem C06_no_panic (C : Container) (hC : C.allMeta.all Spec.hasGeneralLengths = true) (s region : Str) :
    (∃ (e : Option ParseErr) (n : PhoneNumber), parse C s region = .ok (e, n)) ∧
    (∃ (e : Option ParseErr) (n : PhoneNumber), parseKeepRaw C s region = .ok (e, n)) := by
  constructor
  · obtain ⟨⟨e, n⟩, h⟩ := parseHelper_ok hC s region false true {}; exact ⟨e, n, h⟩
  · obtain ⟨⟨e, n⟩, h⟩ := parseHelper_ok hC s region true true {}; exact ⟨e, n, h⟩

/-- The same for parsing into an existing message. -/
theorem C06_no_panic_reuse (C : Container) (hC : C.allMeta.all Spec.hasGeneralLengths = true) (s region : Str)
    (pn : PhoneNumber) :
    (∃ (e : Option ParseErr) (n : PhoneNumber), parseToNumber C s region pn = .ok (e, n)) ∧
    (∃ (e : Option ParseErr) (n : PhoneNumber), parseKeepRawToNumber C s region pn = .ok (e, n)) := by
  constructor
  · obtain ⟨⟨e, n⟩, h⟩ := parseHelper_ok hC s region false true pn; exact ⟨e, n, h⟩
  · obtain ⟨⟨e, n⟩, h⟩ := parseHelper_ok hC s region true true pn; exact ⟨e, n, h⟩

/-- The shipped metadata: unconditional. -/
theorem C06_shipped (s region : Str) :
    (∃ (e : Option ParseErr) (n : PhoneNumber), parse Data.container s region = .ok (e, n)) ∧
    (∃ (e : Option ParseErr) (n : PhoneNumber), parseKeepRaw Data.container s region = .ok (e, n)) :=
  C06_no_panic _ Data.wf_generalLengths s region

/-- The hypothesis holds of the shipped metadata, and parsing there does succeed and fail. -/
example : Data.container.allMeta.all Spec.hasGeneralLengths = true := Data.wf_generalLengths
example : parse Data.container (str!"+41 44 668 1800 ext. 12") (str!"US") =
    .ok (none, { countryCode := some 41, nationalNumber := some 446681800, extension := some (str!"12") }) := by kernel_rfl
example : parse Data.container (str!"tel:12;phone-context=") (str!"US") = .ok (some .notANumber, {}) := by kernel_rfl

end Props
end Verif
