import Verif.Regex.Plus
import Verif.Props.C16
/-!
# C23: area code and national destination code lengths fit in the number

The statement is true of every number except those with national number 0 and raw input: for them `Format` gives back the raw
input, which need not look like the national significant number.
-/
namespace Verif
open Spec

theorem nonDigits_plus : PlusOf nonDigitsPattern (fun u => !isDig (rune u)) := by
  have h := plusOf_grp 1 ⟨true, [(48, 57)], []⟩
  have hm : (⟨true, [(48, 57)], []⟩ : Cls).mem = fun u => !isDig (rune u) := by
    funext u
    rw [Bool.eq_iff_iff]
    simp only [Cls.mem, Cls.has, inRanges, isDig, List.any_nil, Bool.or_false, Bool.bne_true, Bool.not_eq_true',
      ← Bool.not_eq_true]
    simp only [Bool.and_eq_true, Nat.ble_eq, decide_eq_true_eq]
  rw [hm] at h
  exact h

theorem isDig_rune {u : Nat} (h : isDig u = true) : rune u = u := by
  simp only [isDig, Bool.and_eq_true, decide_eq_true_eq] at h
  unfold rune badBase; rw [if_pos (by omega)]

theorem isDig_rune_iff (u : Nat) : isDig (rune u) = isDig u := by
  cases h : isDig u with
  | true => rw [isDig_rune h, h]
  | false =>
    unfold rune
    split
    · exact h
    · decide

theorem pieces_intl (d body : Str) (hd : ∀ u ∈ d, isDig u = true) (hne : d ≠ []) :
    nonDigitsPattern.split (43 :: (d ++ 32 :: body)) =
      [] :: d :: pieces (fun u => !isDig (rune u)) ((32 :: body).dropWhile fun u => !isDig (rune u)) := by
  rw [nonDigits_plus.split, pieces_step]
  have h43 : isDig (rune 43) = false := by decide
  have h32 : isDig (rune 32) = false := by decide
  simp only [List.dropWhile_cons, h43, Bool.not_false, Bool.not_true, Bool.false_eq_true, if_false, if_true, List.takeWhile_cons,
    List.cons.injEq, true_and]
  have e1 : (d ++ 32 :: body).dropWhile (fun u => !isDig (rune u)) = d ++ 32 :: body := by
    cases d with
    | nil => exact absurd rfl hne
    | cons a d =>
      have := hd a (by simp)
      simp [isDig_rune_iff, this]
  have hdd : ∀ u ∈ d, isDig (rune u) = true := fun u hu => by rw [isDig_rune_iff]; exact hd u hu
  have e2 : (d ++ 32 :: body).dropWhile (fun u => !!isDig (rune u)) = 32 :: body := by
    rw [List.dropWhile_append_of_pos (by simpa using hdd)]
    simp [h32]
  have e3 : (d ++ 32 :: body).takeWhile (fun u => !!isDig (rune u)) = d := by
    rw [List.takeWhile_append_of_pos (by simpa using hdd)]
    simp [h32]
  rw [e1, pieces_step, e2, e3]
  simp [h32]

end Verif

namespace Verif.Spec

/-- A national significant number made of zeros only is not a geographical number. -/
def zerosNotGeo (m : Metadata) : Bool :=
  (List.range 18).all fun k => match numberTypeHelper (List.replicate (k + 1) 48) (some m) with
    | .ok t => !isGeographicalForType t m.countryCode
    | .error _ => false

end Verif.Spec

namespace Verif.Data
open Spec

theorem wf_zeros : container.allMeta.all zerosNotGeo = true := by kernel_rfl

end Verif.Data

namespace Verif.Props
open Spec

theorem format_unsupported (C : Container) (n : PhoneNumber) (hcc : C.hasCC n.cc = false) (hraw : ¬ (n.nn = 0 ∧ n.raw ≠ [])) :
    format C n .international = nsnOf n := by
  simp [format, formatCore, hraw, hcc]

theorem split_digits (s : Str) (hs : ∀ u ∈ s, isDig u = true) : nonDigitsPattern.split s = [s] := by
  rw [nonDigits_plus.split, pieces_step]
  have : s.dropWhile (fun u => !!isDig (rune u)) = [] := by
    induction s with
    | nil => rfl
    | cons u s ih =>
      rw [List.dropWhile_cons, if_pos (by simpa [isDig_rune_iff] using hs u (by simp))]
      exact ih fun v hv => hs v (by simp [hv])
  rw [this]

/-- `GetLengthOfNationalDestinationCode(n)` is at most the length of the national significant number, for every number that is not
(national number 0 with raw input).  The full statement of C23 has no such exception and is false, see `C23_ndc_false`. -/
theorem C23_ndc_partial (C : Container) (hb : Built C) (ht : tablesOk C = true) (hp : prefixFree C = true)
    (hf : C.allMeta.all intlFormatsOk = true) (n : PhoneNumber) (hraw : ¬ (n.nn = 0 ∧ n.raw ≠ [])) (k : Nat)
    (h : lengthOfNdc C n = .ok k) : k ≤ (nsnOf n).length := by
  unfold lengthOfNdc at h
  simp only at h
  -- the copy without extension
  obtain ⟨n', hn', hext, hnsn, hcc', hraw'⟩ : ∃ n', (if n.ext ≠ [] then { n with extension := none } else n) = n' ∧
      n'.ext = [] ∧ nsnOf n' = nsnOf n ∧ n'.cc = n.cc ∧ ¬ (n'.nn = 0 ∧ n'.raw ≠ []) := by
    refine ⟨_, rfl, ?_, ?_, ?_, ?_⟩
    · split
      · rfl
      · rename_i he; simpa using he
    all_goals split <;> first | rfl | exact hraw
  rw [hn'] at h
  by_cases hcc : C.hasCC n.cc = true
  · have hcc2 : C.hasCC n'.cc = true := by rw [hcc']; exact hcc
    obtain ⟨m, hm, -⟩ := main_meta hb ht hcc2
    have hok := List.all_eq_true.1 hf m (Container.metaFor_mem hm)
    have h0 : 0 ≤ n'.cc := by have := (prefixFree_spec hp hcc2).1; omega
    have hfmt : format C n' .international = 43 :: (decInt n'.cc ++ 32 :: formatNsn (nsnOf n') (some m) .international []) := by
      simp only [format, if_neg hraw', formatCore, reduceCtorEq, if_false, hcc2, Bool.not_true, Bool.false_eq_true, prefixWithCC,
        appendExtension, hext, if_true, hm]
    have hd : ∀ u ∈ decInt n'.cc, isDig u = true := by
      rw [decInt_nonneg h0, ← dec_eq_decimal]; exact dec_digits _
    have hne : decInt n'.cc ≠ [] := by rw [decInt_nonneg h0, ← dec_eq_decimal]; exact dec_ne_nil _
    rw [hfmt, pieces_intl _ _ hd hne] at h
    have hfl := pieces_flatten (fun u => !isDig (rune u))
      ((32 :: formatNsn (nsnOf n') (some m) .international []).dropWhile fun u => !isDig (rune u))
    have hfl2 : ((32 :: formatNsn (nsnOf n') (some m) .international []).dropWhile fun u => !isDig (rune u)).filter
        (fun u => !!isDig (rune u)) = nsnOf n := by
      have h1 := formatNsn_digits m hok (nsnOf n') (nsnOf_isDig n')
      rw [hnsn] at h1 ⊢
      have h2 : (32 :: formatNsn (nsnOf n) (some m) .international []).filter isDig = nsnOf n := by
        rw [List.filter_cons_of_neg (by decide)]; exact h1
      have h3 : ∀ s : Str, (s.dropWhile fun u => !isDig (rune u)).filter (fun u => !!isDig (rune u)) = s.filter isDig := by
        intro s
        induction s with
        | nil => rfl
        | cons u s ih =>
          rw [List.dropWhile_cons]
          cases hu : isDig u with
          | true =>
            rw [isDig_rune_iff, hu]
            simp only [Bool.not_true, Bool.false_eq_true, if_false]
            congr 1
            funext v
            simp [isDig_rune_iff]
          | false =>
            rw [isDig_rune_iff, hu]
            simp only [Bool.not_false, if_true, ih, List.filter_cons, hu, Bool.false_eq_true, if_false]
      rw [h3, h2]
    rw [hfl2] at hfl
    generalize pieces (fun u => !isDig (rune u))
      ((32 :: formatNsn (nsnOf n') (some m) .international []).dropWhile fun u => !isDig (rune u)) = P at h hfl
    cases P with
    | nil => simp only [Except.ok.injEq] at h; omega
    | cons g2 P =>
      cases P with
      | nil => simp only [Except.ok.injEq] at h; omega
      | cons g3 P =>
        have hdig : ∀ u ∈ g2 ++ g3, isDig u = true := by
          intro u hu
          refine nsnOf_isDig n u ?_
          rw [← hfl]
          simp only [List.flatten_cons, List.mem_append] at hu ⊢
          rcases hu with h | h <;> simp [h]
        have e2 := blen_digits (s := g2) (fun u hu => hdig u (by simp [hu]))
        have e3 := blen_digits (s := g3) (fun u hu => hdig u (by simp [hu]))
        have hlen : g2.length + g3.length ≤ (nsnOf n).length := by
          rw [← hfl]; simp
        simp only [bind, Except.bind] at h
        cases hT : numberType C n with
        | error p => simp [hT] at h
        | ok t =>
          simp only [hT, pure, Except.pure] at h
          split at h
          · split at h
            · simp only [Except.ok.injEq] at h; omega
            · simp only [Except.ok.injEq] at h; omega
          · simp only [Except.ok.injEq] at h; omega
  · have hcc2 : C.hasCC n'.cc = false := by rw [hcc']; simpa using hcc
    rw [format_unsupported C n' hcc2 hraw', split_digits _ (nsnOf_isDig n')] at h
    simp only [Except.ok.injEq] at h; omega

/-- The same for the shipped metadata. -/
theorem C23_ndc_shipped_partial (n : PhoneNumber) (hraw : ¬ (n.nn = 0 ∧ n.raw ≠ [])) (k : Nat)
    (h : lengthOfNdc Data.container n = .ok k) : k ≤ (nsnOf n).length :=
  C23_ndc_partial _ built_shipped Data.wf_tables prefixFree_shipped Data.wf_intlFormats n hraw k h

/-- The statement of C23 for the national destination code is false: national number 0 with the raw input "a1b22c3" has the one-digit
national significant number "0" and a national destination code of length 2. -/
theorem C23_ndc_false : ∃ n k, lengthOfNdc Data.container n = .ok k ∧ (nsnOf n).length < k :=
  ⟨{ countryCode := some 1, nationalNumber := some 0, rawInput := some (str!"a1b22c3") }, 2, by kernel_rfl, by decide⟩

/-- `GetLengthOfGeographicalAreaCode(n)` is at most the length of the national significant number, without exception. -/
theorem C23_area (C : Container) (hb : Built C) (ht : tablesOk C = true) (hp : prefixFree C = true)
    (hf : C.allMeta.all intlFormatsOk = true) (hd : C.allMeta.all hasAllDescs = true) (hz : C.allMeta.all zerosNotGeo = true)
    (n : PhoneNumber) (k : Nat)
    (h : lengthOfAreaCode C n = .ok k) : k ≤ (nsnOf n).length := by
  unfold lengthOfAreaCode at h
  simp only [bind, Except.bind, isGeographical] at h
  cases hr : regionForNumber C n with
  | error p => simp [hr] at h
  | ok r =>
    simp only [hr] at h
    cases hm : C.metaForRegion r with
    | none => simp only [hm, pure, Except.pure, Except.ok.injEq] at h; omega
    | some m =>
      simp only [hm] at h
      cases hT : numberType C n with
      | error p => simp [hT] at h
      | ok t =>
        simp only [hT, pure, Except.pure] at h
        have h0 : ∀ k', (Except.ok 0 : Go Nat) = .ok k' → k' ≤ (nsnOf n).length := by
          intro k' h; simp only [Except.ok.injEq] at h; omega
        by_cases c1 : m.nationalPrefix = [] ∧ (!n.ilz) = true ∧ n.cc ∉ noNationalPrefixWithAreaCodes
        · rw [if_pos c1] at h; exact h0 k h
        · rw [if_neg c1] at h
          by_cases c2 : t = .mobile ∧ n.cc ∈ geoMobileWithoutAreaCodes
          · rw [if_pos c2] at h; exact h0 k h
          · rw [if_neg c2] at h
            by_cases c3 : (!isGeographicalForType t n.cc) = true
            · rw [if_pos c3] at h; exact h0 k h
            · rw [if_neg c3] at h
              by_cases hraw : n.nn = 0 ∧ n.raw ≠ []
              · exfalso
                -- a national significant number of zeros is not geographical
                unfold numberType at hT
                simp only [hr, bind, Except.bind] at hT
                rcases regionForNumber_cases hb ht hd n with hnil | ⟨r', m2, hr', -, hm2, hc2, -⟩
                · rw [hr, Except.ok.injEq] at hnil
                  subst hnil
                  simp only [metaFor_nil, pure, Except.pure, Except.ok.injEq] at hT
                  subst hT
                  simp [isGeographicalForType] at c3
                · rw [hr, Except.ok.injEq] at hr'
                  subst hr'
                  simp only [hm2] at hT
                  have hz2 := List.all_eq_true.1 hz m2 (Container.metaFor_mem hm2)
                  have hnsn : nsnOf n = List.replicate (leadingZeros n + 1) 48 := by
                    rw [nsnOf_eq, hraw.1, List.replicate_succ']
                    rfl
                  have hle := (C04_shape n).2
                  have := List.all_eq_true.1 hz2 (leadingZeros n) (by simp; omega)
                  rw [← hnsn, hT] at this
                  simp only [hc2] at this
                  exact c3 this
              · exact C23_ndc_partial C hb ht hp hf n hraw k h

/-- The same for the shipped metadata, unconditionally. -/
theorem C23_area_shipped (n : PhoneNumber) (k : Nat) (h : lengthOfAreaCode Data.container n = .ok k) : k ≤ (nsnOf n).length :=
  C23_area _ built_shipped Data.wf_tables prefixFree_shipped Data.wf_intlFormats Data.wf_allDescs Data.wf_zeros n k h

example : lengthOfNdc Data.container { countryCode := some 54, nationalNumber := some 91187654321 } = .ok 3 := by kernel_rfl
example : lengthOfAreaCode Data.container { countryCode := some 1, nationalNumber := some 6502530000 } = .ok 3 := by kernel_rfl

end Verif.Props
