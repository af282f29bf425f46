import Verif.Regex.Plus
import Verif.Lemmas.Template
import Verif.Props.C16
/-!
# C17: the shape of RFC3966 output
-/
namespace Verif
open Spec

/-- The class of the separator pattern. -/
def punctCls : Cls := match separatorPattern with | .rep (.cls c) _ _ _ => c | _ => ⟨false, [], []⟩

theorem separatorPattern_eq : separatorPattern = .rep (.cls punctCls) 1 none true := rfl
theorem notSeparatorPattern_eq : notSeparatorPattern = .rep (.cls { punctCls with neg := true }) 1 none true := rfl

theorem punctCls_has (c : Nat) : punctCls.has c = isPunct c := by
  rw [Bool.eq_iff_iff]
  simp only [Cls.has, punctCls, separatorPattern, inRanges, isPunct, List.any_nil, Bool.or_false, Bool.bne_false,
    Bool.or_eq_true, Bool.and_eq_true, decide_eq_true_eq, List.mem_cons, List.not_mem_nil, or_false, Nat.ble_eq]
  omega

theorem punctCls_mem (u : Nat) : punctCls.mem u = isPunct (rune u) := punctCls_has _

theorem notPunct_mem (u : Nat) : ({ punctCls with neg := true } : Cls).mem u = !isPunct (rune u) := by
  rw [← punctCls_mem]
  simp [Cls.mem, Cls.has, punctCls, separatorPattern]

theorem separator_plus : PlusOf separatorPattern (fun u => isPunct (rune u)) := by
  rw [separatorPattern_eq, show (fun u => isPunct (rune u)) = punctCls.mem from (funext punctCls_mem).symm]
  exact plusOf _

theorem notSeparator_plus : PlusOf notSeparatorPattern (fun u => !isPunct (rune u)) := by
  rw [notSeparatorPattern_eq, show (fun u => !isPunct (rune u)) = ({ punctCls with neg := true } : Cls).mem from (funext notPunct_mem).symm]
  exact plusOf _

/-- The clean-up puts a hyphen between the maximal runs of non-punctuation. -/
theorem rfc3966Clean_eq (s : Str) : rfc3966Clean s = List.intercalate [45] (fields (fun u => !isPunct (rune u)) s) := by
  unfold rfc3966Clean
  simp only [notSeparator_plus.findAll]
  congr 1
  have hff := separator_plus.findFrom 0 s
  cases hd : s.dropWhile (fun u => !isPunct (rune u)) with
  | nil =>
    rw [hd] at hff
    simp only at hff
    simp only [Re.find, hff]
  | cons u t =>
    rw [hd] at hff
    obtain ⟨x, h1, h2, h3⟩ := hff
    simp only [Re.find, h1]
    split
    · rename_i h0
      have hnil : s.takeWhile (fun u => !isPunct (rune u)) = [] := List.length_eq_zero_iff.mp (by omega)
      have hs : s = u :: t := by
        rw [← List.takeWhile_append_dropWhile (p := fun u => !isPunct (rune u)) (l := s), hnil, hd]; rfl
      have hstop : x.stop = (s.takeWhile (fun u => isPunct (rune u))).length := by rw [h3, h0, hs]; omega
      conv => rhs; rw [← List.takeWhile_append_dropWhile (p := fun u => isPunct (rune u)) (l := s)]
      rw [hstop, drop_takeWhile]
      unfold fields
      rw [fieldsAux_skip]
      intro v hv
      simpa using mem_takeWhile_sat hv
    · rfl

end Verif

namespace Verif.Props
open Spec

/-- Punctuation that is not the hyphen does not occur in a text. -/
def NoOtherPunct (s : Str) : Prop := ∀ u ∈ s, isPunct (rune u) = true → u = '-'.toNat

theorem mem_intercalate {sep : Str} {l : List Str} {u : Nat} (h : u ∈ List.intercalate sep l) : u ∈ sep ∨ ∃ w ∈ l, u ∈ w := by
  induction l with
  | nil => simp [List.intercalate] at h
  | cons a l ih =>
    cases l with
    | nil => simp [List.intercalate] at h; exact .inr ⟨a, by simp, h⟩
    | cons b l =>
      rw [List.intercalate_cons_cons] at h
      rcases List.mem_append.1 h with h | h
      · rcases List.mem_append.1 h with h | h
        · exact .inr ⟨a, by simp, h⟩
        · exact .inl h
      · rcases ih h with h | ⟨w, hw, hu⟩
        · exact .inl h
        · exact .inr ⟨w, by simp [hw], hu⟩

theorem isPunct_digit {u : Nat} (h : isDig u = true) : isPunct (rune u) = false := by
  simp only [isDig, Bool.and_eq_true, decide_eq_true_eq] at h
  have h1 : rune u = u := by unfold rune badBase; rw [if_pos (by omega)]
  rw [h1]
  simp only [isPunct, decide_eq_false_iff_not, List.mem_cons, List.not_mem_nil, or_false]
  omega

/-- For every number with a supported country code, `Format(n, RFC3966)` is `tel:+`, the country code, a hyphen, a body without
punctuation other than the hyphen, and `;ext=` with the extension if there is a non-empty one.  This holds for every container. -/
theorem C17_shape (C : Container) (n : PhoneNumber) (hcc : C.hasCC n.cc = true) (h0 : 0 ≤ n.cc) (hraw : ¬ (n.nn = 0 ∧ n.raw ≠ [])) :
    ∃ body, format C n .rfc3966 = str!"tel:+" ++ decimal n.cc.toNat ++ str!"-" ++ body ++
        (if n.extension.getD [] = [] then [] else str!";ext=" ++ n.extension.getD []) ∧ NoOtherPunct body := by
  simp only [format, if_neg hraw, formatCore, reduceCtorEq, if_false, hcc, Bool.not_true, Bool.false_eq_true]
  refine ⟨formatNsn (nsnOf n) (C.metaFor n.cc (C.mainRegion n.cc)) .rfc3966 [], ?_, ?_⟩
  · simp only [prefixWithCC, appendExtension, if_true, show n.extension.getD [] = n.ext from rfl, decInt_nonneg h0]
    split <;> simp
  · intro u hu hp
    unfold formatNsn at hu
    simp only at hu
    split at hu
    · rw [isPunct_digit (nsnOf_isDig n u hu)] at hp; cases hp
    · simp only [formatNsnUsingPattern, reduceCtorEq, false_and, if_false, if_true] at hu
      rw [rfc3966Clean_eq] at hu
      rcases mem_intercalate hu with h | ⟨w, hw, hu⟩
      · simpa using h
      · have := fields_all _ _ w hw u hu
        rw [hp] at this; cases this

/-- `body` is the digits `d` cut in one or more non-empty groups joined by single hyphens. -/
def HyphenGroups (body d : Str) : Prop :=
  ∃ groups : List Str, groups ≠ [] ∧ (∀ g ∈ groups, g ≠ []) ∧ groups.flatten = d ∧ body = List.intercalate ['-'.toNat] groups

/-- With well-formed international formats, the body is the national significant number with single hyphens between some digits. -/
theorem C17_groups (C : Container) (hb : Built C) (ht : tablesOk C = true) (hp : prefixFree C = true)
    (hf : C.allMeta.all intlFormatsOk = true) (hl : C.allMeta.all intlLiteralsOk = true)
    (n : PhoneNumber) (hcc : C.hasCC n.cc = true) (hraw : ¬ (n.nn = 0 ∧ n.raw ≠ [])) :
    ∃ body, format C n .rfc3966 = str!"tel:+" ++ decimal n.cc.toNat ++ str!"-" ++ body ++
        (if n.extension.getD [] = [] then [] else str!";ext=" ++ n.extension.getD []) ∧ HyphenGroups body (nsnOf n) := by
  have h0 : 0 ≤ n.cc := by have := (prefixFree_spec hp hcc).1; omega
  simp only [format, if_neg hraw, formatCore, reduceCtorEq, if_false, hcc, Bool.not_true, Bool.false_eq_true]
  refine ⟨formatNsn (nsnOf n) (C.metaFor n.cc (C.mainRegion n.cc)) .rfc3966 [], ?_, ?_⟩
  · simp only [prefixWithCC, appendExtension, if_true, show n.extension.getD [] = n.ext from rfl, decInt_nonneg h0]
    split <;> simp
  · obtain ⟨m, hm, -⟩ := main_meta hb ht hcc
    have hmem := Container.metaFor_mem hm
    have hok := List.all_eq_true.1 hf m hmem
    have hlit := List.all_eq_true.1 hl m hmem
    simp only [intlFormatsOk, Bool.and_eq_true] at hok
    rw [hm]
    have hne : nsnOf n ≠ [] := by
      rw [nsnOf_eq]; simp [dec_ne_nil]
    show HyphenGroups (match chooseFormat (if m.intlFormats = [] ∨ Fmt.rfc3966 = Fmt.national then m.formats else m.intlFormats) (nsnOf n) with
      | none => nsnOf n
      | some p => formatNsnUsingPattern (nsnOf n) p .rfc3966 []) (nsnOf n)
    rw [show (if m.intlFormats = [] ∨ Fmt.rfc3966 = Fmt.national then m.formats else m.intlFormats) = intlRules m by
      simp [intlRules]]
    cases hc : chooseFormat (intlRules m) (nsnOf n) with
    | none => exact ⟨[nsnOf n], by simp, by simpa using hne, by simp, by simp [List.intercalate]⟩
    | some p =>
      obtain ⟨h1, h2⟩ := chooseFormat_acc _ _ _ hc
      have h3 := replaceAll_inOrder p (List.all_eq_true.1 hok.1 p h1) (nsnOf n) (nsnOf_isDig n) h2
      simp only [formatNsnUsingPattern, reduceCtorEq, false_and, if_false, if_true]
      rw [rfc3966Clean_eq]
      have hflat : (fields (fun u => !isPunct (rune u)) (p.pattern.re.replaceAll (nsnOf n) p.format)).flatten = nsnOf n := by
        rw [fields_flatten]
        refine Eq.trans (List.filter_congr ?_) h3
        intro u hu
        rcases replaceAll_mem hu with h | h
        · rw [isPunct_digit (nsnOf_isDig n u h), nsnOf_isDig n u h]; rfl
        · have := List.all_eq_true.1 (List.all_eq_true.1 hlit p h1) u h
          simp only [decide_eq_true_eq] at this
          have key : ∀ u ∈ [32, 45, 46, 40, 41], (!isPunct (rune u)) = isDig u := by decide
          exact key u this
      refine ⟨_, ?_, fields_ne_nil _ _, hflat, rfl⟩
      intro h
      rw [h] at hflat
      exact hne hflat.symm

/-- The same for the shipped metadata, unconditionally. -/
theorem C17_shipped (n : PhoneNumber) (hcc : Data.container.hasCC n.cc = true) (hraw : ¬ (n.nn = 0 ∧ n.raw ≠ [])) :
    ∃ body, format Data.container n .rfc3966 = str!"tel:+" ++ decimal n.cc.toNat ++ str!"-" ++ body ++
        (if n.extension.getD [] = [] then [] else str!";ext=" ++ n.extension.getD []) ∧ HyphenGroups body (nsnOf n) :=
  C17_groups _ built_shipped Data.wf_tables prefixFree_shipped Data.wf_intlFormats Data.wf_intlLiterals n hcc hraw

example : format Data.container { countryCode := some 1, nationalNumber := some 6502530000, extension := some (str!"123") } .rfc3966
    = str!"tel:+1-650-253-0000;ext=123" := by kernel_rfl

end Verif.Props
