import Verif.Lemmas.FormatDigits
import Verif.Lemmas.Tables
import Verif.Lemmas.Valid
import Verif.Props.C15
/-!
# C16: INTERNATIONAL formatting only adds separators
-/
namespace Verif.Props
open Spec

/-- The ASCII digits of a string, in order. -/
def asciiDigits (s : Str) : Str := s.filter fun u => decide ('0'.toNat ≤ u ∧ u ≤ '9'.toNat)

theorem asciiDigits_eq (s : Str) : asciiDigits s = s.filter isDig := by
  unfold asciiDigits
  congr 1
  funext u
  simp [isDig]

/-- For every number with a supported country code (other than national number 0 with raw input, which is given back verbatim),
the digits of `Format(n, INTERNATIONAL)` are the country code, the national significant number and the digits of the extension;
for any container whose tables are consistent and whose formats pass the check `intlFormatsOk`. -/
theorem C16_digits (C : Container) (hb : Built C) (ht : tablesOk C = true) (hp : prefixFree C = true)
    (hf : C.allMeta.all intlFormatsOk = true) (n : PhoneNumber) (hcc : C.hasCC n.cc = true) (hraw : ¬ (n.nn = 0 ∧ n.raw ≠ [])) :
    asciiDigits (format C n .international) = decimal n.cc.toNat ++ nsnOf n ++ asciiDigits (n.extension.getD []) := by
  rw [asciiDigits_eq, asciiDigits_eq]
  simp only [format, if_neg hraw, formatCore, reduceCtorEq, if_false, hcc, Bool.not_true, Bool.false_eq_true]
  obtain ⟨m, hm, -⟩ := main_meta hb ht hcc
  have hmem := Container.metaFor_mem hm
  have hok := List.all_eq_true.1 hf m hmem
  have h0 : 0 ≤ n.cc := by have := (prefixFree_spec hp hcc).1; omega
  have hdec : (decInt n.cc).filter isDig = decInt n.cc := by
    rw [decInt_nonneg h0, ← dec_eq_decimal, List.filter_eq_self]
    exact dec_digits _
  have hbody := formatNsn_digits m hok (nsnOf n) (nsnOf_isDig n)
  simp only [prefixWithCC, appendExtension, hm]
  have hext : (n.extension.getD []) = n.ext := rfl
  rw [List.filter_cons_of_neg (by decide), List.filter_append, hdec, List.filter_cons_of_neg (by decide), ← decInt_nonneg h0,
    List.append_assoc _ (nsnOf n), hext]
  congr 1
  split
  · rename_i he
    rw [hbody, he]; simp
  · rw [List.filter_append, List.filter_append, hbody]
    simp only [intlFormatsOk, Bool.and_eq_true] at hok
    have hpre : m.preferredExtnPrefix.filter isDig = [] := by
      rw [List.filter_eq_nil_iff]
      intro u hu
      simpa using List.all_eq_true.1 hok.2 u hu
    have hdef : (str!" ext. ").filter isDig = [] := by decide
    simp only [reduceCtorEq, if_false]
    split
    · rw [hpre]; simp
    · rw [hdef]; simp

/-- The same for the shipped metadata, unconditionally. -/
theorem C16_shipped (n : PhoneNumber) (hcc : Data.container.hasCC n.cc = true) (hraw : ¬ (n.nn = 0 ∧ n.raw ≠ [])) :
    asciiDigits (format Data.container n .international) = decimal n.cc.toNat ++ nsnOf n ++ asciiDigits (n.extension.getD []) :=
  C16_digits _ built_shipped Data.wf_tables prefixFree_shipped Data.wf_intlFormats n hcc hraw

example : format Data.container { countryCode := some 54, nationalNumber := some 91187654321, extension := some (str!"12") } .international
    = str!"+54 9 11 8765-4321 ext. 12" := by kernel_rfl
example : Data.container.hasCC 54 = true := by kernel_rfl

end Verif.Props
