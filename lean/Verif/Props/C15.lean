import Verif.Model.Format
import Verif.Props.C04
import Verif.Props.C13
/-!
# C15: the shape of E164 output
-/
namespace Verif
theorem decInt_nonneg {c : Int} (h : 0 ≤ c) : decInt c = Spec.decimal c.toNat := by
  unfold decInt
  rw [if_neg (by omega), dec_eq_decimal, show c.natAbs = c.toNat by omega]
end Verif

namespace Verif.Props
open Spec

/-- `Format(n, E164)` is a plus sign, the decimal country code and the national significant number, for every message with a
non-negative country code that is not (national number 0 with raw input). -/
theorem C15_shape (C : Container) (n : PhoneNumber) (hcc : 0 ≤ n.cc) (hraw : ¬ (n.nn = 0 ∧ n.raw ≠ [])) :
    format C n .e164 = '+'.toNat :: (decimal n.cc.toNat ++ nsnOf n) := by
  simp only [format, if_neg hraw, formatCore, if_true, prefixWithCC, decInt_nonneg hcc]
  rfl

/-- There is no other character: after the plus sign come ASCII digits only. -/
theorem C15_only_digits (C : Container) (n : PhoneNumber) (hcc : 0 ≤ n.cc) (hraw : ¬ (n.nn = 0 ∧ n.raw ≠ [])) :
    ∃ d, format C n .e164 = '+'.toNat :: d ∧ AllDigits d ∧ d ≠ [] := by
  refine ⟨_, C15_shape C n hcc hraw, ?_, ?_⟩
  · intro u hu
    rcases List.mem_append.mp hu with h | h
    · rw [← dec_eq_decimal] at h; exact (isDig_iff u).1 (dec_digits _ u h)
    · exact C04_digits n u h
  · rw [← dec_eq_decimal]; simp [dec_ne_nil]

/-- The extension, the carrier code and the country code source have no influence on E164 output. -/
theorem C15_ignores (C : Container) (n : PhoneNumber) (ext : Option Str) (carrier : Option Str) (src : Option CCSource) :
    format C { n with extension := ext, preferredCarrier := carrier, countryCodeSource := src } .e164 = format C n .e164 := rfl

/-- The excepted case: national number 0 with raw input is given back verbatim. -/
theorem C15_raw (C : Container) (n : PhoneNumber) (f : Fmt) (h0 : n.nn = 0) (hr : n.raw ≠ []) : format C n f = n.raw := by
  simp [format, h0, hr]

/-- With supported country codes the E164 form identifies country code and national significant number. -/
theorem C15_identifies (C : Container) (hC : prefixFree C = true) (h00 : C.hasCC 0 = false) (a b : PhoneNumber)
    (ha : C.hasCC a.cc = true) (hb : C.hasCC b.cc = true) (hra : ¬ (a.nn = 0 ∧ a.raw ≠ [])) (hrb : ¬ (b.nn = 0 ∧ b.raw ≠ []))
    (h : format C a .e164 = format C b .e164) : a.cc = b.cc ∧ nsnOf a = nsnOf b := by
  have h1 := (prefixFree_spec hC ha).1
  have h2 := (prefixFree_spec hC hb).1
  rw [C15_shape C a (by omega) hra, C15_shape C b (by omega) hrb] at h
  have h3 := C13_unique C hC h00 a.cc (nsnOf a) ha (C04_digits a)
  have h4 := C13_unique C hC h00 b.cc (nsnOf b) hb (C04_digits b)
  simp only [List.cons.injEq, true_and] at h
  rw [h, h4] at h3
  simp only [Prod.mk.injEq] at h3
  exact ⟨h3.1.symm, h3.2.symm⟩

/-- The same for the shipped metadata, unconditionally. -/
theorem C15_shipped (a b : PhoneNumber) (ha : Data.container.hasCC a.cc = true) (hb : Data.container.hasCC b.cc = true)
    (hra : ¬ (a.nn = 0 ∧ a.raw ≠ [])) (hrb : ¬ (b.nn = 0 ∧ b.raw ≠ []))
    (h : format Data.container a .e164 = format Data.container b .e164) : a.cc = b.cc ∧ nsnOf a = nsnOf b :=
  C15_identifies _ prefixFree_shipped (hasCC_zero Data.wf_regions) a b ha hb hra hrb h

example : format Data.container { countryCode := some 39, nationalNumber := some 236618300, italianLeadingZero := some true
                                  extension := some (str!"12") } .e164 = str!"+390236618300" := by kernel_rfl
example : Data.container.hasCC 39 = true := by kernel_rfl

end Verif.Props
