import Verif.Props.C66
import Verif.Props.C32
/-!
# C69: two written forms of a number match
-/
namespace Verif
open Spec

/-- Two parse results with the same code, national significant number and extension are the same number for matching. -/
theorem parse_same {s s' r r' : Str} {a b : PhoneNumber} (ha : parse Data.container s r = .ok (none, a))
    (hb : parse Data.container s' r' = .ok (none, b)) (hc : a.cc = b.cc) (hn : nsnOf a = nsnOf b)
    (he : a.extension.getD [] = b.extension.getD []) : numberMatch a b = .exactMatch := by
  obtain ⟨o, h1, rfl⟩ := parse_core_of_ok ha
  obtain ⟨o', h1', rfl⟩ := parse_core_of_ok hb
  obtain ⟨k1, k2, k3, k4⟩ := parseCore_spec Data.wf_regions Data.wf_transform h1
  obtain ⟨k1', k2', k3', k4'⟩ := parseCore_spec Data.wf_regions Data.wf_transform h1'
  have e : nsnOf (o.apply s false {}) = o.nsn := Props.C05_store o.nsn {} (fun u hu => (isDig_iff u).1 (k2 u hu)) k3 k4 rfl
  have e' : nsnOf (o'.apply s' false {}) = o'.nsn := Props.C05_store o'.nsn {} (fun u hu => (isDig_iff u).1 (k2' u hu)) k3' k4' rfl
  have hnsn : o.nsn = o'.nsn := by rw [← e, ← e']; exact hn
  refine (Props.C33_iff _ _).2 ⟨⟨hc, ?_, he, ?_, ?_⟩, ?_⟩
  · simp only [ParseOut.apply, hnsn]
  · simp only [ParseOut.apply, hnsn]
  · intro _; simp only [ParseOut.apply, hnsn]
  · show o.cc ≠ 0
    intro h0
    rw [h0, hasCC_zero Data.wf_regions] at k1
    cases k1

namespace Props

/-- The formats that write the whole number; E164 leaves the extension out. -/
def WritesAll (n : PhoneNumber) (f : Fmt) : Prop := f = .international ∨ f = .rfc3966 ∨ (f = .e164 ∧ n.extension.getD [] = [])

/-- Parsing any of these forms gives the number. -/
theorem writesAll_parse (n : PhoneNumber) (hv : isValidNumber Data.container n = .ok true) (hraw : ¬ (n.nn = 0 ∧ n.raw ≠ []))
    (hex : ¬ Ambiguous n) (hext : ShortExt n 9) (f : Fmt) (hf : WritesAll n f) (region : Str) :
    ∃ pn, parse Data.container (format Data.container n f) region = .ok (none, pn) ∧ pn.cc = n.cc ∧ nsnOf pn = nsnOf n ∧
      pn.extension.getD [] = n.extension.getD [] := by
  rcases hf with rfl | rfl | ⟨rfl, h0⟩
  · exact C65_international_valid n hv hraw hex hext region
  · exact C65_rfc3966_valid n hv hraw hex ⟨by have := hext.1; omega, hext.2⟩ region
  · obtain ⟨pn, h1, h2, h3, h4⟩ := C10_valid n hv hraw hex region
    exact ⟨pn, h1, h2, h3, by rw [h4, h0]; rfl⟩

/-- IsNumberMatch says EXACT_MATCH for any two of the INTERNATIONAL, RFC3966 and E164 forms of a valid number. -/
theorem C69_international (n : PhoneNumber) (hv : isValidNumber Data.container n = .ok true) (hraw : ¬ (n.nn = 0 ∧ n.raw ≠ []))
    (hex : ¬ Ambiguous n) (hext : ShortExt n 9) (f g : Fmt) (hf : WritesAll n f) (hg : WritesAll n g) :
    numberMatchStrings Data.container (format Data.container n f) (format Data.container n g) = .ok .exactMatch := by
  obtain ⟨a, a1, a2, a3, a4⟩ := writesAll_parse n hv hraw hex hext f hf unknownRegion
  obtain ⟨b, b1, b2, b3, b4⟩ := writesAll_parse n hv hraw hex hext g hg unknownRegion
  simp only [numberMatchStrings, a1, bind, Except.bind, numberMatchOne, b1, pure, Except.pure]
  rw [parse_same a1 b1 (by rw [a2, b2]) (by rw [a3, b3]) (by rw [a4, b4])]

/-- A number that came out of parsing matches its own written forms exactly. -/
theorem C69_parsed (s r : Str) (n : PhoneNumber) (hp : parse Data.container s r = .ok (none, n))
    (hv : isValidNumber Data.container n = .ok true) (hraw : ¬ (n.nn = 0 ∧ n.raw ≠ [])) (hex : ¬ Ambiguous n) (hext : ShortExt n 9)
    (f : Fmt) (hf : WritesAll n f) : numberMatchOne Data.container n (format Data.container n f) = .ok .exactMatch := by
  obtain ⟨b, b1, b2, b3, b4⟩ := writesAll_parse n hv hraw hex hext f hf unknownRegion
  simp only [numberMatchOne, b1, bind, Except.bind, pure, Except.pure]
  rw [parse_same hp b1 b2.symm b3.symm b4.symm]

/-- The NATIONAL form of a valid number has no country code; IsNumberMatch compares it with any international form by reading it as a
number of the main region of the country code, and says NSN_MATCH. -/
theorem C69_national (n : PhoneNumber) (r : Str) (hv : isValidForRegion Data.container n r = .ok true)
    (hvn : isValidNumber Data.container n = .ok true) (hmain : Data.container.mainRegion n.cc = r) (hr : r ≠ str!"001")
    (hu : r ∉ natUnsettled) (hna : ¬ NatAmbiguous n) (hraw : ¬ (n.nn = 0 ∧ n.raw ≠ [])) (hex : ¬ Ambiguous n) (hext : ShortExt n 9)
    (f : Fmt) (hf : WritesAll n f) :
    numberMatchStrings Data.container (format Data.container n f) (format Data.container n .national) = .ok .nsnMatch := by
  obtain ⟨a, a1, a2, a3, a4⟩ := writesAll_parse n hvn hraw hex hext f hf unknownRegion
  obtain ⟨b, b1, b2, b3, b4⟩ := C66_national_valid n r hv hr hu hna hraw hext
  obtain ⟨junk, t, y, c, k1, k2, k3, k4, k5, k6, -⟩ := national_core n r hv hr hu hna hraw hext
  have hzz : ∃ n', parse Data.container (format Data.container n .national) unknownRegion = .ok (some .invalidCountryCode, n') := by
    have hcore : parseCore Data.container (format Data.container n .national) unknownRegion true = .ok (.error .invalidCountryCode) := by
      have hne : junk ++ (t ++ y) ≠ [] := by
        obtain ⟨v, b, rfl, -⟩ := k3.first; simp
      have hl := Spaced.length k5
      have hvi : isViable (t ++ y) = true := isViable_of_acc (k3.validBody' k5 k4.acc) (by simp; omega)
      have hvr : Data.container.validRegion unknownRegion = false := by kernel_rfl
      have hpl : plusCharsPattern.isMatch (t ++ y) = false := by
        rw [Bool.eq_false_iff]
        intro h
        obtain ⟨u, hu, hp⟩ := (plus_isMatch_iff _).1 h
        have hdig : ∀ u, isDig u = true → rune u ∉ plusL := by
          intro u hu; rw [rune_of_isDig hu]; simp [isDig, plusL] at hu ⊢; omega
        rcases List.mem_append.1 hu with hu | hu
        · rcases k3.all u hu with h1 | h1
          · exact hdig u h1 hp
          · have : ∀ u ∈ gapL, rune u ∉ plusL := by decide
            exact this u h1 hp
        · generalize n.ext = d0 at k4
          cases k4 with
          | none => cases hu
          | some x d hx hd h1 h2 =>
            rcases List.mem_append.1 hu with hu | hu
            · have : ∀ x ∈ extLabels, ∀ u ∈ x.1, rune u ∉ plusL := by decide
              exact this x hx u hu hp
            · exact hdig u (hd u hu) hp
      rw [k1]
      unfold parseCore
      rw [if_neg hne, if_neg (by simp only [maxInputStringLength]; omega), build_national k2 k3 k4]
      simp only [bind, Except.bind, hvi, checkRegion, hvr, hpl, pure, Except.pure, Bool.false_or, Bool.and_false, Bool.not_false,
        Bool.true_and, Bool.not_true, Bool.false_eq_true, if_false, if_true]
    have hp := parseHelper_core Data.container (format Data.container n .national) unknownRegion false true {}
    rw [hcore] at hp
    exact hp
  obtain ⟨n', hzz⟩ := hzz
  have hm : Data.container.mainRegion a.cc = r := by rw [a2, hmain]
  have hrz : r ≠ unknownRegion := by
    intro h0
    have := (validFor_parts n r hv hr).1
    rw [h0] at this
    exact absurd this (by rw [show Data.container.validRegion unknownRegion = false by kernel_rfl]; simp)
  simp only [numberMatchStrings, a1, bind, Except.bind, numberMatchOne, hzz, hm, if_pos hrz, b1, pure, Except.pure]
  rw [parse_same a1 b1 (by rw [a2, b2]) (by rw [a3, b3]) (by rw [a4, b4])]
  rfl

example : isValidNumber Data.container { countryCode := some 44, nationalNumber := some 2070313000, extension := some (str!"456") } =
    .ok true ∧ ShortExt { countryCode := some 44, nationalNumber := some 2070313000, extension := some (str!"456") } 9 := by
  refine ⟨by kernel_rfl, ?_⟩
  unfold ShortExt; decide
example : format Data.container { countryCode := some 44, nationalNumber := some 2070313000, extension := some (str!"456") } .international =
      str!"+44 20 7031 3000 x456" ∧
    format Data.container { countryCode := some 44, nationalNumber := some 2070313000, extension := some (str!"456") } .national =
      str!"020 7031 3000 x456" ∧
    numberMatchStrings Data.container (str!"+44 20 7031 3000 x456") (str!"020 7031 3000 x456") = .ok .nsnMatch := by
  refine ⟨?_, ?_, ?_⟩ <;> kernel_rfl

end Props

end Verif
