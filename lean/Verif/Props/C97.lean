import Verif.Props.C69
/-!
# C97: the written forms of parsed numbers are keys
-/
namespace Verif
open Spec

/-- A parse result is determined by its country code, its national significant number and its extension. -/
theorem parse_unique {s s' r r' : Str} {a b : PhoneNumber} (ha : parse Data.container s r = .ok (none, a))
    (hb : parse Data.container s' r' = .ok (none, b)) (hc : a.cc = b.cc) (hn : nsnOf a = nsnOf b) : { a with extension := b.extension } = b := by
  obtain ⟨o, h1, rfl⟩ := parse_core_of_ok ha
  obtain ⟨o', h1', rfl⟩ := parse_core_of_ok hb
  obtain ⟨k1, k2, k3, k4⟩ := parseCore_spec Data.wf_regions Data.wf_transform h1
  obtain ⟨k1', k2', k3', k4'⟩ := parseCore_spec Data.wf_regions Data.wf_transform h1'
  have e : nsnOf (o.apply s false {}) = o.nsn := Props.C05_store o.nsn {} (fun u hu => (isDig_iff u).1 (k2 u hu)) k3 k4 rfl
  have e' : nsnOf (o'.apply s' false {}) = o'.nsn := Props.C05_store o'.nsn {} (fun u hu => (isDig_iff u).1 (k2' u hu)) k3' k4' rfl
  have hnsn : o.nsn = o'.nsn := by rw [← e, ← e']; exact hn
  have hcc : o.cc = o'.cc := hc
  simp only [ParseOut.apply, hnsn, hcc, Bool.false_eq_true, if_false, false_and]

/-- A parse result has no empty extension. -/
theorem parse_ext {s r : Str} {a : PhoneNumber} (ha : parse Data.container s r = .ok (none, a)) (h : a.extension.getD [] = []) : a.extension = none := by
  obtain ⟨o, h1, rfl⟩ := parse_core_of_ok ha
  simp only [ParseOut.apply] at h ⊢
  by_cases h0 : o.ext = []
  · rw [if_neg (by simpa using h0)]
  · rw [if_pos h0] at h
    exact absurd h h0

theorem parse_unique_ext {s s' r r' : Str} {a b : PhoneNumber} (ha : parse Data.container s r = .ok (none, a))
    (hb : parse Data.container s' r' = .ok (none, b)) (hc : a.cc = b.cc) (hn : nsnOf a = nsnOf b)
    (he : a.extension.getD [] = b.extension.getD []) : a = b := by
  have h := parse_unique ha hb hc hn
  have h' : a.extension = b.extension := by
    cases hx : a.extension with
    | none =>
      rw [hx] at he
      exact (parse_ext hb he.symm).symm
    | some x =>
      cases hy : b.extension with
      | none =>
        rw [hy] at he
        rw [parse_ext ha he] at hx
        cases hx
      | some y =>
        rw [hx, hy] at he
        exact congrArg some he
  rw [← h', show { a with extension := a.extension } = a from rfl] at h
  exact h

/-- A parse result has no raw input and a supported country code. -/
theorem parse_facts {s r : Str} {a : PhoneNumber} (ha : parse Data.container s r = .ok (none, a)) :
    Data.container.hasCC a.cc = true ∧ ¬ (a.nn = 0 ∧ a.raw ≠ []) := by
  obtain ⟨o, h1, rfl⟩ := parse_core_of_ok ha
  obtain ⟨k1, k2, k3, k4⟩ := parseCore_spec Data.wf_regions Data.wf_transform h1
  exact ⟨k1, fun h => h.2 rfl⟩

theorem filter_intercalate (gs : List Str) : (List.intercalate [45] gs).filter isDig = gs.flatten.filter isDig := by
  induction gs with
  | nil => rfl
  | cons g t ih =>
    cases t with
    | nil => simp [List.intercalate]
    | cons g' t =>
      have : List.intercalate [45] (g :: g' :: t) = g ++ [45] ++ List.intercalate [45] (g' :: t) := by simp [List.intercalate]
      rw [this, List.filter_append, List.filter_append, ih]
      simp [isDig]

/-- The digits before the first semicolon, and what comes from it on. -/
theorem rfc_split {n : PhoneNumber} (hcc : Data.container.hasCC n.cc = true) (hraw : ¬ (n.nn = 0 ∧ n.raw ≠ [])) :
    ((format Data.container n .rfc3966).takeWhile (· ≠ 59)).filter isDig = decimal n.cc.toNat ++ nsnOf n ∧
    ((format Data.container n .rfc3966).dropWhile (· ≠ 59)).drop 5 = n.extension.getD [] := by
  obtain ⟨body, h1, gs, -, -, h4, h5⟩ := Props.C17_groups _ built_shipped Data.wf_tables Props.prefixFree_shipped Data.wf_intlFormats Data.wf_intlLiterals n hcc hraw
  have hdc : ∀ u ∈ decimal n.cc.toNat, isDig u = true := by rw [← dec_eq_decimal]; exact dec_digits _
  have hdn : ∀ u ∈ nsnOf n, isDig u = true := nsnOf_isDig n
  have hb : ∀ u ∈ body, u ≠ 59 := by
    intro u hu
    rw [h5] at hu
    rcases Props.mem_intercalate hu with h | ⟨w, hw, hu⟩
    · simp at h; omega
    · have : u ∈ nsnOf n := by rw [← h4]; exact List.mem_flatten.2 ⟨w, hw, hu⟩
      have := hdn u this
      simp [isDig] at this; omega
  generalize hp : str!"tel:+" ++ decimal n.cc.toNat ++ str!"-" ++ body = pre at h1
  have hpre : ∀ u ∈ pre, decide (u ≠ 59) = true := by
    intro u hu
    rw [← hp] at hu
    simp only [List.mem_append] at hu
    rw [decide_eq_true_eq]
    rcases hu with ((hu | hu) | hu) | hu
    · intro h; subst h; revert hu; decide
    · have := hdc u hu
      simp [isDig] at this; omega
    · intro h; subst h; revert hu; decide
    · exact hb u hu
  have hf : pre.filter isDig = decimal n.cc.toNat ++ nsnOf n := by
    rw [← hp, h5]
    have e := filter_intercalate gs
    rw [show ['-'.toNat] = [45] from rfl]
    rw [List.filter_append, List.filter_append, List.filter_append, e, h4, List.filter_eq_self.2 hdc, List.filter_eq_self.2 hdn]
    have e1 : (str!"tel:+").filter isDig = [] := by decide
    have e2 : (str!"-").filter isDig = [] := by decide
    rw [e1, e2]
    simp
  rw [h1, List.takeWhile_append_of_pos hpre, List.dropWhile_append_of_pos hpre]
  by_cases h0 : n.extension.getD [] = []
  · rw [if_pos h0, h0]
    simp [hf]
  · rw [if_neg h0]
    have e1 : (str!";ext=" ++ n.extension.getD []).takeWhile (fun u => decide (u ≠ 59)) = [] := rfl
    have e2 : (str!";ext=" ++ n.extension.getD []).dropWhile (fun u => decide (u ≠ 59)) = str!";ext=" ++ n.extension.getD [] := rfl
    rw [e1, e2, List.append_nil]
    exact ⟨hf, rfl⟩

namespace Props

/-- Numbers parsed from any texts for any regions have the same E164 form exactly if they are the same number, apart from the extension. -/
theorem C97_e164 (s s' r r' : Str) (a b : PhoneNumber) (ha : parse Data.container s r = .ok (none, a))
    (hb : parse Data.container s' r' = .ok (none, b)) :
    format Data.container a .e164 = format Data.container b .e164 ↔ { a with extension := none } = { b with extension := none } := by
  obtain ⟨k1, k2⟩ := parse_facts ha
  obtain ⟨k1', k2'⟩ := parse_facts hb
  constructor
  · intro h
    obtain ⟨h1, h2⟩ := C15_shipped a b k1 k1' k2 k2' h
    have := parse_unique ha hb h1 h2
    rw [← this]
  · intro h
    have h1 := C15_ignores Data.container a none a.preferredCarrier a.countryCodeSource
    have h2 := C15_ignores Data.container b none b.preferredCarrier b.countryCodeSource
    exact h1.symm.trans ((congrArg (fun n => format Data.container n .e164) h).trans h2)

/-- They have the same RFC3966 form exactly if they are the same number. -/
theorem C97_rfc3966 (s s' r r' : Str) (a b : PhoneNumber) (ha : parse Data.container s r = .ok (none, a))
    (hb : parse Data.container s' r' = .ok (none, b)) : format Data.container a .rfc3966 = format Data.container b .rfc3966 ↔ a = b := by
  refine ⟨fun h => ?_, fun h => by rw [h]⟩
  obtain ⟨k1, k2⟩ := parse_facts ha
  obtain ⟨k1', k2'⟩ := parse_facts hb
  obtain ⟨d1, d2⟩ := rfc_split k1 k2
  obtain ⟨d1', d2'⟩ := rfc_split k1' k2'
  rw [h] at d1 d2
  have hd : decimal a.cc.toNat ++ nsnOf a = decimal b.cc.toNat ++ nsnOf b := d1.symm.trans d1'
  have h3 := C13_unique _ prefixFree_shipped (hasCC_zero Data.wf_regions) a.cc (nsnOf a) k1 (C04_digits a)
  have h4 := C13_unique _ prefixFree_shipped (hasCC_zero Data.wf_regions) b.cc (nsnOf b) k1' (C04_digits b)
  rw [hd, h4] at h3
  have h5 := Prod.mk.inj h3
  exact parse_unique_ext ha hb h5.1.symm h5.2.symm (d2.symm.trans d2')

/-- The written forms of a valid number that came out of parsing are read as exactly that number, wherever they are read; so writing it
again gives the same text. -/
theorem C97_fixed (s r : Str) (n : PhoneNumber) (hp : parse Data.container s r = .ok (none, n))
    (hv : isValidNumber Data.container n = .ok true) (hex : ¬ Ambiguous n) (hext : ShortExt n 9) (f : Fmt) (hf : WritesAll n f) (region : Str) :
    parse Data.container (format Data.container n f) region = .ok (none, n) := by
  obtain ⟨b, b1, b2, b3, b4⟩ := writesAll_parse n hv (parse_facts hp).2 hex hext f hf region
  rw [b1, parse_unique_ext b1 hp b2 b3 b4]

/-- So two valid numbers never share a written form, in whatever of these formats each of them is written. -/
theorem C97_forms (s s' r r' : Str) (a b : PhoneNumber) (ha : parse Data.container s r = .ok (none, a))
    (hb : parse Data.container s' r' = .ok (none, b)) (va : isValidNumber Data.container a = .ok true)
    (vb : isValidNumber Data.container b = .ok true) (xa : ¬ Ambiguous a) (xb : ¬ Ambiguous b) (ea : ShortExt a 9) (eb : ShortExt b 9) (f g : Fmt)
    (hf : WritesAll a f) (hg : WritesAll b g) (h : format Data.container a f = format Data.container b g) : a = b := by
  have h1 := C97_fixed s r a ha va xa ea f hf unknownRegion
  have h2 := C97_fixed s' r' b hb vb xb eb g hg unknownRegion
  rw [h, h2] at h1
  cases h1
  rfl

/-- This fails for some numbers that are not valid: a British number with three leading zeros loses one of them every time its E164 form
is read, until too few digits are left. -/
theorem C97_drifts :
    ∃ a b, parse Data.container (str!"+44 00001234567") (str!"GB") = .ok (none, a) ∧
      format Data.container a .e164 = str!"+440001234567" ∧
      parse Data.container (format Data.container a .e164) (str!"GB") = .ok (none, b) ∧
      format Data.container b .e164 = str!"+44001234567" ∧ isValidNumber Data.container a = .ok false := by
  refine ⟨{ countryCode := some 44, nationalNumber := some 1234567, italianLeadingZero := some true, numberOfLeadingZeros := some 3 },
    { countryCode := some 44, nationalNumber := some 1234567, italianLeadingZero := some true, numberOfLeadingZeros := some 2 }, ?_, ?_, ?_, ?_, ?_⟩ <;> kernel_rfl

/-- Two ways of typing a number with an extension. -/
example : ∃ a, parse Data.container (str!"020 7031 3000 ext. 12") (str!"GB") = .ok (none, a) ∧
    parse Data.container (str!"tel:+44-20-7031-3000;ext=12") (str!"US") = .ok (none, a) ∧
    format Data.container a .rfc3966 = str!"tel:+44-20-7031-3000;ext=12" ∧ isValidNumber Data.container a = .ok true ∧ ¬ Ambiguous a ∧
    ShortExt a 9 ∧ WritesAll a .rfc3966 := by
  refine ⟨{ countryCode := some 44, nationalNumber := some 2070313000, extension := some (str!"12") }, ?_, ?_, ?_, ?_, ?_, ?_, .inr (.inl rfl)⟩
  · kernel_rfl
  · kernel_rfl
  · kernel_rfl
  · kernel_rfl
  · decide +kernel
  · unfold ShortExt; decide

end Props
end Verif
