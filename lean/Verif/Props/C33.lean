import Verif.Model.Parse
import Verif.Lemmas.Dec
/-!
# C33: what an EXACT_MATCH means
-/
namespace Verif.Props

/-- The identity of a number as far as matching is concerned: country code, national number, extension, and the leading-zero
information when the Italian-leading-zero flag is set (an unset count means 1). -/
def SameIdentity (a b : PhoneNumber) : Prop :=
  a.countryCode.getD 0 = b.countryCode.getD 0 ∧
  a.nationalNumber.getD 0 = b.nationalNumber.getD 0 ∧
  a.extension.getD [] = b.extension.getD [] ∧
  a.italianLeadingZero.getD false = b.italianLeadingZero.getD false ∧
  (a.italianLeadingZero = some true → a.numberOfLeadingZeros.getD 1 = b.numberOfLeadingZeros.getD 1)

instance (a b : PhoneNumber) : Decidable (SameIdentity a b) := by unfold SameIdentity; infer_instance

theorem coreFields_eq_iff (a b : PhoneNumber) : coreFields a = coreFields b ↔ SameIdentity a b := by
  unfold coreFields SameIdentity PhoneNumber.cc PhoneNumber.nn PhoneNumber.ext PhoneNumber.ilz PhoneNumber.nlz
  simp only [PhoneNumber.mk.injEq, Option.some.injEq, and_true]
  have hi : ∀ o : Option Bool, o.getD false = true ↔ o = some true := by intro o; cases o <;> simp
  constructor
  · rintro ⟨h1, h2, h3, h4, h5⟩
    refine ⟨h1, h2, ?_, ?_, ?_⟩
    · revert h3; split <;> split <;> simp_all
    · revert h4; generalize a.italianLeadingZero.getD false = x; generalize b.italianLeadingZero.getD false = y
      cases x <;> cases y <;> simp
    · intro h; have h' := (hi _).2 h; revert h5 h4; simp only [h', if_true]; split <;> simp_all
  · rintro ⟨h1, h2, h3, h4, h5⟩
    refine ⟨h1, h2, by rw [h3], by rw [h4], ?_⟩
    rw [h4]
    split
    · rename_i h; rw [← h4] at h; rw [h5 ((hi _).1 h)]
    · rfl

theorem core_cc (n : PhoneNumber) : (coreFields n).cc = n.cc := rfl
theorem core_nn (n : PhoneNumber) : (coreFields n).nn = n.nn := rfl
theorem core_ext (n : PhoneNumber) : (coreFields n).ext = n.ext := by
  show (if n.ext ≠ [] then some n.ext else none).getD [] = n.ext
  split <;> simp_all

theorem nsn_core (a b : PhoneNumber) : { coreFields a with countryCode := some b.cc } = coreFields b ↔
    coreFields { a with countryCode := none } = coreFields { b with countryCode := none } := by
  unfold coreFields
  simp only [PhoneNumber.mk.injEq]
  constructor
  · rintro ⟨_, h⟩; exact ⟨rfl, h⟩
  · rintro ⟨_, h⟩; exact ⟨trivial, h⟩

/-- The decision, with the copies spelled out. -/
theorem numberMatch_eq (a b : PhoneNumber) : numberMatch a b =
    if a.ext ≠ [] ∧ b.ext ≠ [] ∧ a.ext ≠ b.ext then .noMatch
    else if a.cc ≠ 0 ∧ b.cc ≠ 0 then
      if SameIdentity a b then .exactMatch
      else if a.cc = b.cc ∧ (dec b.nn <:+ dec a.nn ∨ dec a.nn <:+ dec b.nn) then .shortNsnMatch
      else .noMatch
    else if SameIdentity { a with countryCode := none } { b with countryCode := none } then .nsnMatch
    else if dec b.nn <:+ dec a.nn ∨ dec a.nn <:+ dec b.nn then .shortNsnMatch
    else .noMatch := by
  have e1 := core_ext a
  have e2 := core_ext b
  have s1 : ∀ x y : PhoneNumber, nnSuffix x y = true ↔ (dec y.nn <:+ dec x.nn ∨ dec x.nn <:+ dec y.nn) := by
    intro x y; simp [nnSuffix, hasSuffix]
  have c1 := core_cc a
  have c2 := core_cc b
  have n1 := nsn_core a b
  unfold numberMatch
  simp only [← coreFields_eq_iff]
  by_cases h1 : a.ext ≠ [] ∧ b.ext ≠ [] ∧ a.ext ≠ b.ext
  · rw [if_pos h1, if_pos (by rw [e1, e2]; exact h1)]
  · rw [if_neg h1, if_neg (by rw [e1, e2]; exact h1)]
    by_cases h2 : a.cc ≠ 0 ∧ b.cc ≠ 0
    · rw [if_pos h2, if_pos (by rw [c1, c2]; exact h2)]
      by_cases h3 : coreFields a = coreFields b
      · rw [if_pos h3, if_pos h3]
      · rw [if_neg h3, if_neg h3]
        by_cases h4 : a.cc = b.cc ∧ (dec b.nn <:+ dec a.nn ∨ dec a.nn <:+ dec b.nn)
        · rw [if_pos h4, if_pos (by rw [c1, c2, s1]; exact h4)]
        · rw [if_neg h4, if_neg (by rw [c1, c2, s1]; exact h4)]
    · rw [if_neg h2, if_neg (by rw [c1, c2]; exact h2)]
      by_cases h3 : coreFields { a with countryCode := none } = coreFields { b with countryCode := none }
      · rw [if_pos h3, if_pos (by exact n1.2 h3)]
      · rw [if_neg h3, if_neg (by exact fun h => h3 (n1.1 h))]
        by_cases h4 : dec b.nn <:+ dec a.nn ∨ dec a.nn <:+ dec b.nn
        · rw [if_pos h4, if_pos (by rw [s1]; exact h4)]
        · rw [if_neg h4, if_neg (by rw [s1]; exact h4)]

/-- EXACT_MATCH exactly when the two numbers have the same identity and a non-zero country code. -/
theorem C33_iff (a b : PhoneNumber) :
    numberMatch a b = .exactMatch ↔ SameIdentity a b ∧ a.countryCode.getD 0 ≠ 0 := by
  rw [numberMatch_eq]
  constructor
  · intro h
    split at h
    · cases h
    · split at h
      · rename_i hc
        split at h
        · exact ⟨‹_›, hc.1⟩
        · split at h <;> cases h
      · split at h
        · cases h
        · split at h <;> cases h
  · rintro ⟨h, hc⟩
    have he : a.ext = b.ext := h.2.2.1
    have ha : a.cc ≠ 0 := hc
    have hb : b.cc ≠ 0 := by rw [PhoneNumber.cc, ← h.1]; exact hc
    rw [if_neg (by simp [he]), if_pos ⟨ha, hb⟩, if_pos h]

theorem SameIdentity.symm {a b : PhoneNumber} (h : SameIdentity a b) : SameIdentity b a := by
  rw [← coreFields_eq_iff] at h ⊢; exact h.symm
theorem SameIdentity.trans {a b c : PhoneNumber} (h : SameIdentity a b) (h' : SameIdentity b c) : SameIdentity a c := by
  rw [← coreFields_eq_iff] at h h' ⊢; exact h.trans h'

/-- EXACT_MATCH is transitive. -/
theorem C33_trans (a b c : PhoneNumber) (h1 : numberMatch a b = .exactMatch) (h2 : numberMatch b c = .exactMatch) :
    numberMatch a c = .exactMatch := by
  rw [C33_iff] at *
  exact ⟨h1.1.trans h2.1, h1.2⟩

/-- Two different non-empty extensions never match. -/
theorem C33_extensions (a b : PhoneNumber) (x y : Str) (ha : a.extension = some x) (hb : b.extension = some y) (hx : x ≠ [])
    (hy : y ≠ []) (hxy : x ≠ y) : numberMatch a b = .noMatch := by
  have h1 : a.ext = x := by simp [PhoneNumber.ext, ha]
  have h2 : b.ext = y := by simp [PhoneNumber.ext, hb]
  rw [numberMatch_eq, if_pos (by rw [h1, h2]; exact ⟨hx, hy, hxy⟩)]

/-- Raw input, country code source and carrier code are ignored on both sides. -/
theorem C33_ignored (a b : PhoneNumber) (r r' c c' : Option Str) (s s' : Option CCSource) :
    numberMatch { a with rawInput := r, countryCodeSource := s, preferredCarrier := c }
      { b with rawInput := r', countryCodeSource := s', preferredCarrier := c' } = numberMatch a b := rfl

/-- Two non-zero country codes that differ never match. -/
theorem C33_codes (a b : PhoneNumber) (ha : a.cc ≠ 0) (hb : b.cc ≠ 0) (h : a.cc ≠ b.cc) : numberMatch a b = .noMatch := by
  rw [numberMatch_eq]
  split
  · rfl
  · have : ¬ SameIdentity a b := fun he => h he.1
    simp [ha, hb, h, this]

/-- NSN_MATCH: at least one country code is missing (zero), and apart from the country code the identities agree. -/
theorem C33_nsn_iff (a b : PhoneNumber) :
    numberMatch a b = .nsnMatch ↔
      (a.cc = 0 ∨ b.cc = 0) ∧ SameIdentity { a with countryCode := none } { b with countryCode := none } := by
  rw [numberMatch_eq]
  constructor
  · intro h
    split at h
    · cases h
    · split at h
      · split at h
        · cases h
        · split at h <;> cases h
      · split at h
        · rename_i hc hs; exact ⟨by omega, hs⟩
        · split at h <;> cases h
  · rintro ⟨hc, h⟩
    have he : a.ext = b.ext := h.2.2.1
    rw [if_neg (by simp [he]), if_neg (by omega), if_pos h]

/-- SHORT_NSN_MATCH: one national number is a suffix of the other. -/
theorem C33_short (a b : PhoneNumber) (h : numberMatch a b = .shortNsnMatch) :
    Spec.decimal a.nn <:+ Spec.decimal b.nn ∨ Spec.decimal b.nn <:+ Spec.decimal a.nn := by
  rw [numberMatch_eq] at h
  rw [← dec_eq_decimal, ← dec_eq_decimal]
  split at h
  · cases h
  · split at h
    · split at h
      · cases h
      · split at h
        · rename_i hh; exact hh.2.symm
        · cases h
    · split at h
      · cases h
      · split at h
        · rename_i hh; exact hh.symm
        · cases h

example : numberMatch { countryCode := some 39, nationalNumber := some 236618300, italianLeadingZero := some true }
    { countryCode := some 39, nationalNumber := some 236618300, italianLeadingZero := some true, numberOfLeadingZeros := some 1,
      rawInput := some (str!"x") } = .exactMatch := by decide +kernel
example : numberMatch { countryCode := some 39, nationalNumber := some 236618300, italianLeadingZero := some true }
    { countryCode := some 39, nationalNumber := some 236618300 } = .shortNsnMatch := by decide +kernel
example : numberMatch { countryCode := some 64, nationalNumber := some 33316005 } { nationalNumber := some 33316005 } = .nsnMatch := by
  decide +kernel

end Verif.Props
