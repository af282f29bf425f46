import Verif.Lemmas.Ext
import Verif.Data.Decode
import Verif.Lemmas.Dec
/-!
# Text made of ASCII digits, possibly after a plus sign

Such text passes unchanged through every clean-up step that parsing performs before it looks for a country code.
-/
namespace Verif

/-- `+` and the ASCII digits. -/
def plainL : List Nat := [43, 48, 49, 50, 51, 52, 53, 54, 55, 56, 57]

theorem isDig_cases {u : Nat} (h : isDig u = true) :
    u = 48 ∨ u = 49 ∨ u = 50 ∨ u = 51 ∨ u = 52 ∨ u = 53 ∨ u = 54 ∨ u = 55 ∨ u = 56 ∨ u = 57 := by
  simp [isDig] at h; omega

theorem plainL_of_isDig {u : Nat} (h : isDig u = true) : rune u ∈ plainL := by
  rcases isDig_cases h with rfl | rfl | rfl | rfl | rfl | rfl | rfl | rfl | rfl | rfl <;> decide

theorem indexOf_none_of_head (s : Str) (c : Nat) (p : Str) (h : c ∉ s) : indexOf s (c :: p) = none := by
  induction s with
  | nil => simp [indexOf]
  | cons u t ih =>
    simp only [List.mem_cons, not_or] at h
    unfold indexOf
    rw [if_neg]
    · simp [ih h.2]
    · simp only [List.isPrefixOf, Bool.and_eq_true, beq_iff_eq]
      exact fun hh => h.1 hh.1

/-- The class `[^\p{N}\p{L}#]` does not contain an ASCII digit. -/
theorem unwantedEnd_eq : unwantedEndCharPattern = .cat (.rep (.cls ⟨true, [(35, 35)], [.n, .l]⟩) 1 none true) .eos := rfl

theorem unwantedCls_dig {u : Nat} (h : isDig u = true) : (⟨true, [(35, 35)], [.n, .l]⟩ : Cls).mem u = false := by
  rcases isDig_cases h with rfl | rfl | rfl | rfl | rfl | rfl | rfl | rfl | rfl | rfl <;> decide +kernel

theorem unwantedEnd_none (s : Str) (v : Nat) (hv : isDig v = true) : unwantedEndCharPattern.find (s ++ [v]) = none := by
  cases hf : unwantedEndCharPattern.find (s ++ [v]) with
  | none => rfl
  | some x =>
    obtain ⟨a, w, e, h1, _, _, h4, _⟩ := findFrom_sound hf
    rw [unwantedEnd_eq] at h4
    obtain ⟨w1, w2, rfl, h5, h6⟩ := h4
    obtain ⟨rfl, rfl⟩ : w2 = [] ∧ e = [] := h6
    have h7 := allCls_acc (P := fun c => c == ⟨true, [(35, 35)], [.n, .l]⟩)
      (Q := fun u => (⟨true, [(35, 35)], [.n, .l]⟩ : Cls).mem u = true)
      (fun c hc u hu => by rw [beq_iff_eq] at hc; rwa [hc] at hu) _ (by decide) _ _ _ h5
    have h8 := minLen_acc _ _ _ _ h5
    have hw : w1 ≠ [] := by rintro rfl; exact absurd h8 (by decide)
    have : v ∈ w1 := by
      have h9 := congrArg List.getLast? h1
      simp only [List.append_nil, List.getLast?_append, List.getLast?_singleton, Option.some_or] at h9
      rw [List.getLast?_eq_some_getLast hw] at h9
      simp only [Option.some_or, Option.some.injEq] at h9
      rw [h9]; exact List.getLast_mem hw
    have := h7 v this
    rw [unwantedCls_dig hv] at this; cases this

theorem validStart_zero (u : Nat) (t : Str) (h : rune u ∈ plainL) : ∃ x, validStartCharPattern.find (u :: t) = some x ∧ x.start = 0 := by
  have hm : ∀ c : Cls, validStartCharPattern = .cls c → c.mem u = true → ∃ x, validStartCharPattern.find (u :: t) = some x ∧ x.start = 0 := by
    intro c hc hu
    refine ⟨⟨0, 1, []⟩, ?_, rfl⟩
    rw [Re.find, Re.findFrom, hc, Re.matchAt, cls_m_cons, if_pos hu]
  refine hm _ rfl ?_
  simp only [plainL, List.mem_cons, List.not_mem_nil, or_false] at h
  simp only [Cls.mem]
  rcases h with h | h | h | h | h | h | h | h | h | h | h <;> rw [h] <;> decide +kernel

/-- Shape of the text: an optional plus sign, then at least one digit. -/
structure Plain (s : Str) : Prop where
  all : ∀ u ∈ s, rune u ∈ plainL
  last : ∃ a v, s = a ++ [v] ∧ isDig v = true

theorem Plain.digits {d : Str} (h0 : d ≠ []) (hd : ∀ u ∈ d, isDig u = true) : Plain d :=
  ⟨fun u hu => plainL_of_isDig (hd u hu), d.dropLast, d.getLast h0, (List.dropLast_concat_getLast h0).symm, hd _ (List.getLast_mem h0)⟩

theorem Plain.plus {d : Str} (h0 : d ≠ []) (hd : ∀ u ∈ d, isDig u = true) : Plain (43 :: d) := by
  obtain ⟨h1, a, v, h2, h3⟩ := Plain.digits h0 hd
  refine ⟨?_, 43 :: a, v, by rw [h2]; rfl, h3⟩
  intro u hu
  rcases List.mem_cons.1 hu with rfl | hu
  · decide
  · exact h1 u hu

theorem Plain.not_mem {s : Str} (h : Plain s) (c : Nat) (hc : rune c ∉ plainL) : c ∉ s := fun hm => hc (h.all c hm)

theorem Plain.ne_nil {s : Str} (h : Plain s) : s ≠ [] := by
  obtain ⟨_, a, v, rfl, _⟩ := h; simp

theorem Plain.extractPossible {s : Str} (h : Plain s) : extractPossibleNumber s = s := by
  obtain ⟨a, v, h1, hv⟩ := h.last
  cases s with
  | nil => exact absurd rfl h.ne_nil
  | cons u t =>
    obtain ⟨x, hx, hx0⟩ := validStart_zero u t (h.all u (by simp))
    unfold extractPossibleNumber
    rw [hx]
    simp only [hx0, List.drop_zero]
    rw [h1, unwantedEnd_none a v hv, ← h1]
    simp only
    rw [show secondNumberStartPattern.find (u :: t) = none from
      find_none_of_needs (L := plainL) (by decide +kernel) h.all 0]

theorem Plain.build {s : Str} (h : Plain s) : buildNationalNumber s = .ok (.ok s) := by
  have h1 : indexOf s rfcPhoneContext = none := indexOf_none_of_head s 59 _ (h.not_mem 59 (by decide))
  have h2 : indexOf s rfcIsub = none := indexOf_none_of_head s 59 _ (h.not_mem 59 (by decide))
  unfold buildNationalNumber
  simp only [h1, h.extractPossible]
  simp [dropIsub, h2]

theorem Plain.stripExt {s : Str} (h : Plain s) : stripExtension s = ([], s) := by
  unfold stripExtension
  rw [show extnPattern.find s = none from find_none_of_needs (L := plainL) (by decide +kernel) h.all 0]

theorem normalize_dig {d : Str} (hd : ∀ u ∈ d, isDig u = true) : normalize d = d := by
  have h1 : validAlphaPhonePattern.isMatch d = false := by
    have : validAlphaPhonePattern.find d = none :=
      find_none_of_needs (L := plainL) (by decide +kernel) (fun u hu => plainL_of_isDig (hd u hu)) 0
    simp [Re.isMatch, this]
  unfold normalize
  rw [h1]
  simp only [Bool.false_eq_true, if_false]
  exact normalizeDigitsOnly_of_digits hd

theorem iterP_chars {P : Nat → Str → Str → Prop} {Q : Nat → Prop} (h : ∀ u, Q u → ∀ q f, P q [u] f) (w : Str) (hw : ∀ u ∈ w, Q u)
    (p : Nat) (e : Str) : iterP P w.length p w e := by
  induction w generalizing p with
  | nil => rfl
  | cons u t ih =>
    exact ⟨[u], t, rfl, h u (hw u (by simp)) _ _, ih (fun v hv => hw v (by simp [hv])) _⟩

/-- Text in the second form accepted by the viable-number pattern. -/
theorem validBody_digits (p d e : Str) (hp : ∀ u ∈ p, rune u ∈ plusL) (hd : ∀ u ∈ d, isDig u = true) (h3 : 3 ≤ d.length) :
    validBody.Acc 0 (p ++ d) e := by
  refine Or.inr ⟨p, d, rfl, ⟨p.length, by omega, by simp, ?_⟩, d, [], by simp, ⟨d.length, h3, by simp, ?_⟩, [], [], by simp,
    ⟨0, by simp, by simp, rfl⟩, ⟨0, by simp, by simp, rfl⟩⟩
  · exact iterP_chars (fun u hu q f => ⟨u, rfl, (plusCls_mem u).2 hu⟩) p hp _ _
  · refine iterP_chars (fun u hu q f => ?_) d hd _ _
    refine ⟨[], [u], rfl, ⟨0, by simp, by simp, rfl⟩, u, rfl, ?_⟩
    rcases isDig_cases hu with rfl | rfl | rfl | rfl | rfl | rfl | rfl | rfl | rfl | rfl <;> decide +kernel

theorem isViable_plus {d : Str} (hd : ∀ u ∈ d, isDig u = true) (h3 : 3 ≤ d.length) : isViable (43 :: d) = true := by
  have h := validBody_digits [43] d [] (by decide) hd h3
  unfold isViable
  rw [if_neg, validPhoneNumberPattern_eq, full_isMatch_iff]
  · exact h
  · simp only [blen_cons, blen_digits hd, minLengthForNSN]; omega

theorem isViable_digits {d : Str} (hd : ∀ u ∈ d, isDig u = true) (h3 : 3 ≤ d.length) : isViable d = true := by
  have h := validBody_digits [] d [] (by decide) hd h3
  unfold isViable
  rw [if_neg, validPhoneNumberPattern_eq, full_isMatch_iff]
  · exact h
  · simp only [blen_digits hd, minLengthForNSN]; omega

theorem dig_not_plus {u : Nat} (h : isDig u = true) : rune u ∉ plusL := by
  rcases isDig_cases h with rfl | rfl | rfl | rfl | rfl | rfl | rfl | rfl | rfl | rfl <;> decide

theorem extractOnce_plusDigits (C : Container) (d : Str) (m : Option Metadata) (hd : ∀ u ∈ d, isDig u = true) (h3 : 3 ≤ d.length) :
    extractOnce C (43 :: d) m =
      if (extractCC C d).1 ≠ 0 then .ok (.ok ((extractCC C d).1, (extractCC C d).2, .withPlusSign))
      else .ok (.error .invalidCountryCode) := by
  have := extractOnce_plus C [43] d m (by simp) (by decide) (fun u hu => dig_not_plus (hd u hu))
  rw [normalize_dig hd, blen_digits hd, if_neg (by simp only [minLengthForNSN]; omega)] at this
  simpa using this

/-- Parsing a plus sign and digits that start with a country code. -/
theorem parseCore_plusDigits (C : Container) (d region : Str) (check : Bool) (hd : ∀ u ∈ d, isDig u = true) (h3 : 3 ≤ d.length)
    (h250 : d.length < 250) (hc : (extractCC C d).1 ≠ 0) :
    parseCore C (43 :: d) region check = (do
      match ← finishCore (extractCC C d).2 (finishMeta C (extractCC C d).1 region) with
      | .error e => return .error e
      | .ok (nsn, carrier) => return .ok ⟨(extractCC C d).1, [], nsn, some .withPlusSign, carrier⟩) := by
  have hp : Plain (43 :: d) := Plain.plus (by rintro rfl; simp at h3) hd
  have hchk : checkRegion C (43 :: d) region = true := by
    simp only [checkRegion, Bool.or_eq_true, Bool.and_eq_true]
    exact Or.inr ⟨by simp, (plus_isMatch_iff _).2 ⟨43, by simp, by decide⟩⟩
  unfold parseCore
  rw [if_neg (by simp), if_neg (by
    simp only [blen_cons, blen_digits hd, maxInputStringLength, show width 43 = 1 from rfl]; omega), hp.build]
  simp only [bind, Except.bind, isViable_plus hd h3, hchk, Bool.not_true, Bool.and_false, Bool.false_eq_true, if_false]
  unfold parseViable
  rw [hp.stripExt]
  simp only [bind, Except.bind, extractCore, extractOnce_plusDigits C d _ hd h3, if_pos hc, pure, Except.pure]
  cases finishCore (extractCC C d).snd (finishMeta C (extractCC C d).fst region) with
  | error p => rfl
  | ok v => cases v <;> rfl

/-- Text that is too short to be viable is rejected. -/
theorem parseCore_plusShort (C : Container) (d region : Str) (check : Bool) (hd : ∀ u ∈ d, isDig u = true) (h3 : d.length < 3)
    (o : ParseOut) : parseCore C (43 :: d) region check ≠ .ok (.ok o) := by
  intro h
  unfold parseCore at h
  split at h
  · cases h
  · split at h
    · cases h
    · by_cases h0 : d = []
      · subst h0
        revert h
        have : buildNationalNumber [43] = .ok (.ok []) := by kernel_rfl
        simp only [this, bind, Except.bind, isViable_nil]
        intro h; cases h
      · have hp : Plain (43 :: d) := Plain.plus h0 hd
        rw [hp.build] at h
        simp only [bind, Except.bind] at h
        split at h
        · cases h
        · split at h
          · cases h
          · unfold parseViable at h
            have he := extractOnce_plus C [43] d (C.metaForRegion region) (by simp) (by decide) (fun u hu => dig_not_plus (hd u hu))
            rw [normalize_dig hd, blen_digits hd, if_pos (by simp only [minLengthForNSN]; omega)] at he
            have hf := plus_find_start [43] d (by simp) (by decide) (fun u hu => dig_not_plus (hd u hu))
            simp only [List.singleton_append] at he hf
            rw [hp.stripExt] at h
            simp only [bind, Except.bind, extractCore, he, hf] at h
            cases h

end Verif
