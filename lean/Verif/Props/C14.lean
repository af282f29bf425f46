import Verif.Lemmas.Context
import Verif.Data.Shipped
/-!
# C14: tel URIs and their phone-context
-/
namespace Verif
open Spec

/-- Without keeping the raw input, parsing depends on the input only through the analysed text. -/
theorem parse_of_build (C : Container) {s s' region : Str} (h0 : s ≠ []) (h0' : s' ≠ []) (hl : blen s ≤ 250) (hl' : blen s' ≤ 250)
    (h : buildNationalNumber s = buildNationalNumber s') : parse C s region = parse C s' region := by
  simp only [parse, parseToNumber, parseHelper, if_neg h0, if_neg h0', maxInputStringLength, if_neg (Nat.not_lt.2 hl),
    if_neg (Nat.not_lt.2 hl'), h]
  rfl

theorem before_length (P : Str → Bool) (s : Str) : (before P s).length ≤ s.length := by
  induction s with
  | nil => simp [before]
  | cons u t ih => simp only [before]; split <;> simp [ih]

theorem before_eq_self {P : Str → Bool} {s : Str} (h : before P s = s) (a : Str) (u : Nat) (b : Str) (hs : s = a ++ u :: b) :
    P (u :: b) = false := by
  induction s generalizing a with
  | nil => simp at hs
  | cons v t ih =>
    simp only [before] at h
    by_cases hp : P (v :: t) = true
    · simp [hp] at h
    · simp only [hp, Bool.false_eq_true, if_false, List.cons.injEq, true_and] at h
      cases a with
      | nil => rw [List.nil_append] at hs; rw [← hs]; simpa using hp
      | cons x a => exact ih h a (List.cons.inj hs).2

theorem dropWhile_length (p : Nat → Bool) (s : Str) : (s.dropWhile p).length ≤ s.length :=
  (List.dropWhile_sublist p).length_le

/-- What it means for a text to be its own candidate. -/
theorem candidate_self {s : Str} (h : candidate s = s) :
    s.dropWhile (fun u => !isStart u) = s ∧ before (fun t => t.all (fun u => !isEnd u)) s = s ∧ before secondNumber s = s := by
  have h1 := dropWhile_length (fun u => !isStart u) s
  have h2 := before_length (fun t => t.all (fun u => !isEnd u)) (s.dropWhile (fun u => !isStart u))
  have h3 := before_length secondNumber (before (fun t => t.all (fun u => !isEnd u)) (s.dropWhile (fun u => !isStart u)))
  unfold candidate at h
  have hlen := congrArg List.length h
  have e1 : s.dropWhile (fun u => !isStart u) = s := (List.dropWhile_sublist _).eq_of_length (by omega)
  rw [e1] at h h2 h3 hlen
  have pre : ∀ (P : Str → Bool) (s : Str), before P s <+: s := by
    intro P s
    induction s with
    | nil => simp [before]
    | cons u t ih =>
      simp only [before]; split
      · exact List.nil_prefix
      · exact List.prefix_cons_inj u |>.2 ih
  have e2 : before (fun t => t.all (fun u => !isEnd u)) s = s := (pre _ s).eq_of_length (by omega)
  rw [e2] at h
  exact ⟨e1, e2, h⟩

theorem before_append {P : Str → Bool} {a b : Str} (h : ∀ x u y, a = x ++ u :: y → P (u :: (y ++ b)) = false) :
    before P (a ++ b) = a ++ before P b := by
  induction a with
  | nil => rfl
  | cons u t ih =>
    have h0 := h [] u t rfl
    simp only [List.cons_append, before, h0, Bool.false_eq_true, if_false]
    rw [ih fun x v y hs => h (u :: x) v y (by rw [hs]; rfl)]

theorem candidate_isub {body x : Str} (hb : candidate body = body) (h0 : body ≠ []) (hx : ∃ v ∈ x, isEnd v = true) :
    ∃ x', candidate (body ++ str!";isub=" ++ x) = body ++ str!";isub=" ++ x' := by
  obtain ⟨h1, h2, h3⟩ := candidate_self hb
  obtain ⟨v, hv, hve⟩ := hx
  obtain ⟨x1, x2, rfl⟩ := List.append_of_mem hv
  have e1 : (body ++ str!";isub=" ++ (x1 ++ v :: x2)).dropWhile (fun u => !isStart u) = body ++ str!";isub=" ++ (x1 ++ v :: x2) := by
    cases body with
    | nil => exact absurd rfl h0
    | cons u t =>
      have : isStart u = true := by
        cases hu : isStart u with
        | true => rfl
        | false =>
          simp only [List.dropWhile_cons, hu, Bool.not_false, if_true] at h1
          have := congrArg List.length h1
          have := dropWhile_length (fun u => !isStart u) t
          simp at *; omega
      simp [this]
  have e2 : before (fun t => t.all (fun u => !isEnd u)) (body ++ str!";isub=" ++ (x1 ++ v :: x2)) =
      body ++ str!";isub=" ++ (x1 ++ [v] ++ before (fun t => t.all (fun u => !isEnd u)) x2) := by
    have := before_append (P := fun t => t.all (fun u => !isEnd u)) (a := body ++ str!";isub=" ++ (x1 ++ [v])) (b := x2) (by
      intro a u y hs
      rw [List.all_eq_false]
      have hm : v ∈ u :: y := by
        have hl := congrArg List.getLast? hs
        simp only [List.getLast?_append, List.getLast?_singleton, Option.some_or] at hl
        have hne : u :: y ≠ [] := by simp
        rw [List.getLast?_eq_some_getLast hne] at hl
        simp only [Option.some_or, Option.some.injEq] at hl
        rw [hl]; exact List.getLast_mem hne
      refine ⟨v, ?_, by simp [hve]⟩
      rcases List.mem_cons.1 hm with rfl | hm
      · simp
      · simp [hm])
    simpa [List.append_assoc] using this
  refine ⟨before secondNumber (x1 ++ [v] ++ before (fun t => t.all (fun u => !isEnd u)) x2), ?_⟩
  unfold candidate
  rw [e1, e2]
  refine before_append (a := body ++ str!";isub=") fun a u y hs => ?_
  generalize x1 ++ [v] ++ before (fun t => t.all (fun u => !isEnd u)) x2 = z
  -- a slash in the body is not followed by spaces and an x
  rw [List.append_eq_append_iff] at hs
  rcases hs with ⟨c, hc1, hc2⟩ | ⟨c, hc1, hc2⟩
  · -- the suffix begins within ";isub="
    have hmem : u ∈ (str!";isub=" : Str) := by rw [hc2]; simp
    have : ∀ u ∈ (str!";isub=" : Str), u ≠ 47 ∧ u ≠ 92 := by decide
    have := this u hmem
    simp [secondNumber, this]
  · cases c with
    | nil =>
      have hmem : u ∈ (str!";isub=" : Str) := by rw [List.nil_append] at hc2; rw [← hc2]; simp
      have : ∀ u ∈ (str!";isub=" : Str), u ≠ 47 ∧ u ≠ 92 := by decide
      have := this u hmem
      simp [secondNumber, this]
    | cons w c =>
      simp only [List.cons_append, List.cons.injEq] at hc2
      obtain ⟨rfl, rfl⟩ := hc2
      have hf := before_eq_self h3 a u c hc1
      simp only [secondNumber, Bool.and_eq_false_iff] at hf ⊢
      rcases hf with hf | hf
      · exact .inl hf
      · right
        rw [List.append_assoc]
        generalize hr : (str!";isub=" : Str) ++ z = r
        have hr59 : r.head? = some 59 ∧ r ≠ [] := by rw [← hr]; simp
        clear hr hc1
        induction c with
        | nil =>
          cases r with
          | nil => simp at hr59
          | cons q r => simp at hr59; subst hr59; simp
        | cons q c ih =>
          simp only [List.cons_append, List.dropWhile_cons] at hf ⊢
          split
          · rename_i hq; rw [if_pos hq] at hf; exact ih hf
          · rename_i hq; rw [if_neg hq] at hf; simpa using hf

namespace Props

/-- An invalid phone-context (also an empty one) makes the input "not a number" (inputs over 250 bytes are rejected as too long). -/
theorem C14_reject (C : Container) (pre rest region : Str) (h : NotIn (str!";phone-context=") pre)
    (hv : ¬ ValidContext (upTo ';'.toNat rest)) :
    ∃ e, (e = .notANumber ∨ blen (pre ++ str!";phone-context=" ++ rest) > 250 ∧ e = .tooLong) ∧
      parse C (pre ++ str!";phone-context=" ++ rest) region = .ok (some e, {}) ∧
      parseKeepRaw C (pre ++ str!";phone-context=" ++ rest) region = .ok (some e, {}) := by
  have h0 : pre ++ str!";phone-context=" ++ rest ≠ [] := by simp
  simp only [parse, parseToNumber, parseKeepRaw, parseKeepRawToNumber, parseHelper, if_neg h0, maxInputStringLength]
  by_cases hl : blen (pre ++ str!";phone-context=" ++ rest) > 250
  · exact ⟨_, .inr ⟨hl, rfl⟩, by simp only [hl, if_true], by simp only [hl, if_true]⟩
  · refine ⟨_, .inl rfl, ?_, ?_⟩ <;> simp only [hl, if_false, build_invalid h hv, bind, Except.bind] <;> rfl

/-- Two inputs with the same analysed text (see `Analysed`) parse alike. -/
theorem C14_analysed (C : Container) (s s' t region : Str) (h : Analysed s t) (h' : Analysed s' t) (h0 : s ≠ []) (h0' : s' ≠ [])
    (hl : blen s ≤ 250) (hl' : blen s' ≤ 250) : parse C s region = parse C s' region :=
  parse_of_build C h0 h0' hl hl' (by rw [analysed_build h, analysed_build h'])

/-- Every input is analysed in one of the specified ways, unless its context is invalid or stands at the very beginning. -/
theorem C14_total (s : Str) : (∃ t, Analysed s t) ∨ ∃ pre rest, s = pre ++ str!";phone-context=" ++ rest ∧
    NotIn (str!";phone-context=") pre ∧ (pre = [] ∨ ¬ ValidContext (upTo ';'.toNat rest)) := by
  have upto : ∀ s, ∃ t, Upto (str!";isub=") s t := by
    intro s
    rcases notIn_or 59 (str!"isub=") s with h | ⟨a, b, rfl, h⟩
    · exact ⟨s, .none h⟩
    · by_cases ha : a = []
      · subst ha; exact ⟨_, .start⟩
      · exact ⟨a, .some h ha⟩
  have after : ∀ s, ∃ t, After (str!"tel:") s t := by
    intro s
    rcases notIn_or 116 (str!"el:") s with h | ⟨a, b, rfl, h⟩
    · exact ⟨s, .none h⟩
    · exact ⟨b, .some h⟩
  rcases notIn_or 59 (str!"phone-context=") s with h | ⟨a, b, rfl, h⟩
  · obtain ⟨t, ht⟩ := upto (candidate s); exact .inl ⟨t, .plain h ht⟩
  · by_cases ha : a = []
    · exact .inr ⟨a, b, rfl, h, .inl ha⟩
    · by_cases hv : ValidContext (upTo ';'.toNat b)
      · left
        obtain ⟨body, hb⟩ := after a
        rcases hv with hg | hd
        · obtain ⟨t, ht⟩ := upto (upTo ';'.toNat b ++ body); exact ⟨t, .plus h ha rfl hg hb ht⟩
        · obtain ⟨t, ht⟩ := upto body; exact ⟨t, .domain h ha hd hb ht⟩
      · exact .inr ⟨a, b, rfl, h, .inr hv⟩

/-- A context with a plus sign: the number parses like the context digits followed by the number. -/
theorem C14_plus (C : Container) (pre body ctx rest region : Str) (hpc : NotIn (str!";phone-context=") pre) (hb : After (str!"tel:") pre body)
    (h0 : pre ≠ []) (hc : upTo ';'.toNat rest = ctx) (hg : GlobalDigits ctx) (hcand : candidate (ctx ++ body) = ctx ++ body)
    (hn : NotIn (str!";phone-context=") (ctx ++ body)) (hl : blen (pre ++ str!";phone-context=" ++ rest) ≤ 250) (hl' : blen (ctx ++ body) ≤ 250) :
    parse C (pre ++ str!";phone-context=" ++ rest) region = parse C (ctx ++ body) region := by
  obtain ⟨c, hc'⟩ := global_head hg
  have ht : ∃ t, Upto (str!";isub=") (ctx ++ body) t := by
    rcases notIn_or 59 (str!"isub=") (ctx ++ body) with h | ⟨a, b, h1, h⟩
    · exact ⟨_, .none h⟩
    · by_cases ha : a = []
      · rw [h1, ha]; exact ⟨_, .start⟩
      · rw [h1]; exact ⟨a, .some h ha⟩
  obtain ⟨t, ht⟩ := ht
  exact C14_analysed C _ _ t region (.plus hpc h0 hc hg hb ht) (.plain hn (by rw [hcand]; exact ht)) (by simp) (by rw [hc']; simp) hl hl'

/-- A domain name as context is ignored, whatever it is. -/
theorem C14_domain (C : Container) (pre body rest region : Str) (hpc : NotIn (str!";phone-context=") pre) (hb : After (str!"tel:") pre body)
    (h0 : body ≠ []) (hd : Domain (upTo ';'.toNat rest)) (hcand : candidate body = body)
    (hn : NotIn (str!";phone-context=") body) (hl : blen (pre ++ str!";phone-context=" ++ rest) ≤ 250) (hl' : blen body ≤ 250) :
    parse C (pre ++ str!";phone-context=" ++ rest) region = parse C body region := by
  have ht : ∃ t, Upto (str!";isub=") body t := by
    rcases notIn_or 59 (str!"isub=") body with h | ⟨a, b, h1, h⟩
    · exact ⟨_, .none h⟩
    · by_cases ha : a = []
      · rw [h1, ha]; exact ⟨_, .start⟩
      · rw [h1]; exact ⟨a, .some h ha⟩
  obtain ⟨t, ht⟩ := ht
  have hp0 : pre ≠ [] := by
    intro hp
    cases hb with
    | none => exact h0 hp
    | some => simp at hp
  exact C14_analysed C _ _ t region (.domain hpc hp0 hd hb ht) (.plain hn (by rw [hcand]; exact ht)) (by simp) h0 hl hl'

/-- An ISDN subaddress that contains a letter, a digit or `#` is dropped together with everything after it. -/
theorem C14_isub_partial (C : Container) (body x region : Str) (hcand : candidate body = body) (h0 : body ≠ [])
    (hx : ∃ v ∈ x, isEnd v = true) (hi : NotIn (str!";isub=") body) (hn : NotIn (str!";phone-context=") (body ++ str!";isub=" ++ x))
    (hl : blen (body ++ str!";isub=" ++ x) ≤ 250) (hl' : blen body ≤ 250) :
    parse C (body ++ str!";isub=" ++ x) region = parse C body region := by
  obtain ⟨x', hx'⟩ := candidate_isub hcand h0 hx
  refine C14_analysed C _ _ body region (.plain hn ?_) (.plain ?_ (by rw [hcand]; exact .none hi)) (by simp) h0 hl hl'
  · rw [hx']; exact .some hi h0
  · rintro ⟨a, b, rfl⟩
    exact hn ⟨a, b ++ str!";isub=" ++ x, by simp⟩

/-- An empty subaddress is not dropped: the trailing `=` is removed first, after which `;isub=` is not found, and the input is
rejected although it is accepted without the parameter. -/
theorem C14_isub_false :
    parse Data.container (str!"tel:+41446681800;isub=") (str!"CH") = .ok (some .notANumber, {}) ∧
    parse Data.container (str!"tel:+41446681800;isub=1") (str!"CH") = .ok (none, { countryCode := some 41, nationalNumber := some 446681800 }) ∧
    parse Data.container (str!"tel:+41446681800") (str!"CH") = .ok (none, { countryCode := some 41, nationalNumber := some 446681800 }) := by
  refine ⟨?_, ?_, ?_⟩ <;> kernel_rfl

/-- A valid domain context at the very beginning of the input is not ignored: its characters are read as the number. -/
theorem C14_domain_false :
    Domain (str!"a6502530000.c") ∧
    parse Data.container (str!";phone-context=a6502530000.c") (str!"US") = .ok (none, { countryCode := some 1, nationalNumber := some 6502530000 }) := by
  refine ⟨(domain_isMatch_iff _).1 (by decide +kernel), by kernel_rfl⟩

example : GlobalDigits (str!"+41-44") := (global_isMatch_iff _).1 (by decide +kernel)
example : Domain (str!"example.com") := (domain_isMatch_iff _).1 (by decide +kernel)
example : ¬ ValidContext (str!"+") := by
  rw [ValidContext, ← isPhoneContextValid_iff]; decide +kernel
example : ¬ ValidContext (str!"64") := by
  rw [ValidContext, ← isPhoneContextValid_iff]; decide +kernel
example : parse Data.container (str!"tel:446681800;phone-context=+41;x=1") (str!"US") =
    .ok (none, { countryCode := some 41, nationalNumber := some 446681800 }) := by kernel_rfl
example : parse Data.container (str!"tel:0446681800;phone-context=www.example.ch") (str!"CH") =
    .ok (none, { countryCode := some 41, nationalNumber := some 446681800 }) := by kernel_rfl
example : parse Data.container (str!"tel:446681800;phone-context=64") (str!"CH") = .ok (some .notANumber, {}) := by kernel_rfl

end Props
end Verif
