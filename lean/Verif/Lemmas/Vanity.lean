import Verif.Lemmas.National
import Verif.Lemmas.Context
import Verif.Props.C03
/-!
# Numbers written with letters
-/
namespace Verif
open Spec

/-- Plus, digits, separators and ASCII letters. -/
def vanL : List Nat := sepL ++ validAlpha

/-- A character of a number written with letters. -/
def VanChar (u : Nat) : Prop := isDig u = true ∨ u ∈ gapL ∨ isLetter u = true

theorem VanChar.lt {u : Nat} (h : VanChar u) : u < 128 := by
  rcases h with h | h | h
  · simp [isDig] at h; omega
  · revert u; decide
  · simp [isLetter] at h; omega

theorem VanChar.rune {u : Nat} (h : VanChar u) : rune u = u := rune_of_lt h.lt

theorem VanChar.mem {u : Nat} (h : VanChar u) : Verif.rune u ∈ vanL := by
  have hr := h.rune
  rcases h with h' | h' | h'
  · exact List.mem_append_left _ (List.mem_append_left _ (plainL_of_isDig h'))
  · rw [hr]; exact List.mem_append_left _ (List.mem_append_right _ h')
  · rw [hr]; exact List.mem_append_right _ ((mem_validAlpha u).2 h')

theorem letter_not_dig {u : Nat} (h : isLetter u = true) : isDig u = false := by
  simp [isLetter] at h
  simp [isDig]
  omega

theorem VanChar.not_plus {u : Nat} (h : VanChar u) : Verif.rune u ∉ plusL := by
  rw [h.rune]
  rcases h with h | h | h
  · simp [isDig, plusL] at h ⊢; omega
  · revert u; decide
  · simp [isLetter, plusL] at h ⊢; omega

/-! ## The pattern for numbers with letters -/

def anyCls : Cls := ⟨true, [(10, 10)], []⟩
def letterCls : Cls := ⟨false, [(65, 90), (97, 122)], []⟩

theorem alphaPattern_eq : validAlphaPhonePattern =
    .cat .bos (.cat (.rep (.cat (.rep (.cls anyCls) 0 none false) (.cls letterCls)) 3 (some 3) true)
      (.cat (.rep (.cls anyCls) 0 none true) .eos)) := rfl

theorem letterCls_mem (u : Nat) : letterCls.mem u = isLetter u := by
  rw [← letter_rune, Bool.eq_iff_iff]
  simp [Cls.mem, Cls.has, letterCls, inRanges, isLetter, Nat.ble_eq, or_comm]

theorem anyCls_mem {u : Nat} (h : rune u ≠ 10) : anyCls.mem u = true := by
  have : (Nat.ble 10 (rune u) && Nat.ble (rune u) 10) = false := by
    rw [Bool.eq_false_iff]
    simp only [ne_eq, Bool.and_eq_true, Nat.ble_eq]
    omega
  simp [Cls.mem, Cls.has, anyCls, inRanges, this]

theorem iterP_letters {b : Str} (k p : Nat) (e : Str)
    (h : iterP (fun q w f => (Re.cat (.rep (.cls anyCls) 0 none false) (.cls letterCls)).Acc q w f) k p b e) :
    k ≤ (b.filter isLetter).length := by
  induction k generalizing p b with
  | zero => omega
  | succ k ih =>
    obtain ⟨w1, w2, rfl, h1, h2⟩ := h
    have := ih _ h2
    obtain ⟨x, y, rfl, -, u, rfl, hu⟩ := h1
    rw [letterCls_mem] at hu
    simp only [List.filter_append, List.filter_cons_of_pos hu, List.filter_nil, List.length_append, List.length_singleton]
    omega

theorem letters_iterP {b : Str} (hb : ∀ u ∈ b, rune u ≠ 10) (k p : Nat) (e : Str) (h : k ≤ (b.filter isLetter).length) :
    ∃ b1 b2, b = b1 ++ b2 ∧
      iterP (fun q w f => (Re.cat (.rep (.cls anyCls) 0 none false) (.cls letterCls)).Acc q w f) k p b1 (b2 ++ e) := by
  induction k generalizing p b with
  | zero => exact ⟨[], b, rfl, rfl⟩
  | succ k ih =>
    have hsplit : ∃ x u y, b = x ++ u :: y ∧ isLetter u = true ∧ k ≤ (y.filter isLetter).length := by
      clear ih hb
      induction b with
      | nil => simp at h
      | cons c b ih =>
        by_cases hc : isLetter c = true
        · exact ⟨[], c, b, rfl, hc, by rw [List.filter_cons_of_pos hc] at h; simpa using h⟩
        · obtain ⟨x, u, y, rfl, h1, h2⟩ := ih (by rw [List.filter_cons_of_neg hc] at h; exact h)
          exact ⟨c :: x, u, y, rfl, h1, h2⟩
    obtain ⟨x, u, y, rfl, hu, hk⟩ := hsplit
    obtain ⟨b1, b2, rfl, h2⟩ := ih (fun v hv => hb v (by simp [hv])) (p + (x ++ [u]).length) hk
    refine ⟨x ++ u :: b1, b2, by simp, x ++ [u], b1, by simp, ⟨x, [u], rfl, acc_star_cls.2 (fun v hv => anyCls_mem (hb v (by simp [hv]))),
      u, rfl, by rw [letterCls_mem]; exact hu⟩, h2⟩

/-- A text without line ends has three letters or more exactly if the pattern matches. -/
theorem alphaPattern_iff {b : Str} (hb : ∀ u ∈ b, rune u ≠ 10) :
    validAlphaPhonePattern.isMatch b = true ↔ 3 ≤ (b.filter isLetter).length := by
  rw [isMatch_iff, alphaPattern_eq]
  constructor
  · rintro ⟨a, w, e, rfl, x, y, rfl, ⟨h0, rfl⟩, z, y2, rfl, ⟨k, h3, hk, hz⟩, -⟩
    have := iterP_letters _ _ _ hz
    simp only [List.nil_append, List.filter_append, List.length_append]
    omega
  · intro h
    obtain ⟨b1, b2, rfl, h1⟩ := letters_iterP hb 3 0 [] h
    refine ⟨[], b1 ++ b2, [], by simp, [], b1 ++ b2, rfl, ⟨rfl, rfl⟩, b1, b2, rfl, ⟨3, by omega, by simp, ?_⟩, b2, [], by simp,
      acc_star_cls.2 (fun v hv => anyCls_mem (hb v (by simp [hv]))), rfl, rfl⟩
    exact h1

/-- Viable numbers have no line ends. -/
theorem viable_line {s : Str} (h : isViable s = true) : ∀ u ∈ s, rune u ≠ 10 := by
  intro u hu h10
  have := allCls_acc (Q := fun u => rune u ∉ [10]) (fun c hc u hu => Cls.avoids_mem hc u hu) validBody
    (by decide +kernel) _ _ _ (isViable_acc h) u hu
  exact this (by simp [h10])

/-! ## Texts with letters -/

theorem VanChar.gap_or {u : Nat} (h : isDig u = true ∨ u ∈ gapL) : VanChar u := h.elim .inl (fun h => .inr (.inl h))

/-- A number written with letters, perhaps after a plus sign, in which no extension is seen. -/
structure VanText (pre b : Str) : Prop where
  sign : pre = [] ∨ pre = [43]
  all : ∀ u ∈ b, VanChar u
  first : ∃ v c, b = v :: c ∧ isDig v = true
  last : ∃ a v, b = a ++ [v] ∧ (isDig v = true ∨ isLetter v = true)
  viable : isViable (pre ++ b) = true
  noExt : stripExtension (pre ++ b) = ([], pre ++ b)
  short : (pre ++ b).length ≤ 250

theorem unwantedCls_letter {u : Nat} (h : isLetter u = true) : (⟨true, [(35, 35)], [.n, .l]⟩ : Cls).mem u = false := by
  have : ∀ u, u < 123 → isLetter u = true → (⟨true, [(35, 35)], [.n, .l]⟩ : Cls).mem u = false := by decide +kernel
  refine this u ?_ h
  simp [isLetter] at h; omega

theorem unwantedEnd_none' (s : Str) (v : Nat) (hv : isDig v = true ∨ isLetter v = true) : unwantedEndCharPattern.find (s ++ [v]) = none := by
  rcases hv with hv | hv
  · exact unwantedEnd_none s v hv
  cases hf : unwantedEndCharPattern.find (s ++ [v]) with
  | none => rfl
  | some x =>
    obtain ⟨a, w, e, h1, _, _, h4, _⟩ := findFrom_sound hf
    rw [unwantedEnd_eq] at h4
    obtain ⟨w1, w2, rfl, h5, h6⟩ := h4
    obtain ⟨rfl, rfl⟩ : w2 = [] ∧ e = [] := h6
    have h7 := allCls_acc (P := fun c => c == ⟨true, [(35, 35)], [.n, .l]⟩)
      (Q := fun u => (⟨true, [(35, 35)], [.n, .l]⟩ : Cls).mem u = true)
      (fun c hc u hu => by rw [beq_iff_eq] at hc; rwa [hc] at hu) _ (by decide) _ _ _ h5
    have h8 := minLen_acc _ _ _ _ h5
    have hw : w1 ≠ [] := by rintro rfl; exact absurd h8 (by decide)
    have : v ∈ w1 := by
      have h9 := congrArg List.getLast? h1
      simp only [List.append_nil, List.getLast?_append, List.getLast?_singleton, Option.some_or] at h9
      rw [List.getLast?_eq_some_getLast hw] at h9
      simp only [Option.some_or, Option.some.injEq] at h9
      rw [h9]; exact List.getLast_mem hw
    have := h7 v this
    rw [unwantedCls_letter hv] at this; cases this

namespace VanText
variable {pre b : Str}

theorem ne_nil (h : VanText pre b) : pre ++ b ≠ [] := by
  obtain ⟨v, c, rfl, -⟩ := h.first; simp

theorem mem (h : VanText pre b) : ∀ u ∈ pre ++ b, Verif.rune u ∈ vanL := by
  intro u hu
  rcases List.mem_append.1 hu with hu | hu
  · rcases h.sign with rfl | rfl
    · cases hu
    · rw [List.mem_singleton.1 hu]; decide
  · exact (h.all u hu).mem

theorem build (h : VanText pre b) : buildNationalNumber (pre ++ b) = .ok (.ok (pre ++ b)) := by
  have hno : 59 ∉ pre ++ b := fun hc => absurd (h.mem 59 hc) (by decide)
  have h1 : indexOf (pre ++ b) rfcPhoneContext = none := indexOf_none_of_mem (c := 59) (by decide) hno
  have h2 : indexOf (pre ++ b) rfcIsub = none := indexOf_none_of_mem (c := 59) (by decide) hno
  have h3 : extractPossibleNumber (pre ++ b) = pre ++ b := by
    obtain ⟨x, hx, hx0⟩ : ∃ x, validStartCharPattern.find (pre ++ b) = some x ∧ x.start = 0 := by
      obtain ⟨v, c, rfl, hv⟩ := h.first
      rcases h.sign with rfl | rfl
      · exact validStart_zero v c (plainL_of_isDig hv)
      · exact validStart_zero 43 (v :: c) (by decide)
    obtain ⟨a, v, ha, hv⟩ := h.last
    unfold extractPossibleNumber
    rw [hx]
    simp only [hx0, List.drop_zero]
    have : pre ++ b = (pre ++ a) ++ [v] := by rw [ha]; simp
    rw [this, unwantedEnd_none' _ v hv, ← this]
    simp only
    rw [show secondNumberStartPattern.find (pre ++ b) = none from
      find_none_of_needs (L := vanL) (by decide +kernel) h.mem 0]
  unfold buildNationalNumber
  simp only [h1, h3]
  simp [dropIsub, h2]

theorem no_line (h : VanText pre b) : ∀ u ∈ b, Verif.rune u ≠ 10 := by
  intro u hu h10
  have := (h.all u hu).mem
  rw [h10] at this; exact absurd this (by decide)

theorem normalize_plus (h : VanText [43] b) : normalize ([43] ++ b) = normalize b := by
  have h1 : validAlphaPhonePattern.isMatch ([43] ++ b) = validAlphaPhonePattern.isMatch b := by
    rw [Bool.eq_iff_iff, alphaPattern_iff h.no_line, alphaPattern_iff]
    · simp [isLetter]
    · intro u hu
      rcases List.mem_cons.1 hu with rfl | hu
      · decide
      · exact h.no_line u hu
  unfold normalize
  rw [h1]
  split
  · rw [normalizeHelper_append]; rfl
  · rw [normalizeDigitsOnly_append]; rfl

theorem not_plus (h : VanText pre b) : ∀ u ∈ b, Verif.rune u ∉ plusL := fun u hu => (h.all u hu).not_plus

theorem strip (h : VanText pre b) (idd : Re) : stripIntlPrefix (pre ++ b) idd =
    if pre = [] then (match parsePrefixAsIdd idd (normalize b) with
      | some rest => (rest, .withIdd) | none => (normalize b, .defaultCountry))
    else (normalize b, .withPlusSign) := by
  rcases h.sign with rfl | rfl
  · rw [if_pos rfl]
    unfold stripIntlPrefix
    rw [if_neg h.ne_nil]
    simp only [List.nil_append, plus_find_none b h.not_plus]
    cases parsePrefixAsIdd idd (normalize b) <;> rfl
  · rw [if_neg (by simp), stripIntlPrefix_plus [43] b idd (by simp) (by decide) h.not_plus]

theorem tail (h : VanText [43] b) : ∀ idd, stripIntlPrefix b idd =
    (match parsePrefixAsIdd idd (normalize b) with
      | some rest => (rest, CCSource.withIdd) | none => (normalize b, .defaultCountry)) := by
  intro idd
  unfold stripIntlPrefix
  obtain ⟨v, c, hb, -⟩ := h.first
  rw [if_neg (by rw [hb]; simp)]
  simp only [plus_find_none b h.not_plus]
  cases parsePrefixAsIdd idd (normalize b) <;> rfl

theorem norm (h : VanText pre b) : normalize (pre ++ b) = normalize b := by
  rcases h.sign with rfl | rfl
  · rfl
  · exact h.normalize_plus

theorem blen_le (h : VanText pre b) : ¬ blen (pre ++ b) > maxInputStringLength := by
  have : blen (pre ++ b) = (pre ++ b).length := by
    have : ∀ u ∈ pre ++ b, u < 128 := by
      intro u hu
      rcases List.mem_append.1 hu with hu | hu
      · rcases h.sign with rfl | rfl
        · cases hu
        · rw [List.mem_singleton.1 hu]; decide
      · exact (h.all u hu).lt
    generalize pre ++ b = s at this ⊢
    induction s with
    | nil => rfl
    | cons u s ih =>
      rw [blen_cons, ih (fun v hv => this v (by simp [hv]))]
      have := this u (by simp)
      have hw : width u = 1 := by unfold width; rw [if_pos this]
      rw [hw, List.length_cons]; omega
  have := h.short
  simp only [maxInputStringLength]; omega

end VanText

theorem extractOnce_congr {C : Container} {s s' : Str} (h : ∀ idd, stripIntlPrefix s idd = stripIntlPrefix s' idd) (m : Option Metadata) :
    extractOnce C s m = extractOnce C s' m := by
  unfold extractOnce
  simp only [h]

/-- Parsing depends on nothing but the plus sign and the digits the text stands for. -/
theorem parseCore_van (C : Container) {pre b b' : Str} (h : VanText pre b) (h' : VanText pre b') (hn : normalize b = normalize b')
    (region : Str) (check : Bool) : parseCore C (pre ++ b) region check = parseCore C (pre ++ b') region check := by
  have hcheck : checkRegion C (pre ++ b) region = checkRegion C (pre ++ b') region := by
    unfold checkRegion
    congr 1
    have e1 : (decide (pre ++ b ≠ [])) = true := decide_eq_true h.ne_nil
    have e2 : (decide (pre ++ b' ≠ [])) = true := decide_eq_true h'.ne_nil
    rw [e1, e2]
    rcases h.sign with rfl | rfl
    · simp [Re.isMatch, plus_find_none b h.not_plus, plus_find_none b' h'.not_plus]
    · simp only [Re.isMatch, plus_find_start [43] b (by simp) (by decide) h.not_plus,
        plus_find_start [43] b' (by simp) (by decide) h'.not_plus]
  have hone : ∀ m, extractOnce C (pre ++ b) m = extractOnce C (pre ++ b') m := fun m =>
    extractOnce_congr (fun idd => by rw [h.strip, h'.strip, hn]) m
  have hext : ∀ m, extractCore C (pre ++ b) m = extractCore C (pre ++ b') m := by
    intro m
    unfold extractCore
    rw [hone m]
    rcases h.sign with rfl | rfl
    · simp only [List.nil_append, plus_find_none b h.not_plus, plus_find_none b' h'.not_plus]
    · rw [plus_find_start [43] b (by simp) (by decide) h.not_plus, plus_find_start [43] b' (by simp) (by decide) h'.not_plus]
      have e1 : ([43] ++ b).drop [43].length = b := by simp
      have e2 : ([43] ++ b').drop [43].length = b' := by simp
      have n1 : b ≠ [] := by obtain ⟨v, c, rfl, -⟩ := h.first; simp
      have n2 : b' ≠ [] := by obtain ⟨v, c, rfl, -⟩ := h'.first; simp
      simp only [e1, e2, n1, n2, if_false]
      rw [extractOnce_congr (s := b) (s' := b') (fun idd => by rw [h.tail, h'.tail, hn]) m]
  unfold parseCore
  rw [if_neg h.ne_nil, if_neg h'.ne_nil, if_neg h.blen_le, if_neg h'.blen_le, h.build, h'.build]
  simp only [bind, Except.bind, h.viable, h'.viable, hcheck]
  have hv : parseViable C (pre ++ b) region = parseViable C (pre ++ b') region := by
    unfold parseViable
    simp only [h.noExt, h'.noExt, hext, h.norm, h'.norm, hn]
  rw [hv]

/-! ## When no extension is seen -/

theorem extAlts_min : extAlts.all (fun a => match a.splitGrp with | none => false | some (_, _, D, _) => decide (1 ≤ D.minLen)) = true := by
  decide +kernel

theorem nd_letter {u : Nat} (h : isLetter u = true) : ndCls.mem u = false := by
  have : ∀ u, u < 123 → isLetter u = true → ndCls.mem u = false := by decide +kernel
  refine this u ?_ h
  simp [isLetter] at h; omega

theorem hash_letter {u : Nat} (h : isLetter u = true) : hashCls.mem u = false := by
  have : ∀ u, u < 123 → isLetter u = true → hashCls.mem u = false := by decide +kernel
  refine this u ?_ h
  simp [isLetter] at h; omega

/-- A text that ends in a letter has no extension. -/
theorem stripExtension_letter (a : Str) (v : Nat) (hv : isLetter v = true) : stripExtension (a ++ [v]) = ([], a ++ [v]) := by
  unfold stripExtension
  cases hf : extnPattern.find (a ++ [v]) with
  | none => rfl
  | some x =>
    exfalso
    obtain ⟨c, w, e, h1, _, _, h4, _⟩ := findFrom_sound hf
    rw [extnPattern_eq] at h4
    obtain ⟨w1, w2, rfl, h5, h6⟩ := h4
    obtain ⟨rfl, rfl⟩ : w2 = [] ∧ e = [] := h6
    obtain ⟨al, hal, h7⟩ := alts_acc h5
    rw [← extAlts_eq] at hal
    obtain ⟨A, k, D, T, hs, -, -, -, -, -, hD, -, hT⟩ := extAltOk_parts (List.all_eq_true.1 extAlts_ok al hal)
    have hmin := List.all_eq_true.1 extAlts_min al hal
    rw [hs] at hmin
    simp only [decide_eq_true_eq] at hmin
    obtain ⟨x1, x2, x3, rfl, -, hx2, hx3⟩ := splitGrp_acc_inv hs h7
    have hne : x2 ≠ [] := by
      rintro rfl
      have := minLen_acc _ _ _ _ hx2
      simp at this; omega
    have hlast : (x2 ++ x3).getLast? = some v := by
      have h9 := congrArg List.getLast? h1
      simp only [List.append_nil, List.append_assoc, List.getLast?_append, List.getLast?_singleton, Option.some_or] at h9
      rw [List.getLast?_append]
      cases h10 : x3.getLast? with
      | some z => rw [h10] at h9; simpa using h9.symm
      | none =>
        rw [h10, List.getLast?_eq_some_getLast hne] at h9
        rw [List.getLast?_eq_some_getLast hne]
        simpa using h9.symm
    have hm : v ∈ x2 ++ x3 := List.mem_of_getLast? hlast
    rcases List.mem_append.1 hm with hm | hm
    · have := only_nd hD hx2 v hm
      rw [nd_letter hv] at this; cases this
    · have := allCls_acc (Q := fun u => hashCls.mem u = true) (fun c hc u hu => by
        have : c = hashCls := by simpa using hc
        rwa [this] at hu) T hT _ _ _ hx3 v hm
      rw [hash_letter hv] at this; cases this

theorem sign_spaced {pre t : Str} (hp : pre = [] ∨ pre = [43]) (ht : Spaced t) : stripExtension (pre ++ t) = ([], pre ++ t) := by
  unfold stripExtension
  have : ∀ u ∈ pre ++ t, rune u ∈ sepL := by
    intro u hu
    rcases hp with rfl | rfl
    · exact ht.sep' u hu
    · exact ht.sep u hu
  rw [show extnPattern.find (pre ++ t) = none from find_none_of_needs (L := sepL) (by decide +kernel) this 0]

/-! ## Such texts are viable -/

theorem van_tail {u : Nat} (h : VanChar u) (c : Cls) (hc : (List.range 123).all (fun u => !(isDig u || decide (u ∈ gapL) || isLetter u) || c.has u) = true) :
    c.mem u = true := by
  have h1 : u < 123 := by
    rcases h with h | h | h
    · simp [isDig] at h; omega
    · revert u; decide
    · simp [isLetter] at h; omega
  have := List.all_eq_true.1 hc u (List.mem_range.2 h1)
  unfold Cls.mem
  rw [h.rune]
  rcases h with h | h | h <;> simpa [h] using this

theorem van_viable {pre t v : Str} (hp : pre = [] ∨ pre = [43]) (ht : Spaced t) (h3 : 3 ≤ (t.filter isDig).length)
    (hv : ∀ u ∈ v, VanChar u) : isViable (pre ++ (t ++ v)) = true := by
  have hl := Spaced.length h3
  refine isViable_of_acc ?_ (by simp; omega)
  refine Or.inr ⟨pre, t ++ v, rfl, ?_, t, v, rfl, ⟨(t.filter isDig).length, h3, by simp, ?_⟩, v, [], by simp, ?_, ?_⟩
  · rcases hp with rfl | rfl
    · exact ⟨0, by omega, by simp, rfl⟩
    · exact ⟨1, by omega, by simp, [43], [], rfl, ⟨43, rfl, by decide⟩, rfl⟩
  · have := fun P hP => iterP_spaced (P := P) hP t ht.all [] (by simp) ht.last
    refine this _ ?_ _ _
    intro a u q f ha hu
    refine ⟨a, [u], rfl, acc_star_cls.2 (fun v hv => ?_), u, rfl, nd_of_isDig hu⟩
    have := ha v hv
    simp only [gapL, List.mem_cons, List.not_mem_nil, or_false] at this
    rcases this with rfl | rfl | rfl | rfl | rfl <;> decide +kernel
  · exact acc_star_cls.2 (fun u hu => van_tail (hv u hu) _ (by decide +kernel))
  · exact ⟨0, by simp, by simp, rfl⟩

theorem Spaced.van {pre t : Str} (hp : pre = [] ∨ pre = [43]) (ht : Spaced t) (h3 : 3 ≤ (t.filter isDig).length)
    (hlen : (pre ++ t).length ≤ 250) : VanText pre t where
  sign := hp
  all := fun u hu => VanChar.gap_or (ht.all u hu)
  first := ht.first
  last := by obtain ⟨a, v, h, hv⟩ := ht.last; exact ⟨a, v, h, .inl hv⟩
  viable := by simpa using van_viable (v := []) hp ht h3 (by simp)
  noExt := sign_spaced hp ht
  short := hlen

/-! ## The digits a text stands for -/

theorem letter_alphaSpec : ∀ u, u < 123 → isLetter u = true →
    isDig (Props.alphaSpec u) = true ∧ alphaMap (toUpperKey u) = some (Props.alphaSpec u) ∧ charDigit u = none := by decide +kernel

theorem other_alphaSpec : ∀ u, u < 123 → isLetter u = false → Props.alphaSpec u = u := by decide +kernel

theorem gap_alphaMap : ∀ u ∈ gapL, alphaMap (toUpperKey u) = none ∧ charDigit u = none ∧ isLetter u = false ∧ isDig u = false := by
  decide +kernel

theorem dig_alphaMap : ∀ u, u < 58 → isDig u = true → alphaMap (toUpperKey u) = some u ∧ isLetter u = false := by
  decide +kernel

theorem normalize_letters {b : Str} (hb : ∀ u ∈ b, VanChar u) (h3 : 3 ≤ (b.filter isLetter).length) :
    normalize b = (b.map Props.alphaSpec).filter isDig := by
  have hl : ∀ u ∈ b, rune u ≠ 10 := by
    intro u hu h10
    have := (hb u hu).mem
    rw [h10] at this; exact absurd this (by decide)
  unfold normalize
  rw [if_pos ((alphaPattern_iff hl).2 h3)]
  clear h3 hl
  unfold normalizeHelper
  induction b with
  | nil => rfl
  | cons u b ih =>
    rw [List.flatMap_cons, ih (fun v hv => hb v (by simp [hv])), List.map_cons, (hb u (by simp)).rune]
    rcases hb u (by simp) with h | h | h
    · have hu : u < 58 := by simp [isDig] at h; omega
      obtain ⟨h1, h2⟩ := dig_alphaMap u hu h
      rw [h1, other_alphaSpec u (by omega) h2, List.filter_cons_of_pos h]; rfl
    · obtain ⟨h1, -, h2, h4⟩ := gap_alphaMap u h
      have hu : u < 123 := (show ∀ u ∈ gapL, u < 123 by decide) u h
      rw [h1, other_alphaSpec u hu h2, List.filter_cons_of_neg (by rw [h4]; simp)]; rfl
    · have hu : u < 123 := by simp [isLetter] at h; omega
      obtain ⟨h1, h2, -⟩ := letter_alphaSpec u hu h
      rw [h2, List.filter_cons_of_pos h1]; rfl

theorem normalize_few {b : Str} (hb : ∀ u ∈ b, VanChar u) (h3 : (b.filter isLetter).length < 3) :
    normalize b = b.filter isDig := by
  have hl : ∀ u ∈ b, rune u ≠ 10 := by
    intro u hu h10
    have := (hb u hu).mem
    rw [h10] at this; exact absurd this (by decide)
  unfold normalize
  rw [if_neg (fun h => absurd ((alphaPattern_iff hl).1 h) (by omega))]
  clear h3 hl
  unfold normalizeDigitsOnly normalizeDigits
  induction b with
  | nil => rfl
  | cons u b ih =>
    rw [List.flatMap_cons, ih (fun v hv => hb v (by simp [hv])), (hb u (by simp)).rune]
    rcases hb u (by simp) with h | h | h
    · rw [charDigit_of_isDig h, List.filter_cons_of_pos h]; rfl
    · obtain ⟨-, h1, -, h4⟩ := gap_alphaMap u h
      rw [h1, List.filter_cons_of_neg (by rw [h4]; simp)]; rfl
    · have hu : u < 123 := by simp [isLetter] at h; omega
      rw [(letter_alphaSpec u hu h).2.2, List.filter_cons_of_neg (by rw [letter_not_dig h]; simp)]; rfl

/-- The text with its letters replaced by digits. -/
theorem spaced_alpha {t v : Str} (ht : Spaced t) (hv : ∀ u ∈ v, VanChar u)
    (hl : v = [] ∨ ∃ a c, v = a ++ [c] ∧ (isDig c = true ∨ isLetter c = true)) : Spaced ((t ++ v).map Props.alphaSpec) := by
  have hall : ∀ u, VanChar u → isDig (Props.alphaSpec u) = true ∨ Props.alphaSpec u ∈ gapL := by
    intro u h
    rcases h with h | h | h
    · have hu : u < 58 := by simp [isDig] at h; omega
      rw [other_alphaSpec u (by omega) (dig_alphaMap u hu h).2]; exact .inl h
    · have hu : u < 123 := by revert u; decide
      rw [other_alphaSpec u hu (gap_alphaMap u h).2.2.1]; exact .inr h
    · have hu : u < 123 := by simp [isLetter] at h; omega
      exact .inl (letter_alphaSpec u hu h).1
  have hd : ∀ u, isDig u = true ∨ isLetter u = true → isDig (Props.alphaSpec u) = true := by
    intro u h
    rcases h with h | h
    · have hu : u < 58 := by simp [isDig] at h; omega
      rw [other_alphaSpec u (by omega) (dig_alphaMap u hu h).2]; exact h
    · have hu : u < 123 := by simp [isLetter] at h; omega
      exact (letter_alphaSpec u hu h).1
  refine ⟨?_, ?_, ?_⟩
  · intro w hw
    obtain ⟨u, hu, rfl⟩ := List.mem_map.1 hw
    rcases List.mem_append.1 hu with hu | hu
    · exact hall u (VanChar.gap_or (ht.all u hu))
    · exact hall u (hv u hu)
  · obtain ⟨w, b, rfl, hw⟩ := ht.first
    exact ⟨Props.alphaSpec w, (b ++ v).map Props.alphaSpec, by simp, hd w (.inl hw)⟩
  · rcases hl with rfl | ⟨a, c, rfl, hc⟩
    · obtain ⟨a, c, rfl, hc⟩ := ht.last
      exact ⟨a.map Props.alphaSpec, Props.alphaSpec c, by simp, hd c (.inl hc)⟩
    · exact ⟨(t ++ a).map Props.alphaSpec, Props.alphaSpec c, by simp, hd c hc⟩

end Verif
