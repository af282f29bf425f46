import Verif.Spec.Separators
import Verif.Lemmas.Vanity
import Verif.Lemmas.Extract
import Verif.Props.C01
/-!
# Lemmas: parsing sees the plus sign and the digits only
-/
namespace Verif
open Spec

/-- Separators, plus signs and all decimal digits. -/
def looseL : List Nat := [0x2D, 0x2010, 0x2011, 0x2012, 0x2013, 0x2014, 0x2015, 0x2212, 0x30FC, 0xFF0D, 0xFF0E, 0xFF0F, 0x20, 0xA0, 0xAD,
    0x200B, 0x2060, 0x3000, 0x28, 0x29, 0xFF08, 0xFF09, 0xFF3B, 0xFF3D, 0x2E, 0x5B, 0x5D, 0x2F, 0x2053, 0x223C, 0x2A] ++
  (plusL ++ ndTable.flatMap (fun r => List.range' r.1 (r.2 - r.1 + 1)))

theorem extn_loose : extnPattern.needs looseL = true := by decide +kernel
theorem second_loose : secondNumberStartPattern.needs looseL = true := by decide +kernel
theorem alpha_loose : validAlphaPhonePattern.needs looseL = true := by decide +kernel

theorem mem_inRanges {l : List (Nat × Nat)} {c : Nat} : inRanges l c = true ↔ ∃ r ∈ l, r.1 ≤ c ∧ c ≤ r.2 := by
  induction l with
  | nil => simp [inRanges]
  | cons r l ih => simp [inRanges, ih]

theorem decimal_loose {u : Nat} (h : isDecimal u = true) : rune u ∈ looseL := by
  obtain ⟨r, hr, h1, h2⟩ := mem_inRanges.1 h
  refine List.mem_append_right _ (List.mem_append_right _ (List.mem_flatMap.2 ⟨r, hr, ?_⟩))
  rw [List.mem_range'_1]
  omega

def sepCodes : List Nat := [0x2D, 0x2010, 0x2011, 0x2012, 0x2013, 0x2014, 0x2015, 0x2212, 0x30FC, 0xFF0D, 0xFF0E, 0xFF0F, 0x20, 0xA0, 0xAD,
    0x200B, 0x2060, 0x3000, 0x28, 0x29, 0xFF08, 0xFF09, 0xFF3B, 0xFF3D, 0x2E, 0x5B, 0x5D, 0x2F, 0x2053, 0x223C, 0x2A]

theorem separator_mem {u : Nat} (h : isSeparator u = true) : rune u ∈ sepCodes := by
  simp only [isSeparator, isPunct, Bool.or_eq_true, Bool.and_eq_true, Bool.not_eq_true', decide_eq_true_eq, decide_eq_false_iff_not,
    List.mem_cons, List.not_mem_nil, or_false] at h
  simp only [sepCodes, List.mem_cons, List.not_mem_nil, or_false]
  have : '*'.toNat = 42 := rfl
  omega

theorem separator_loose {u : Nat} (h : isSeparator u = true) : rune u ∈ looseL := List.mem_append_left _ (separator_mem h)

theorem isPlus_iff {u : Nat} : isPlus u = true ↔ rune u ∈ plusL := by
  simp only [isPlus, Bool.or_eq_true, decide_eq_true_eq, plusL, List.mem_cons, List.not_mem_nil, or_false]
  exact Iff.rfl

theorem plus_loose {u : Nat} (h : isPlus u = true) : rune u ∈ looseL :=
  List.mem_append_right _ (List.mem_append_left _ (isPlus_iff.1 h))

theorem sep_not_plus : ∀ c ∈ sepCodes, c ∉ plusL := by decide
theorem sep_not_decimal : ∀ c ∈ sepCodes, inRanges ndTable c = false := by decide +kernel

/-- `iterP` over runs of separators with a digit behind each. -/
theorem iterP_runs {P : Nat → Str → Str → Prop} {D G : Nat → Bool} (hDG : ∀ u, G u = true → D u = false)
    (hP : ∀ a u q f, (∀ v ∈ a, G v = true) → D u = true → P q (a ++ [u]) f) (t : Str)
    (ht : ∀ u ∈ t, D u = true ∨ G u = true) (a : Str) (ha : ∀ u ∈ a, G u = true) (hl : ∃ b v, t = b ++ [v] ∧ D v = true) (p : Nat)
    (e : Str) : iterP P (t.filter D).length p (a ++ t) e := by
  induction t generalizing a p with
  | nil => obtain ⟨b, v, h, -⟩ := hl; simp at h
  | cons u t ih =>
    rcases ht u (by simp) with hu | hu
    · rw [List.filter_cons_of_pos hu]
      refine ⟨a ++ [u], t, by simp, hP a u _ _ ha hu, ?_⟩
      cases t with
      | nil => rfl
      | cons v t =>
        refine ih (fun w hw => ht w (by simp [hw])) [] (by simp) ?_ _
        obtain ⟨b, w, h1, h2⟩ := hl
        cases b with
        | nil => simp at h1
        | cons x b => exact ⟨b, w, by simpa using (List.cons.inj h1).2, h2⟩
    · rw [List.filter_cons_of_neg (by rw [hDG u hu]; simp)]
      have := ih (fun w hw => ht w (by simp [hw])) (a ++ [u]) (by
        intro v hv
        rcases List.mem_append.1 hv with hv | hv
        · exact ha v hv
        · rw [List.mem_singleton.1 hv]; exact hu) (by
        obtain ⟨b, w, h1, h2⟩ := hl
        cases b with
        | nil => simp at h1; rw [h1.1] at hu; exact absurd (hDG w hu) (by rw [h2]; simp)
        | cons x b => exact ⟨b, w, by simpa using (List.cons.inj h1).2, h2⟩) p
      simpa using this

theorem separator_not_decimal {u : Nat} (h : isSeparator u = true) : isDecimal u = false := sep_not_decimal _ (separator_mem h)

theorem decimal_iff (u : Nat) : isDecimal u = true ↔ ∃ v, UnicodeDigit (rune u) v := by
  unfold isDecimal UnicodeDigit
  rw [mem_inRanges]
  exact ⟨fun ⟨r, h, h1, h2⟩ => ⟨_, r, h, h1, h2, rfl⟩, fun ⟨_, r, h, h1, h2, _⟩ => ⟨r, h, h1, h2⟩⟩

theorem decimal_not_plus {u : Nat} (h : isDecimal u = true) : rune u ∉ plusL := by
  intro hp
  have : ∀ c ∈ plusL, inRanges ndTable c = false := by decide +kernel
  unfold isDecimal at h
  rw [this _ hp] at h
  cases h

theorem transcript_length {s t : Str} (h : DigitTranscript s t) : t.length = (s.filter isDecimal).length := by
  induction h with
  | nil => rfl
  | @digit u v s t h _ ih => rw [List.filter_cons_of_pos ((decimal_iff u).2 ⟨v, h⟩)]; simp [ih]
  | @other u s t h _ ih =>
    rw [List.filter_cons_of_neg, ih]
    intro hu
    obtain ⟨v, hv⟩ := (decimal_iff u).1 hu
    exact h v hv

/-- The plus signs and the digits with separators. -/
structure Loose (P b : Str) : Prop where
  signs : ∀ u ∈ P, isPlus u = true
  all : ∀ u ∈ b, isDecimal u = true ∨ isSeparator u = true
  first : P = [] → ∃ u t, b = u :: t ∧ isDecimal u = true
  last : ∃ t u, b = t ++ [u] ∧ isDecimal u = true
  three : 3 ≤ (b.filter isDecimal).length

namespace Loose
variable {P b : Str}

theorem ne_nil (h : Loose P b) : b ≠ [] := by obtain ⟨t, u, rfl, -⟩ := h.last; simp

theorem ne_nil' (h : Loose P b) : P ++ b ≠ [] := by simp [h.ne_nil]

theorem mem_body (h : Loose P b) : ∀ u ∈ b, Verif.rune u ∈ looseL := fun u hu => (h.all u hu).elim decimal_loose separator_loose

theorem mem (h : Loose P b) : ∀ u ∈ P ++ b, Verif.rune u ∈ looseL := by
  intro u hu
  rcases List.mem_append.1 hu with hu | hu
  · exact plus_loose (h.signs u hu)
  · exact h.mem_body u hu

theorem not_plus (h : Loose P b) : ∀ u ∈ b, Verif.rune u ∉ plusL := by
  intro u hu
  rcases h.all u hu with hu | hu
  · exact decimal_not_plus hu
  · exact sep_not_plus _ (separator_mem hu)

theorem viable (h : Loose P b) : isViable (P ++ b) = true := by
  refine isViable_of_acc ?_ ?_
  · refine Or.inr ⟨P, b, rfl, ?_, b, [], by simp, ⟨(b.filter isDecimal).length, h.three, by simp, ?_⟩, [], [], by simp,
      ⟨0, by simp, by simp, rfl⟩, ⟨0, by simp, by simp, rfl⟩⟩
    · refine acc_star_cls.2 (fun v hv => ?_)
      exact (plusCls_mem v).2 (isPlus_iff.1 (h.signs v hv))
    · have := fun Q hQ => iterP_runs (P := Q) (D := isDecimal) (G := isSeparator) (fun u => separator_not_decimal) hQ b h.all [] (by simp) h.last
      refine this _ ?_ _ _
      intro a u q f ha hu
      refine ⟨a, [u], rfl, acc_star_cls.2 (fun v hv => ?_), u, rfl, ?_⟩
      · have hv := separator_mem (ha v hv)
        unfold Cls.mem
        generalize Verif.rune v = c at hv
        revert c
        decide +kernel
      · unfold Cls.mem Cls.has
        unfold isDecimal at hu
        simpa [inRanges, UProp.mem] using hu
  · have := h.three
    have := List.length_filter_le isDecimal b
    simp only [List.length_append]; omega

theorem noExt (h : Loose P b) : stripExtension (P ++ b) = ([], P ++ b) := by
  unfold stripExtension
  rw [show extnPattern.find (P ++ b) = none from find_none_of_needs extn_loose h.mem 0]

theorem normalize_eq {s : Str} (h : ∀ u ∈ s, Verif.rune u ∈ looseL) : normalize s = normalizeDigitsOnly s := by
  unfold normalize
  rw [if_neg]
  simp [Re.isMatch, show validAlphaPhonePattern.find s = none from find_none_of_needs alpha_loose h 0]

theorem norm (h : Loose P b) : normalize (P ++ b) = normalizeDigitsOnly b := by
  rw [normalize_eq h.mem, normalizeDigitsOnly_append]
  have : normalizeDigitsOnly P = [] := by
    have := C01_unique_nil P (fun u hu => ?_)
    · exact this
    · exact fun v hv => decimal_not_plus ((decimal_iff u).2 ⟨v, hv⟩) (isPlus_iff.1 (h.signs u hu))
  rw [this, List.nil_append]
where
  C01_unique_nil (s : Str) (hs : ∀ u ∈ s, ∀ v, ¬ UnicodeDigit (Verif.rune u) v) : normalizeDigitsOnly s = [] := by
    refine (Props.C01_unique s [] ?_).symm
    induction s with
    | nil => exact .nil
    | cons u s ih => exact .other (hs u (by simp)) (ih (fun w hw => hs w (by simp [hw])))

theorem norm_body (h : Loose P b) : normalize b = normalizeDigitsOnly b := normalize_eq h.mem_body

theorem tail (h : Loose P b) (idd : Re) : stripIntlPrefix b idd =
    (match parsePrefixAsIdd idd (normalizeDigitsOnly b) with
      | some rest => (rest, CCSource.withIdd) | none => (normalizeDigitsOnly b, .defaultCountry)) := by
  unfold stripIntlPrefix
  rw [if_neg h.ne_nil]
  simp only [plus_find_none b h.not_plus, h.norm_body]
  cases parsePrefixAsIdd idd (normalizeDigitsOnly b) <;> rfl

theorem strip (h : Loose P b) (idd : Re) : stripIntlPrefix (P ++ b) idd =
    if P = [] then (match parsePrefixAsIdd idd (normalizeDigitsOnly b) with
      | some rest => (rest, .withIdd) | none => (normalizeDigitsOnly b, .defaultCountry))
    else (normalizeDigitsOnly b, .withPlusSign) := by
  by_cases h0 : P = []
  · subst h0
    rw [if_pos rfl]
    exact h.tail idd
  · rw [if_neg h0, stripIntlPrefix_plus P b idd h0 (fun u hu => isPlus_iff.1 (h.signs u hu)) h.not_plus, h.norm_body]

theorem find_plus (h : Loose P b) (h0 : P ≠ []) :
    plusCharsPattern.find (P ++ b) = some ⟨0, P.length, []⟩ :=
  plus_find_start P b h0 (fun u hu => isPlus_iff.1 (h.signs u hu)) h.not_plus

/-- Parsing from the viable text on depends on nothing but the plus sign and the digits. -/
theorem parseViable_congr {P' b' : Str} (C : Container) (h : Loose P b) (h' : Loose P' b') (hp : P = [] ↔ P' = [])
    (hn : normalizeDigitsOnly b = normalizeDigitsOnly b') (region : Str) : parseViable C (P ++ b) region = parseViable C (P' ++ b') region := by
  have hone : ∀ m, extractOnce C (P ++ b) m = extractOnce C (P' ++ b') m := fun m =>
    extractOnce_congr (fun idd => by rw [h.strip, h'.strip, hn]; simp only [hp]) m
  have hext : ∀ m, extractCore C (P ++ b) m = extractCore C (P' ++ b') m := by
    intro m
    unfold extractCore
    rw [hone m]
    by_cases h0 : P = []
    · have h0' := hp.1 h0
      subst h0; subst h0'
      simp only [List.nil_append, plus_find_none b h.not_plus, plus_find_none b' h'.not_plus]
    · rw [h.find_plus h0, h'.find_plus (fun e => h0 (hp.2 e))]
      simp only [List.drop_left, h.ne_nil, h'.ne_nil, if_false]
      rw [extractOnce_congr (s := b) (s' := b') (fun idd => by rw [h.tail, h'.tail, hn]) m]
  unfold parseViable
  simp only [h.noExt, h'.noExt, hext, h.norm, h'.norm, hn]

theorem checkRegion_congr {P' b' : Str} (C : Container) (h : Loose P b) (h' : Loose P' b') (hp : P = [] ↔ P' = []) (region : Str) :
    checkRegion C (P ++ b) region = checkRegion C (P' ++ b') region := by
  unfold checkRegion
  congr 1
  rw [decide_eq_true h.ne_nil', decide_eq_true h'.ne_nil']
  by_cases h0 : P = []
  · have h0' := hp.1 h0
    subst h0; subst h0'
    simp [Re.isMatch, plus_find_none b h.not_plus, plus_find_none b' h'.not_plus]
  · simp only [Re.isMatch, h.find_plus h0, h'.find_plus (fun e => h0 (hp.2 e))]
    rfl

end Loose

theorem before_back {b c : Str} {x : Nat} (hx : isEnd x = true) (hc : ∀ u ∈ c, isEnd u = false) :
    before (fun t => t.all (fun u => !isEnd u)) (b ++ x :: c) = b ++ [x] := by
  induction b with
  | nil =>
    simp only [List.nil_append, before]
    rw [if_neg (by simp [hx])]
    congr 1
    cases c with
    | nil => rfl
    | cons y c =>
      rw [before, if_pos]
      rw [List.all_eq_true]
      exact fun u hu => by rw [hc u hu]; rfl
  | cons y b ih =>
    simp only [List.cons_append, before]
    rw [if_neg (by simp [hx]), ih]

theorem decimal_end {u : Nat} (h : isDecimal u = true) : isEnd u = true := by
  have hsub : ∀ r ∈ ndTable, ∃ q ∈ nTable, q.1 ≤ r.1 ∧ r.2 ≤ q.2 := by decide +kernel
  obtain ⟨r, hr, h1, h2⟩ := mem_inRanges.1 h
  obtain ⟨q, hq, h3, h4⟩ := hsub r hr
  have : inRanges nTable (rune u) = true := mem_inRanges.2 ⟨q, hq, by omega, by omega⟩
  simp [isEnd, this]

theorem second_none {s : Str} (h : ∀ u ∈ s, rune u ∈ looseL) : before secondNumber s = s := by
  refine before_none (fun a u t hs => ?_)
  have hx : 'x'.toNat ∉ t := by
    intro hx
    have := h _ (by rw [hs]; exact List.mem_append_right _ (List.mem_cons_of_mem _ hx))
    revert this
    decide +kernel
  unfold secondNumber
  rw [Bool.and_eq_false_iff]
  right
  cases hd : t.dropWhile (fun v => v == ' '.toNat) with
  | nil => rfl
  | cons v w =>
    have hv : v ∈ t := (List.dropWhile_sublist _).subset (by rw [hd]; simp)
    simp only [List.head?_cons, beq_eq_false_iff_ne, ne_eq, Option.some.injEq]
    rintro rfl
    exact hx hv

/-- The text found by `extractPossibleNumber`. -/
theorem candidate_loose {front P b back : Str} (h : Loose P b) (hf : ∀ u ∈ front, isStart u = false) (hb : ∀ u ∈ back, isEnd u = false) :
    candidate (front ++ (P ++ (b ++ back))) = P ++ b := by
  have hstart : ∃ v t, P ++ (b ++ back) = v :: t ∧ isStart v = true := by
    cases hP : P with
    | nil =>
      obtain ⟨u, t, rfl, hu⟩ := h.first hP
      exact ⟨u, t ++ back, rfl, by unfold isStart; unfold isDecimal at hu; simp [hu]⟩
    | cons v P' => exact ⟨v, P' ++ (b ++ back), rfl, by unfold isStart; rw [h.signs v (by rw [hP]; simp)]; rfl⟩
  unfold candidate
  rw [List.dropWhile_append_of_pos (fun a ha => by simp [hf a ha])]
  obtain ⟨v, t, hv, hs⟩ := hstart
  have : (P ++ (b ++ back)).dropWhile (fun u => !isStart u) = P ++ (b ++ back) := by
    rw [hv, List.dropWhile_cons_of_neg (by simp [hs])]
  rw [this]
  obtain ⟨b', x, hb', hx⟩ := h.last
  have e : P ++ (b ++ back) = (P ++ b') ++ x :: back := by rw [hb']; simp
  rw [e, before_back (decimal_end hx) hb, second_none]
  · rw [hb']; simp
  · intro u hu
    refine h.mem u ?_
    rw [hb']
    simpa using hu

theorem numberText_parts {s ds : Str} {plus : Bool} (h : NumberText s plus ds) : ∃ P b, Loose P b ∧ (plus = false ↔ P = []) ∧
    normalizeDigitsOnly b = ds ∧ buildNationalNumber s = .ok (.ok (P ++ b)) ∧ s ≠ [] := by
  obtain ⟨front, P, b, back, rfl, h1, h2, h3, h4, h5, h6, h7, h8⟩ := h.parts
  have hl : Loose P b := ⟨h2, h4, h5, h6, by rw [← transcript_length h7]; exact h.three⟩
  refine ⟨P, b, hl, ?_, (Props.C01_unique _ _ h7).symm, ?_, by simp [hl.ne_nil]⟩
  · cases plus
    · simp only [Bool.false_eq_true, false_iff, ne_eq, Classical.not_not] at h3
      simp [h3]
    · simp only [true_iff, ne_eq] at h3
      simp [h3]
  · have hno : 59 ∉ front ++ (P ++ (b ++ back)) := by
      intro hc
      simp only [List.mem_append] at hc
      have hloose : (59 : Nat) ∈ P ++ b → False := fun hm => absurd (hl.mem 59 hm) (by decide +kernel)
      rcases hc with hc | hc | hc | hc
      · exact (h1 59 hc).2 rfl
      · exact hloose (by simp [hc])
      · exact hloose (by simp [hc])
      · exact (h8 59 hc).2 rfl
    have e1 : indexOf (front ++ (P ++ (b ++ back))) rfcPhoneContext = none := indexOf_none_of_mem (c := 59) (by decide) hno
    have e2 : extractPossibleNumber (front ++ (P ++ (b ++ back))) = P ++ b := by
      rw [extractPossibleNumber_eq, candidate_loose hl (fun u hu => (h1 u hu).1) (fun u hu => (h8 u hu).1)]
    have e3 : indexOf (P ++ b) rfcIsub = none := indexOf_none_of_mem (c := 59) (by decide) (fun hm => hno (by
      simp only [List.mem_append] at hm ⊢
      exact Or.inr (hm.elim Or.inl (fun h => Or.inr (Or.inl h)))))
    unfold buildNationalNumber
    simp only [e1, e2]
    simp [dropIsub, e3]

/-- The decisions of the parser are the same for two texts that say the same number. -/
theorem parseCore_same (C : Container) {s s' ds : Str} {plus : Bool} (h : NumberText s plus ds) (h' : NumberText s' plus ds) (region : Str)
    (check : Bool) : parseCore C s region check = parseCore C s' region check := by
  obtain ⟨P, b, h1, h2, h3, h4, h5⟩ := numberText_parts h
  obtain ⟨P', b', h1', h2', h3', h4', h5'⟩ := numberText_parts h'
  have hp : P = [] ↔ P' = [] := h2.symm.trans h2'
  have hn := h3.trans h3'.symm
  have k1 := h.short
  have k2 := h'.short
  unfold parseCore
  rw [if_neg h5, if_neg h5', if_neg (by simp only [maxInputStringLength]; omega), if_neg (by simp only [maxInputStringLength]; omega), h4, h4']
  simp only [bind, Except.bind, h1.viable, h1'.viable, h1.checkRegion_congr C h1' hp, h1.parseViable_congr C h1' hp hn]

end Verif
