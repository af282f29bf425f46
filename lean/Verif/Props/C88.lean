import Verif.Data.AytfChars
import Verif.Props.C38
import Verif.Props.C70
/-!
# C88: parsing sees the plus sign and the digits only
-/
namespace Verif.Props
open Verif.Spec

/-- Two results of parsing that differ in the raw input at most: the same panic, the same error, or the same number. -/
def SameUpToRaw (x y : Go (Option ParseErr × PhoneNumber)) : Prop :=
  (∀ p, x = .error p ↔ y = .error p) ∧
  (∀ e, (∃ n, x = .ok (some e, n)) ↔ ∃ n, y = .ok (some e, n)) ∧
  (∀ n, x = .ok (none, n) → ∃ m, y = .ok (none, m) ∧ { m with rawInput := n.rawInput } = n) ∧
  (∀ m, y = .ok (none, m) → ∃ n, x = .ok (none, n) ∧ { n with rawInput := m.rawInput } = m)

/-- For any two texts that say a number with the same digits, in any scripts and with any separators, words before and marks behind, and
that agree on whether there is a plus sign: parsing them for the same region, on any metadata, gives the same number or the same
error. -/
theorem C88_same (C : Container) (region : Str) {s s' ds : Str} {plus : Bool} (h : NumberText s plus ds) (h' : NumberText s' plus ds) :
    (∀ n, parse C s region = .ok (none, n) ↔ parse C s' region = .ok (none, n)) ∧
      (∀ e, (∃ n, parse C s region = .ok (some e, n)) ↔ ∃ n, parse C s' region = .ok (some e, n)) :=
  parse_of_core_eq (parseCore_same C h h' region true)

/-- The same for the parser that keeps the text: the numbers differ in the kept text only. -/
theorem C88_raw (C : Container) (region : Str) {s s' ds : Str} {plus : Bool} (h : NumberText s plus ds) (h' : NumberText s' plus ds) :
    SameUpToRaw (parseKeepRaw C s region) (parseKeepRaw C s' region) := by
  have h1 := parseHelper_core C s region true true {}
  have h2 := parseHelper_core C s' region true true {}
  rw [← parseCore_same C h h' region true] at h2
  have e1 : parseKeepRaw C s region = parseHelper C s region true true {} := rfl
  have e2 : parseKeepRaw C s' region = parseHelper C s' region true true {} := rfl
  rw [e1, e2]
  generalize parseCore C s region true = c at h1 h2
  unfold SameUpToRaw
  cases c with
  | error p =>
    simp only [Refines] at h1 h2
    rw [h1, h2]
    refine ⟨fun q => Iff.rfl, fun e => Iff.rfl, ?_, ?_⟩ <;> intro n hn <;> cases hn
  | ok c =>
    cases c with
    | error e =>
      simp only [Refines] at h1 h2
      obtain ⟨n1, h1⟩ := h1
      obtain ⟨n2, h2⟩ := h2
      rw [h1, h2]
      refine ⟨fun q => ⟨?_, ?_⟩, fun e' => ⟨?_, ?_⟩, ?_, ?_⟩
      · intro h; cases h
      · intro h; cases h
      · rintro ⟨n, h⟩; cases h; exact ⟨_, rfl⟩
      · rintro ⟨n, h⟩; cases h; exact ⟨_, rfl⟩
      · intro n hn; cases hn
      · intro n hn; cases hn
    | ok o =>
      simp only [Refines] at h1 h2
      rw [h1, h2]
      refine ⟨fun q => ⟨?_, ?_⟩, fun e' => ⟨?_, ?_⟩, ?_, ?_⟩
      · intro h; cases h
      · intro h; cases h
      · rintro ⟨n, h⟩; cases h
      · rintro ⟨n, h⟩; cases h
      · intro n hn
        cases hn
        exact ⟨_, rfl, by simp [ParseOut.apply]⟩
      · intro n hn
        cases hn
        exact ⟨_, rfl, by simp [ParseOut.apply]⟩

theorem digit_facts : ∀ u, u < 58 → isDig u = true → rune u = u ∧ isDecimal u = true ∧ UnicodeDigit u (u - 48) ∧ isPlus u = false := by
  intro u hu hd
  have hd' : 48 ≤ u := by simp [isDig] at hd; omega
  have hr : rune u = u := rune_of_lt (by omega)
  have h2 : isDecimal u = true := by
    have : ∀ u, u < 58 → 48 ≤ u → isDecimal u = true := by decide +kernel
    exact this u hu hd'
  refine ⟨hr, h2, ?_, ?_⟩
  · have : UnicodeDigit u (u - 48) := by
      refine ⟨(48, 57), by decide +kernel, hd', by dsimp only; omega, ?_⟩
      dsimp only
      omega
    exact this
  · simp only [isPlus, hr, Bool.or_eq_false_iff, decide_eq_false_iff_not]
    have : '+'.toNat = 43 := rfl
    omega

/-- Digits say themselves. -/
theorem transcript_self {ds : Str} (h : ∀ u ∈ ds, isDig u = true) : DigitTranscript ds ds := by
  induction ds with
  | nil => exact .nil
  | cons u t ih =>
    have hu := h u (List.mem_cons_self ..)
    have hlt : 48 ≤ u ∧ u < 58 := by simp [isDig] at hu; omega
    obtain ⟨h1, _, h3, _⟩ := digit_facts u hlt.2 hu
    have := DigitTranscript.digit (u := u) (v := u - 48) (by rw [h1]; exact h3) (ih fun v hv => h v (List.mem_cons_of_mem _ hv))
    have e : '0'.toNat + (u - 48) = u := by
      have : '0'.toNat = 48 := rfl
      omega
    rw [e] at this
    exact this

/-- The plainest text for the digits. -/
def plainText (plus : Bool) (ds : Str) : Str := (if plus then ['+'.toNat] else []) ++ ds

theorem plainText_says (plus : Bool) {ds : Str} (hd : ∀ u ∈ ds, isDig u = true) (h3 : 3 ≤ ds.length) (hl : blen (plainText plus ds) ≤ 250) :
    NumberText (plainText plus ds) plus ds := by
  have hdec : ∀ u ∈ ds, isDecimal u = true := fun u hu => (digit_facts u (by have := hd u hu; simp [isDig] at this; omega) (hd u hu)).2.1
  refine ⟨⟨[], if plus then ['+'.toNat] else [], ds, [], by simp [plainText], fun u hu => (by cases hu), ?_, ?_,
    fun u hu => .inl (hdec u hu), ?_, ?_, transcript_self hd, fun u hu => (by cases hu)⟩, h3, hl⟩
  · cases plus with
    | true => intro u hu; rw [List.mem_singleton.1 hu]; decide
    | false => intro u hu; cases hu
  · cases plus <;> simp
  · intro _
    cases ds with
    | nil => simp at h3
    | cons u t => exact ⟨u, t, rfl, hdec u (List.mem_cons_self ..)⟩
  · have hne : ds ≠ [] := by rintro rfl; simp at h3
    exact ⟨ds.dropLast, ds.getLast hne, (List.dropLast_concat_getLast hne).symm, hdec _ (List.getLast_mem hne)⟩

theorem length_le_blen (s : Str) : s.length ≤ blen s := by
  induction s with
  | nil => exact Nat.le_refl _
  | cons u t ih =>
    rw [show u :: t = [u] ++ t from rfl, Aytf.blen_append, Aytf.blen_one, List.length_append]
    have := Aytf.width_pos u
    simp only [List.length_cons, List.length_nil]
    omega

/-- The plain text is no longer than any other. -/
theorem plainText_short {s ds : Str} {plus : Bool} (h : NumberText s plus ds) :
    (∀ u ∈ ds, isDig u = true) ∧ blen (plainText plus ds) ≤ blen s := by
  obtain ⟨front, signs, body, back, rfl, _, _, hp, _, _, _, ht, _⟩ := h.parts
  have hds : ∀ u ∈ ds, isDig u = true := by rw [C01_unique _ _ ht]; exact normalizeDigitsOnly_digits body
  refine ⟨hds, ?_⟩
  have hb : blen ds = ds.length := Aytf.blen_ascii fun u hu => Aytf.isDig_lt (hds u hu)
  have h1 : ds.length ≤ body.length := by rw [transcript_length ht]; exact List.length_filter_le ..
  have h2 := length_le_blen body
  unfold plainText
  rw [Aytf.blen_append, hb, Aytf.blen_append, Aytf.blen_append, Aytf.blen_append]
  cases plus with
  | true =>
    have h4 : signs ≠ [] := hp.1 rfl
    have h5 := length_le_blen signs
    have h6 := List.length_pos_iff.2 h4
    show 1 + ds.length ≤ _
    omega
  | false =>
    show 0 + ds.length ≤ _
    omega

/-- So a text is read as the plain digits it says, after a plus sign if it has one. -/
theorem C88_plain (C : Container) (region : Str) {s ds : Str} {plus : Bool} (h : NumberText s plus ds) :
    (∀ n, parse C s region = .ok (none, n) ↔ parse C (plainText plus ds) region = .ok (none, n)) ∧
      (∀ e, (∃ n, parse C s region = .ok (some e, n)) ↔ ∃ n, parse C (plainText plus ds) region = .ok (some e, n)) :=
  C88_same C region h (plainText_says plus (plainText_short h).1 h.three (Nat.le_trans (plainText_short h).2 h.short))

/-! ## What the as-you-type formatter shows -/

theorem dial_phoneInput {s : Str} (hlt : ∀ u ∈ s, Aytf.Key u) (hp : PhoneInput s) : ∃ (plus : Bool) (ds : Str), (∀ u ∈ ds, isDig u = true) ∧
    Aytf.dial s = (if plus then [43] else []) ++ ds ∧ Aytf.PlainOk (Aytf.dial s) ∧ ds.length = (s.filter isDecimal).length := by
  have digits : ∀ t : Str, (∀ u ∈ t, ∃ v, UnicodeDigit u v) → (∀ w ∈ Aytf.dial t, isDig w = true) ∧ (Aytf.dial t).length = (t.filter isDecimal).length := by
    intro t ht
    have hr : ∀ u v, UnicodeDigit u v → rune u = u := by
      intro u v hv
      have hi := (Aytf.isUniDigit_iff u).2 ⟨v, hv⟩
      unfold rune
      split
      · rfl
      · rename_i hb
        exfalso
        obtain ⟨r, hr, h1, h2⟩ := mem_inRanges.1 hi
        have : ∀ r ∈ ndTable, r.2 < badBase := by decide +kernel
        have := this r hr
        omega
    have hdec : ∀ u ∈ t, isDecimal u = true := by
      intro u hu
      obtain ⟨v, hv⟩ := ht u hu
      exact (decimal_iff u).2 ⟨v, by rw [hr u v hv]; exact hv⟩
    have hd : (∀ w ∈ Aytf.dial t, isDig w = true) := by
      intro w hw
      obtain ⟨u, hu, hx⟩ := List.mem_filterMap.1 hw
      obtain ⟨v, hv⟩ := ht u hu
      have e := (charDigit_iff (rune u) (48 + v)).2 ⟨v, by rw [hr u v hv]; exact hv, rfl⟩
      have : Aytf.dialOf u = some (48 + v) := by unfold Aytf.dialOf; rw [e]
      rw [this] at hx
      obtain rfl := Option.some.inj hx
      exact Aytf.charDigit_isDig e
    exact ⟨hd, transcript_length (Aytf.transcript_dial (fun u hu => .inl (hdec u hu)) hd)⟩
  have okDigits : ∀ t : Str, (∀ w ∈ t, isDig w = true) → Aytf.PlainOk t := fun t ht i u hi => .inl (ht u (List.mem_of_getElem? hi))
  cases s with
  | nil => exact ⟨false, [], fun u hu => (by cases hu), rfl, fun i u hi => (by cases hi), rfl⟩
  | cons u t =>
    have ht : ∀ v ∈ t, ∃ w, UnicodeDigit v w := by
      intro v hv
      obtain ⟨i, hi⟩ := List.mem_iff_getElem?.1 hv
      rcases hp (i + 1) v (by simpa using hi) with h | ⟨h, _⟩
      · exact h
      · simp at h
    obtain ⟨d1, d2⟩ := digits t ht
    rcases hp 0 u rfl with h | ⟨_, h⟩
    · obtain ⟨d3, d4⟩ := digits (u :: t) (fun v hv => by
        rcases List.mem_cons.1 hv with rfl | hv
        · exact h
        · exact ht v hv)
      exact ⟨false, Aytf.dial (u :: t), d3, rfl, okDigits _ d3, d4⟩
    · have hpl : isPlus u = true := by rcases h with rfl | rfl <;> decide
      have e : Aytf.dial (u :: t) = 43 :: Aytf.dial t := by rw [Aytf.dial, List.filterMap_cons_some (Aytf.isPlus_dial hpl)]; rfl
      refine ⟨true, Aytf.dial t, d1, by rw [e]; rfl, ?_, ?_⟩
      · rw [e]
        intro i v hi
        cases i with
        | zero => exact .inr ⟨rfl, by simpa using hi.symm⟩
        | succ i => exact .inl (d1 v (List.mem_of_getElem? (by simpa using hi)))
      · rw [d2, List.filter_cons_of_neg]
        intro hx
        exact decimal_not_plus hx (isPlus_iff.1 hpl)

/-- For every region and every sequence of calls on the as-you-type formatter for it: if digits (three or more) and possibly a leading
plus sign were typed since the last `Clear`, then what is shown is read, for any region and on any metadata, as the number that was
typed (for input after a plus sign, and in all regions but the five of C38). -/
theorem C88_shown (region : Str) (history : List Call) (a : Aytf)
    (h : calls Data.container (Aytf.new Data.container region) history = .ok a) (hp : PhoneInput (typed history))
    (hr : (∃ u, (typed history).head? = some u ∧ IsPlus u) ∨
      region ∉ [(str!"AR"), (str!"BR"), (str!"CO"), (str!"JP"), (str!"KR")])
    (h3 : 3 ≤ ((typed history).filter isDecimal).length) (hb : blen (typed history) ≤ 250) (hb' : blen a.currentOutput ≤ 250)
    (C : Container) (region' : Str) :
    (∀ n, parse C a.currentOutput region' = .ok (none, n) ↔ parse C (typed history) region' = .ok (none, n)) ∧
      (∀ e, (∃ n, parse C a.currentOutput region' = .ok (some e, n)) ↔ ∃ n, parse C (typed history) region' = .ok (some e, n)) := by
  obtain ⟨k1, k2⟩ := Aytf.keys_calls Data.litsShipped (Data.wide_shipped region) h hp
  obtain ⟨t, t1, t2⟩ := C38_digits_partial region history a h hp hr
  have e : Aytf.dial a.currentOutput = Aytf.dial (typed history) :=
    ((Aytf.dialTranscript_iff _ _).1 t2).symm.trans ((Aytf.dialTranscript_iff _ _).1 t1)
  obtain ⟨plus, ds, d1, d2, d3, d4⟩ := dial_phoneInput k2 hp
  have n1 := Aytf.numberText_of_keys k1 (by rw [e]; exact d3) (by rw [e]; exact d2) d1 (by omega) hb'
  have n2 := Aytf.numberText_of_keys k2 d3 d2 d1 (by omega) hb
  exact C88_same C region' n1 n2

/-! ## Cases -/

/-- "Tel: (044) 668-18 00." says the number 0446681800, without a plus sign. -/
theorem swissText : NumberText (str!"Tel: (044) 668-18 00.") false (str!"0446681800") := by
  refine ⟨⟨str!"Tel: (", [], str!"044) 668-18 00", str!".", by decide, by decide +kernel, fun u hu => (by cases hu), by simp, by decide +kernel,
    fun _ => ⟨48, str!"44) 668-18 00", by decide, by decide +kernel⟩, ⟨str!"044) 668-18 0", 48, by decide, by decide +kernel⟩, ?_, by decide +kernel⟩,
    by decide, by decide⟩
  have := C01_transcript (str!"044) 668-18 00")
  rwa [show normalizeDigitsOnly (str!"044) 668-18 00") = str!"0446681800" by decide +kernel] at this

example : parse Data.container (str!"Tel: (044) 668-18 00.") (str!"CH") = parse Data.container (str!"0446681800") (str!"CH") := by
  kernel_rfl

/-- Three digits are needed: two digits are read as a number, but not with a separator between them. -/
theorem C88_two : (parse Data.container (str!"12") (str!"CH")).toOption.map (·.1) = some none ∧
    (parse Data.container (str!"1 2") (str!"CH")).toOption.map (·.1) = some (some .notANumber) := by
  constructor <;> kernel_rfl

/-- What the formatter shows in Switzerland for 0446681800, and how it is read. -/
example : ∃ a, calls Data.container (Aytf.new Data.container (str!"CH")) (typeAll (str!"0446681800")) = .ok a ∧
    a.currentOutput = (str!"044 668 18 00") ∧
    parse Data.container a.currentOutput (str!"CH") = parse Data.container (str!"0446681800") (str!"CH") := by
  obtain ⟨a, ha⟩ := C38_no_panic (str!"CH") (typeAll (str!"0446681800"))
  have hout : outputOf Data.container (str!"CH") (typeAll (str!"0446681800")) = some (str!"044 668 18 00") := by kernel_rfl
  unfold outputOf at hout
  rw [ha] at hout
  have hout : a.currentOutput = (str!"044 668 18 00") := Option.some.inj hout
  refine ⟨a, ha, hout, ?_⟩
  rw [hout]
  kernel_rfl

end Verif.Props
