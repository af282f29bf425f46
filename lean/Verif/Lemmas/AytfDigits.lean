import Verif.Lemmas.AytfCalls
import Verif.Lemmas.Template
import Verif.Lemmas.Dec
import Verif.Regex.Partial
/-!
# The as-you-type formatter keeps the digits
-/
namespace Verif.Aytf
open Verif.Builder (bind_ok)
open Verif.Spec

/-! ## Diallable characters -/

/-- The character a phone would dial. -/
def dialOf (u : Nat) : Option Nat :=
  match charDigit (rune u) with
  | some v => some v
  | none => if IsPlus u then some 43 else if IsStarHash u then some u else none

/-- The characters a phone would dial. -/
def dial (s : Str) : Str := s.filterMap dialOf

theorem dial_append (s t : Str) : dial (s ++ t) = dial s ++ dial t := by simp [dial]

theorem dialTranscript_iff (s t : Str) : DialTranscript s t ↔ t = dial s := by
  constructor
  · intro h
    induction h with
    | nil => rfl
    | digit h _ ih =>
      have := (charDigit_iff _ _).2 ⟨_, h, rfl⟩
      rw [dial, List.filterMap_cons_some (b := 48 + _) (by unfold dialOf; rw [this])]
      rw [ih]; rfl
    | @plus u s t h _ ih =>
      have hu : charDigit (rune u) = none := by rcases h with rfl | rfl <;> decide +kernel
      have : dialOf u = some 43 := by
        unfold dialOf; rw [hu]; dsimp only; rw [if_pos h]
      rw [dial, List.filterMap_cons_some this, ih]; rfl
    | @key u s t h _ ih =>
      have : dialOf u = some u := by rcases h with rfl | rfl <;> decide +kernel
      rw [dial, List.filterMap_cons_some this, ih]; rfl
    | @other u s t h1 h2 h3 _ ih =>
      have hu := (charDigit_none_iff _).2 h1
      have : dialOf u = none := by
        unfold dialOf; rw [hu]; dsimp only; rw [if_neg h2, if_neg h3]
      rw [dial, List.filterMap_cons_none this, ih]; rfl
  · rintro rfl
    induction s with
    | nil => exact .nil
    | cons u s ih =>
      cases hu : charDigit (rune u) with
      | some v =>
        obtain ⟨w, h1, rfl⟩ := (charDigit_iff _ _).1 hu
        have : dialOf u = some (48 + w) := by unfold dialOf; rw [hu]
        rw [dial, List.filterMap_cons_some this]
        exact .digit h1 ih
      | none =>
        have h1 := (charDigit_none_iff _).1 hu
        by_cases h2 : IsPlus u
        · have : dialOf u = some 43 := by unfold dialOf; rw [hu]; dsimp only; rw [if_pos h2]
          rw [dial, List.filterMap_cons_some this]
          exact .plus h2 ih
        · by_cases h3 : IsStarHash u
          · have : dialOf u = some u := by unfold dialOf; rw [hu]; dsimp only; rw [if_neg h2, if_pos h3]
            rw [dial, List.filterMap_cons_some this]
            exact .key h3 ih
          · have : dialOf u = none := by unfold dialOf; rw [hu]; dsimp only; rw [if_neg h2, if_neg h3]
            rw [dial, List.filterMap_cons_none this]
            exact .other h1 h2 h3 ih

theorem dialOf_digit {u : Nat} (h : isDig u = true) : dialOf u = some u := by
  unfold dialOf; rw [rune_of_isDig h, charDigit_of_isDig h]

theorem dial_digits {s : Str} (h : ∀ u ∈ s, isDig u = true) : dial s = s := by
  induction s with
  | nil => rfl
  | cons u s ih =>
    rw [dial, List.filterMap_cons_some (dialOf_digit (h u (List.mem_cons_self ..)))]
    rw [show List.filterMap dialOf s = dial s from rfl, ih fun v hv => h v (List.mem_cons_of_mem _ hv)]

/-- For ASCII the code's own normalisation gives the same. -/
theorem dial_ascii_unit : ∀ u, u < 128 → diallableMap (toUpperKey (rune u)) = dialOf u := by decide +kernel

theorem dial_ascii {s : Str} (h : ∀ u ∈ s, u < 128) : normalizeDiallable s = dial s := by
  unfold normalizeDiallable normalizeHelper
  induction s with
  | nil => rfl
  | cons u s ih =>
    rw [List.flatMap_cons, ih fun v hv => h v (List.mem_cons_of_mem _ hv), dial_ascii_unit u (h u (List.mem_cons_self ..))]
    cases hd : dialOf u with
    | none => rw [dial, dial, List.filterMap_cons_none hd]; rfl
    | some v => rw [dial, dial, List.filterMap_cons_some hd]; rfl

theorem isDig_lt {u : Nat} (h : isDig u = true) : u < 128 := by simp [isDig] at h; omega

theorem isDig_ne_placeholder {u : Nat} (h : isDig u = true) : u ≠ placeholder := by
  have := isDig_lt h; unfold placeholder; omega

theorem bytesOf_digits {s : Str} (h : ∀ u ∈ s, isDig u = true) : bytesOf s = s := by
  induction s with
  | nil => rfl
  | cons u s ih =>
    have hu := isDig_lt (h u (List.mem_cons_self ..))
    unfold bytesOf
    rw [List.flatMap_cons, show unitBytes u = [u] by unfold unitBytes; rw [if_pos hu]]
    rw [show List.flatMap unitBytes s = bytesOf s from rfl, ih fun v hv => h v (List.mem_cons_of_mem _ hv)]
    rfl

/-! ## What is asked of the metadata -/

/-- The template made from a format has a placeholder for every digit of its sample and no other diallable character. -/
def templateOk (f : NumberFormat) : Bool :=
  let a := f.pattern.re.findString (List.replicate 15 57)
  let t := (f.pattern.re.replaceAll a f.format).map fun u => if u = 57 then placeholder else u
  Nat.ble (blen a) (t.count placeholder) && t.all fun u => (dialOf u).isNone

/-- What is asked of one format: its pattern is not empty, its text is ASCII, and if eligible it gives a good template. -/
def formatOk (f : NumberFormat) : Bool :=
  !f.pattern.src.isEmpty && (templateLiterals f.format).all (fun u => Nat.blt u 128) &&
    (!eligibleFormatPattern.isMatch f.format || templateOk f)

/-- What is asked of a region's metadata. -/
def formatsOk (m : Metadata) : Bool :=
  m.formats.all formatOk && m.intlFormats.all formatOk && m.internationalPrefix.re.noAnchor

/-- The formats a formatter holds on to. -/
def Held (a : Aytf) : Prop := ∀ f ∈ a.formats, formatOk f = true ∧ eligibleFormatPattern.isMatch f.format = true

/-! ## Templates -/

/-- The template is filled with `w` up to some point, with `n` or more places left after it. -/
def FillN (a : Aytf) (w : Str) (n : Nat) : Prop :=
  ∃ m, m ≤ a.template.length ∧ a.lastMatch ≤ m ∧ (∀ u ∈ (a.template.take m).drop a.lastMatch, u ≠ placeholder) ∧
    dial (a.template.take m) = w ∧ (∀ u ∈ a.template.drop m, dialOf u = none) ∧ n ≤ (a.template.drop m).count placeholder

/-- No place is left. -/
def Exhausted (a : Aytf) : Prop := ∀ u ∈ a.template.drop a.lastMatch, u ≠ placeholder

theorem FillN.mono {a : Aytf} {w : Str} {n k : Nat} (h : FillN a w n) (hk : k ≤ n) : FillN a w k := by
  obtain ⟨m, h1, h2, h3, h4, h5, h6⟩ := h
  exact ⟨m, h1, h2, h3, h4, h5, Nat.le_trans hk h6⟩

theorem digitHelper_none {a : Aytf} {c : Nat} (h : (a.template.drop a.lastMatch).findIdx? (· = placeholder) = none) :
    a.digitHelper c = ({ a with able := if a.formats.length = 1 then false else a.able, currentPattern := [] }, a.accrued) := by
  unfold digitHelper; rw [h]

theorem exhausted_iff (a : Aytf) : Exhausted a ↔ (a.template.drop a.lastMatch).findIdx? (· = placeholder) = none := by
  rw [List.findIdx?_eq_none_iff]
  unfold Exhausted
  simp

/-- Filling one place. -/
theorem digitHelper_fill {a : Aytf} {w : Str} {n : Nat} {c k : Nat} (hf : FillN a w n) (hc : isDig c = true)
    (hk : (a.template.drop a.lastMatch).findIdx? (· = placeholder) = some k) :
    FillN (a.digitHelper c).1 (w ++ [c]) (n - 1) ∧ dial (a.digitHelper c).2 = w ++ [c] ∧
      (a.digitHelper c).1.formats = a.formats ∧ (a.digitHelper c).1.able = a.able := by
  obtain ⟨m, h1, h2, h3, h4, h5, h6⟩ := hf
  unfold digitHelper
  rw [hk]
  dsimp only
  rw [List.findIdx?_eq_some_iff_getElem] at hk
  obtain ⟨hkl, hkp, hkn⟩ := hk
  simp only [List.getElem_drop, decide_eq_true_eq] at hkp hkn
  simp only [List.length_drop] at hkl
  have hkp' : a.template[a.lastMatch + k]? = some placeholder := by rw [List.getElem?_eq_getElem (by omega), hkp]
  clear hkp
  generalize hi : a.lastMatch + k = i at *
  obtain ⟨hil, hkp⟩ := List.getElem?_eq_some_iff.1 hkp'
  have hmi : m ≤ i := by
    cases Nat.lt_or_ge i m with
    | inr h => exact h
    | inl hlt =>
      exfalso
      refine h3 a.template[i] ?_ hkp
      have : i - a.lastMatch < ((a.template.take m).drop a.lastMatch).length := by
        simp only [List.length_drop, List.length_take]; omega
      have hg : ((a.template.take m).drop a.lastMatch)[i - a.lastMatch] = a.template[i] := by
        simp only [List.getElem_drop, List.getElem_take]
        congr 1; omega
      exact hg ▸ List.getElem_mem this
  have htake : (a.template.set i c).take (i + 1) = a.template.take i ++ [c] := by
    rw [List.take_succ_eq_append_getElem (by rw [List.length_set]; exact hil)]
    rw [List.getElem_set_self, List.take_set]
    congr 1
    rw [List.set_eq_of_length_le]
    simp; omega
  have hsplit : a.template.take i = a.template.take m ++ (a.template.drop m).take (i - m) := by
    rw [show a.template.take i = a.template.take (m + (i - m)) by congr 1; omega, List.take_add]
  have hmid : dial ((a.template.drop m).take (i - m)) = [] := by
    unfold dial
    rw [List.filterMap_eq_nil_iff]
    intro u hu
    exact h5 u (List.mem_of_mem_take hu)
  have hd : dial ((a.template.set i c).take (i + 1)) = w ++ [c] := by
    rw [htake, dial_append, hsplit, dial_append, hmid, h4, dial_digits (s := [c]) (by simpa using hc)]
    simp
  have hdrop : (a.template.set i c).drop (i + 1) = a.template.drop (i + 1) := by
    rw [List.drop_set]; simp
  have hdm : a.template.drop m = (a.template.drop m).take (i - m) ++ placeholder :: a.template.drop (i + 1) := by
    have : a.template.drop m = (a.template.drop m).take (i - m) ++ (a.template.drop m).drop (i - m) := (List.take_append_drop _ _).symm
    rw [List.drop_drop, show m + (i - m) = i by omega] at this
    rw [List.drop_eq_getElem_cons hil, hkp] at this
    exact this
  refine ⟨⟨i + 1, ?_, ?_, ?_, hd, ?_, ?_⟩, hd, rfl, rfl⟩
  · simp only [List.length_set]; omega
  · simp only; omega
  · simp only
    rw [htake]
    intro u hu
    have : (a.template.take i ++ [c]).drop i = [c] := by
      rw [List.drop_append_of_le_length (by simp; omega)]
      rw [List.drop_eq_nil_of_le (by simp; omega)]; rfl
    rw [this, List.mem_singleton] at hu
    subst hu
    exact isDig_ne_placeholder hc
  · simp only
    rw [hdrop]
    intro u hu
    refine h5 u ?_
    rw [hdm]
    exact List.mem_append_right _ (List.mem_cons_of_mem _ hu)
  · simp only
    rw [hdrop]
    rw [hdm, List.count_append, List.count_cons_self] at h6
    have hz : ((a.template.drop m).take (i - m)).count placeholder = 0 := by
      rw [List.count_eq_zero]
      intro hmem
      obtain ⟨j, hj, hje⟩ := List.getElem_of_mem hmem
      simp only [List.length_take, List.length_drop] at hj
      simp only [List.getElem_take, List.getElem_drop] at hje
      have h7 := hkn (m + j - a.lastMatch) (by omega)
      have : a.template[a.lastMatch + (m + j - a.lastMatch)]'(by omega) = a.template[m + j]'(by omega) := by
        congr 1; omega
      rw [this] at h7
      exact h7 hje
    omega

/-- Filling one place when there is one. -/
theorem digitHelper_fillN {a : Aytf} {w : Str} {n : Nat} {c : Nat} (hf : FillN a w (n + 1)) (hc : isDig c = true) :
    FillN (a.digitHelper c).1 (w ++ [c]) n ∧ dial (a.digitHelper c).2 = w ++ [c] ∧
      (a.digitHelper c).1.formats = a.formats ∧ (a.digitHelper c).1.able = a.able := by
  cases hk : (a.template.drop a.lastMatch).findIdx? (· = placeholder) with
  | some k => exact digitHelper_fill hf hc hk
  | none =>
    exfalso
    obtain ⟨m, h1, h2, h3, h4, h5, h6⟩ := hf
    have hex := (exhausted_iff a).2 hk
    have hmem : placeholder ∈ a.template.drop m := List.count_pos_iff.1 (by omega)
    refine hex placeholder ?_ rfl
    have : a.template.drop m = (a.template.drop a.lastMatch).drop (m - a.lastMatch) := by
      rw [List.drop_drop]; congr 1; omega
    rw [this] at hmem
    exact List.mem_of_mem_drop hmem

/-- Filling several places. -/
theorem inputBytes_fill (bs : List Nat) {a : Aytf} {w out : Str} {n : Nat} (hf : FillN a w (n + bs.length))
    (hb : ∀ u ∈ bs, isDig u = true) (ho : dial out = w) :
    FillN (inputBytes a bs out).1 (w ++ bs) n ∧ dial (inputBytes a bs out).2 = w ++ bs ∧
      (inputBytes a bs out).1.formats = a.formats ∧ (inputBytes a bs out).1.able = a.able := by
  induction bs generalizing a w out with
  | nil => exact ⟨by simpa [inputBytes] using hf, by simpa [inputBytes] using ho, rfl, rfl⟩
  | cons b bs ih =>
    obtain ⟨h1, h2, h3⟩ := digitHelper_fillN (n := n + bs.length) (by simpa [Nat.add_assoc] using hf) (hb b (List.mem_cons_self ..))
    obtain ⟨k1, k2, k3⟩ := ih h1 (fun u hu => hb u (List.mem_cons_of_mem _ hu)) h2
    unfold inputBytes
    exact ⟨by simpa using k1, by simpa using k2, k3.1.trans h3.1, k3.2.trans h3.2⟩

/-! ## States -/

/-- What was typed: digits, the first may be a plus sign. -/
def PlainOk (s : Str) : Prop := ∀ i u, s[i]? = some u → isDig u = true ∨ (i = 0 ∧ u = 43)

/-- The prefix and the national number together are what was typed. -/
structure Late (a : Aytf) : Prop where
  split : dial a.pre ++ a.nn = a.plain
  nn : ∀ u ∈ a.nn, isDig u = true
  pre : ∀ u ∈ a.pre, u < 128
  plain : PlainOk a.plain
  acc : dial a.accrued = a.plain
  metadata : formatsOk a.currentMeta = true

theorem Late.frame {a b : Aytf} (h : Late a) (f : FrameT a b) : Late b :=
  ⟨by rw [f.pre, f.nn, f.plain]; exact h.split, by rw [f.nn]; exact h.nn, by rw [f.pre]; exact h.pre,
    by rw [f.plain]; exact h.plain, by rw [f.accrued, f.plain]; exact h.acc, by rw [f.currentMeta]; exact h.metadata⟩

/-- The template is in step with the national number. -/
def InStep (a : Aytf) : Prop := a.able = true → a.formats ≠ [] → FillN a a.nn 0 ∨ Exhausted a

/-- What a step must establish. -/
structure Good (p : Aytf × Str) : Prop where
  late : Late p.1
  held : Held p.1
  step : InStep p.1
  out : dial p.2 = p.1.plain

theorem dial_append_out (a : Aytf) (s : Str) : dial (a.append s) = dial a.pre ++ dial s := by
  unfold append
  split
  · rw [dial_append, show (32 :: s) = [32] ++ s from rfl, dial_append, show dial [32] = [] by decide +kernel]; rfl
  · rw [dial_append]

theorem append_ascii {a : Aytf} (h : ∀ u ∈ a.pre, u < 128) {s : Str} (hs : ∀ u ∈ s, u < 128) : ∀ u ∈ a.append s, u < 128 := by
  intro u hu
  unfold append at hu
  split at hu
  · rcases List.mem_append.1 hu with h1 | h1
    · exact h u h1
    · rcases List.mem_cons.1 h1 with rfl | h1
      · decide
      · exact hs u h1
  · rcases List.mem_append.1 hu with h1 | h1
    · exact h u h1
    · exact hs u h1

theorem formatOk_ascii {f : NumberFormat} (h : formatOk f = true) : ∀ u ∈ templateLiterals f.format, u < 128 := by
  unfold formatOk at h
  simp only [Bool.and_eq_true, List.all_eq_true, Nat.blt_eq] at h
  exact h.1.2

theorem formatAccruedLoop_ascii (fs : List NumberFormat) (a : Aytf) (hl : Late a) (hf : ∀ f ∈ fs, formatOk f = true)
    (h : (formatAccruedLoop a fs).2 ≠ []) : ∀ u ∈ (formatAccruedLoop a fs).2, u < 128 := by
  induction fs generalizing a with
  | nil => exact absurd rfl h
  | cons f fs ih =>
    have hl' : Late { a with addSpace := nationalPrefixSeparators.isMatch f.npRule } :=
      ⟨hl.split, hl.nn, hl.pre, hl.plain, hl.acc, hl.metadata⟩
    unfold formatAccruedLoop at h ⊢
    split
    · rename_i h1
      simp only [if_pos h1] at h
      dsimp only at h ⊢
      split
      · refine append_ascii (a := { a with addSpace := nationalPrefixSeparators.isMatch f.npRule }) hl.pre ?_
        intro u hu
        rcases replaceAll_mem hu with h2 | h2
        · exact isDig_lt (hl.nn u h2)
        · exact formatOk_ascii (hf f (List.mem_cons_self ..)) u h2
      · rename_i h2
        rw [if_neg h2] at h
        exact ih _ hl' (fun g hg => hf g (List.mem_cons_of_mem _ hg)) h
    · rename_i h1
      rw [if_neg h1] at h
      exact ih _ hl (fun g hg => hf g (List.mem_cons_of_mem _ hg)) h

theorem formatAccrued_dial {a : Aytf} (hl : Late a) (hh : Held a) (h : a.formatAccrued.2 ≠ []) :
    dial a.formatAccrued.2 = a.formatAccrued.1.plain := by
  have h1 := formatAccruedLoop_out a.formats a h
  refine Eq.trans ?_ h1
  exact (dial_ascii (formatAccruedLoop_ascii a.formats a hl (fun f hf => (hh f hf).1) h)).symm

/-- Trying to format the number only touches the spacing flag. -/
theorem formatAccruedLoop_rest (fs : List NumberFormat) (a : Aytf) :
    (formatAccruedLoop a fs).1 = { a with addSpace := (formatAccruedLoop a fs).1.addSpace } := by
  induction fs generalizing a with
  | nil => rfl
  | cons f fs ih =>
    unfold formatAccruedLoop
    split
    · dsimp only
      split
      · rfl
      · exact ih { a with addSpace := nationalPrefixSeparators.isMatch f.npRule }
    · exact ih a

theorem formatAccrued_rest (a : Aytf) : a.formatAccrued.1 = { a with addSpace := a.formatAccrued.1.addSpace } :=
  formatAccruedLoop_rest _ _

/-- What creating a template does. -/
theorem createLoop_spec (fs : List NumberFormat) (a : Aytf) :
    let r := createLoop a fs
    (r.2 = true → ∃ f ∈ fs, r.1.template = getTemplate a.nn f ∧ r.1.template ≠ [] ∧ r.1.lastMatch = 0) ∧
    (r.2 = false → (r.1.able = false) ∨ (a.currentPattern ∈ fs.map (·.pattern.src) ∧
      (r.1.template = a.template ∨ r.1.template = []) ∧ r.1.lastMatch = a.lastMatch)) ∧
    (∀ f ∈ r.1.formats, f ∈ fs) := by
  induction fs generalizing a with
  | nil => exact ⟨fun h => (by cases h), fun _ => .inl rfl, fun f hf => (by cases hf)⟩
  | cons f fs ih =>
    dsimp only
    unfold createLoop
    split
    · rename_i h
      exact ⟨fun h => (by cases h), fun _ => .inr ⟨by simp [h], .inl rfl, rfl⟩, fun g hg => hg⟩
    · dsimp only
      split
      · rename_i ht
        exact ⟨fun _ => ⟨f, List.mem_cons_self .., rfl, ht, rfl⟩, fun h => (by cases h), fun g hg => hg⟩
      · obtain ⟨h1, h2, h3⟩ := ih { a with template := [] }
        refine ⟨fun h => ?_, fun h => ?_, fun g hg => List.mem_cons_of_mem _ (h3 g hg)⟩
        · obtain ⟨g, hg, k⟩ := h1 h
          exact ⟨g, List.mem_cons_of_mem _ hg, k⟩
        · rcases h2 h with k | ⟨k1, k2, k3⟩
          · exact .inl k
          · refine .inr ⟨List.mem_cons_of_mem _ k1, ?_, k3⟩
            rcases k2 with k2 | k2 <;> exact .inr k2

theorem blen_ascii {s : Str} (h : ∀ u ∈ s, u < 128) : blen s = s.length := by
  induction s with
  | nil => rfl
  | cons u s ih =>
    have h1 := h u (List.mem_cons_self ..)
    have h2 := ih fun v hv => h v (List.mem_cons_of_mem _ hv)
    unfold blen at h2 ⊢
    rw [List.map_cons, List.sum_cons, h2, List.length_cons]
    have : width u = 1 := by unfold width; rw [if_pos h1]
    omega

/-- A fresh template is ready to be filled with the national number. -/
theorem template_ready {a : Aytf} {f : NumberFormat} (hf : formatOk f = true) (he : eligibleFormatPattern.isMatch f.format = true)
    (ht : a.template = getTemplate a.nn f) (hne : a.template ≠ []) (h0 : a.lastMatch = 0) (hn : ∀ u ∈ a.nn, isDig u = true) :
    FillN a [] (0 + a.nn.length) := by
  unfold getTemplate at ht
  dsimp only at ht
  split at ht
  · exact absurd ht hne
  · rename_i hb
    unfold formatOk at hf
    simp only [Bool.and_eq_true, he, Bool.not_true, Bool.false_or] at hf
    have hok := hf.2
    unfold templateOk at hok
    dsimp only at hok
    simp only [Bool.and_eq_true, Nat.ble_eq, List.all_eq_true, Option.isNone_iff_eq_none] at hok
    rw [← ht] at hok
    rw [blen_ascii (s := a.nn) fun u hu => isDig_lt (hn u hu)] at hb
    refine ⟨0, Nat.zero_le _, Nat.le_of_eq h0, by simp, rfl, by simpa using hok.2, ?_⟩
    rw [List.drop_zero]; omega

/-- Filling the template with the whole national number. -/
theorem inputAccrued_good {a : Aytf} {f : NumberFormat} (hl : Late a) (hh : Held a) (hf : formatOk f = true)
    (he : eligibleFormatPattern.isMatch f.format = true) (ht : a.template = getTemplate a.nn f) (hne : a.template ≠ [])
    (h0 : a.lastMatch = 0) (hnn : a.nn ≠ []) : Good a.inputAccrued := by
  have hfr := inputAccrued_frame a
  have hready := template_ready hf he ht hne h0 hl.nn
  obtain ⟨h1, h2, h3⟩ := inputBytes_fill (bytesOf a.nn) (w := []) (out := []) (n := 0) (by rw [bytesOf_digits hl.nn]; exact hready)
    (by rw [bytesOf_digits hl.nn]; exact hl.nn) rfl
  have hl' := hl.frame hfr
  have e : a.inputAccrued = ((inputBytes a (bytesOf a.nn) []).1, if (inputBytes a (bytesOf a.nn) []).1.able then
      (inputBytes a (bytesOf a.nn) []).1.append (inputBytes a (bytesOf a.nn) []).2 else (inputBytes a (bytesOf a.nn) []).1.accrued) := by
    unfold inputAccrued; rw [if_neg hnn]
  rw [e] at hl' ⊢
  have hnn' : (inputBytes a (bytesOf a.nn) []).1.nn = a.nn := (inputBytes_frame _ _ _).nn
  have hfm' : (inputBytes a (bytesOf a.nn) []).1.formats = a.formats := h3.1
  refine ⟨hl', ?_, ?_, ?_⟩
  · intro g hg; rw [hfm'] at hg; exact hh g hg
  · intro _ _
    left
    rw [hnn']
    simpa [bytesOf_digits hl.nn] using h1
  · dsimp only
    split
    · rw [dial_append_out, h2, List.nil_append]
      have := hl'.split
      dsimp only at this
      rw [hnn'] at this
      rw [bytesOf_digits hl.nn] at this ⊢
      exact this
    · exact hl'.acc

/-- The formats left after narrowing down were there before. -/
theorem narrow_mem {d : Str} {fs gs : List NumberFormat} (h : narrow d fs = .ok gs) : ∀ g ∈ gs, g ∈ fs := by
  induction fs generalizing gs with
  | nil => cases h; exact fun g hg => hg
  | cons f fs ih =>
    obtain ⟨k, _, h⟩ := bind_ok.1 h
    obtain ⟨r, hr, h⟩ := bind_ok.1 h
    have h := Except.ok.inj h
    subst h
    intro g hg
    cases k with
    | true =>
      rcases List.mem_cons.1 hg with rfl | hg
      · exact List.mem_cons_self ..
      · exact List.mem_cons_of_mem _ (ih hr g hg)
    | false => exact List.mem_cons_of_mem _ (ih hr g hg)

theorem available_eligible {a : Aytf} {f : NumberFormat} (h : a.available f = true) : eligibleFormatPattern.isMatch f.format = true := by
  unfold available at h
  split at h
  · cases h
  · split at h
    · cases h
    · exact h

theorem getAvailable_held {a b : Aytf} {d : Str} (h : a.getAvailable d = .ok b) (hh : Held a)
    (hm : formatsOk a.currentMeta = true) : Held b := by
  unfold getAvailable at h
  obtain ⟨fs, hfs, h⟩ := bind_ok.1 h
  have h := Except.ok.inj h
  subst h
  intro f hf
  have hmem := narrow_mem hfs f hf
  unfold formatsOk at hm
  simp only [Bool.and_eq_true, List.all_eq_true] at hm
  rcases List.mem_append.1 hmem with h1 | h1
  · exact hh f h1
  · obtain ⟨h2, h3⟩ := List.mem_filter.1 h1
    refine ⟨?_, available_eligible h3⟩
    split at h2
    · exact hm.1.2 f h2
    · exact hm.1.1 f h2

/-- After creating a template from formats that are all good. -/
theorem createTemplate_good {a : Aytf} (hl : Late a) (hh : Held a) (hnn : a.nn ≠ []) (h : a.createTemplate.2 = true) :
    Good a.createTemplate.1.inputAccrued := by
  obtain ⟨h1, h2, h3⟩ := createLoop_spec a.formats a
  obtain ⟨f, hf, k1, k2, k3⟩ := h1 h
  have fr := createTemplate_frame a
  have hh' : Held a.createTemplate.1 := fun g hg => hh g (h3 g hg)
  exact inputAccrued_good (hl.frame fr) hh' (hh f hf).1 (hh f hf).2 (by rw [fr.nn]; exact k1) k2 k3 (by rw [fr.nn]; exact hnn)

/-- Choosing a pattern. -/
theorem choosePattern_good {a : Aytf} {p : Aytf × Str} (h : a.choosePattern = .ok p) (hl : Late a) (hf : a.formats = [])
    (ht : a.template = []) : Good p := by
  have hh : Held a := by intro f hf'; rw [hf] at hf'; cases hf'
  unfold choosePattern at h
  split at h
  · rename_i hn
    have hnn := nn_ne_of_blen hn
    obtain ⟨a1, h1, h⟩ := bind_ok.1 h
    have hh1 := getAvailable_held h1 hh hl.metadata
    obtain ⟨fs, rfl⟩ := getAvailable_frame h1
    have hl1 := hl.frame (FrameT.formats a fs)
    have hl2 := hl1.frame (formatAccrued_frame _)
    have hr := formatAccrued_rest { a with formats := fs }
    have hh2 : Held ({ a with formats := fs } : Aytf).formatAccrued.1 := by rw [hr]; exact hh1
    have ht2 : ({ a with formats := fs } : Aytf).formatAccrued.1.template = [] := by rw [hr]; exact ht
    dsimp only at h
    split at h
    · rename_i hne
      obtain rfl := Except.ok.inj h
      refine ⟨hl2, hh2, fun _ _ => .inr ?_, formatAccrued_dial hl1 hh1 hne⟩
      unfold Exhausted; rw [ht2]; simp
    · split at h
      · rename_i hc
        obtain rfl := Except.ok.inj h
        refine createTemplate_good hl2 hh2 ?_ hc
        rw [(formatAccrued_frame _).nn]; exact hnn
      · rename_i hc
        obtain rfl := Except.ok.inj h
        obtain ⟨k1, k2, k3⟩ := createLoop_spec ({ a with formats := fs } : Aytf).formatAccrued.1.formats
          ({ a with formats := fs } : Aytf).formatAccrued.1
        have hl3 := hl2.frame (createTemplate_frame _)
        refine ⟨hl3, fun g hg => hh2 g (k3 g hg), ?_, hl3.acc⟩
        intro hab _
        right
        rcases k2 (Bool.not_eq_true _ ▸ hc) with k | ⟨_, k, _⟩
        · rw [show ({ a with formats := fs } : Aytf).formatAccrued.1.createTemplate.1.able = false from k] at hab; cases hab
        · rw [ht2, or_self] at k
          unfold Exhausted
          rw [show ({ a with formats := fs } : Aytf).formatAccrued.1.createTemplate.1.template = [] from k]
          simp
  · obtain rfl := Except.ok.inj h
    refine ⟨hl, hh, fun _ h => absurd hf h, ?_⟩
    rw [dial_append_out, dial_digits hl.nn]
    exact hl.split

theorem choosePatternWithPrefix_good {a : Aytf} {p : Aytf × Str} (h : a.choosePatternWithPrefix = .ok p) (hl : Late a) : Good p :=
  choosePattern_good h ⟨hl.split, hl.nn, hl.pre, hl.plain, hl.acc, hl.metadata⟩ rfl rfl

/-! ## The steps -/

/-- What is asked of the metadata of a container. -/
structure ContOk (C : Container) : Prop where
  region : ∀ r, formatsOk (metaFor C r) = true
  nonGeo : ∀ c, formatsOk ((C.metaForNonGeo c).getD nilMetadata) = true

theorem plainOk_take {s : Str} (h : PlainOk s) (k : Nat) : dial (s.take k) = s.take k := by
  unfold dial
  have : ∀ u ∈ s.take k, dialOf u = some u := by
    intro u hu
    obtain ⟨i, hi⟩ := List.mem_iff_getElem?.1 (List.mem_of_mem_take hu)
    rcases h i u hi with h1 | ⟨_, rfl⟩
    · exact dialOf_digit h1
    · decide +kernel
  generalize s.take k = t at this
  induction t with
  | nil => rfl
  | cons u t ih =>
    rw [List.filterMap_cons_some (this u (List.mem_cons_self ..)), ih fun v hv => this v (List.mem_cons_of_mem _ hv)]

theorem plainOk_ascii {s : Str} (h : PlainOk s) : ∀ u ∈ s, u < 128 := by
  intro u hu
  obtain ⟨i, hi⟩ := List.mem_iff_getElem?.1 hu
  rcases h i u hi with h1 | ⟨_, rfl⟩
  · exact isDig_lt h1
  · decide

theorem plainOk_digits {s : Str} (h : PlainOk s) (h0 : s.head? ≠ some 43) : ∀ u ∈ s, isDig u = true := by
  intro u hu
  obtain ⟨i, hi⟩ := List.mem_iff_getElem?.1 hu
  rcases h i u hi with h1 | ⟨rfl, rfl⟩
  · exact h1
  · rw [List.head?_eq_getElem?] at h0; exact absurd hi h0

theorem plainOk_drop {s : Str} (h : PlainOk s) (k : Nat) (h0 : s.head? ≠ some 43 ∨ 1 ≤ k) : ∀ u ∈ s.drop k, isDig u = true := by
  intro u hu
  obtain ⟨i, hi⟩ := List.mem_iff_getElem?.1 hu
  rw [List.getElem?_drop] at hi
  rcases h (k + i) u hi with h1 | ⟨h2, rfl⟩
  · exact h1
  · rcases h0 with h0 | h0
    · have : k + i = 0 := h2
      rw [this, ← List.head?_eq_getElem?] at hi
      exact absurd hi h0
    · omega

/-- The expression looked for by `attemptToExtractIdd`. -/
def iddRe (m : Metadata) : Re := .alt (re! "\\+") m.internationalPrefix.re

theorem iddRe_plus (m : Metadata) (t : Str) : ∃ x, (iddRe m).atStart.find (43 :: t) = some x ∧ x.stop = 1 := by
  rw [atStart_find]
  have : ∃ l, (iddRe m).runs ⟨0, 43 :: t, []⟩ = ⟨1, t, []⟩ :: l := ⟨_, rfl⟩
  obtain ⟨l, hl⟩ := this
  rw [hl]
  exact ⟨_, rfl, rfl⟩

/-- What `attemptToExtractIdd` does. -/
theorem extractIdd_spec {a b : Aytf} {k : Bool} (h : a.extractIdd = .ok (b, k)) :
    (k = false ∧ b = a ∧ (iddRe a.currentMeta).atStart.find a.plain = none) ∨
    (k = true ∧ ∃ x, (iddRe a.currentMeta).atStart.find a.plain = some x ∧ a.plain ≠ [] ∧ ∃ sp, (sp = [] ∨ sp = [32]) ∧
      b = { a with complete := true, nn := a.plain.drop x.stop, pre := a.plain.take x.stop ++ sp }) := by
  unfold extractIdd at h
  split at h
  · rename_i hx
    left
    cases h; exact ⟨rfl, rfl, hx⟩
  · rename_i x hx
    right
    split at h
    · cases h
    · rename_i u t hp
      obtain h := Except.ok.inj h
      refine ⟨(congrArg Prod.snd h).symm, x, hx, by rw [hp]; simp, (if u ≠ 43 then [32] else []), ?_, ?_⟩
      · split <;> simp
      · exact (congrArg Prod.fst h).symm

theorem extractIdd_late {a b : Aytf} (h : a.extractIdd = .ok (b, true)) (hp : PlainOk a.plain) (hacc : dial a.accrued = a.plain)
    (hm : formatsOk a.currentMeta = true) : Late b := by
  rcases extractIdd_spec h with ⟨h1, _⟩ | ⟨_, x, hx, _, sp, hsp, rfl⟩
  · cases h1
  · have hdrop : a.plain.head? ≠ some 43 ∨ 1 ≤ x.stop := by
      by_cases h0 : a.plain.head? = some 43
      · right
        cases hp : a.plain with
        | nil => rw [hp] at h0; cases h0
        | cons u t =>
          rw [hp] at h0 hx
          simp only [List.head?_cons, Option.some.injEq] at h0
          subst h0
          obtain ⟨y, hy, hy1⟩ := iddRe_plus a.currentMeta t
          rw [hy] at hx
          simp only [Option.some.injEq] at hx
          rw [← hx, hy1]; exact Nat.le_refl _
      · exact .inl h0
    have hsp' : dial sp = [] ∧ ∀ u ∈ sp, u < 128 := by
      rcases hsp with rfl | rfl <;> decide +kernel
    refine ⟨?_, plainOk_drop hp _ hdrop, ?_, hp, hacc, hm⟩
    · show dial (a.plain.take x.stop ++ sp) ++ a.plain.drop x.stop = a.plain
      rw [dial_append, plainOk_take hp, hsp'.1, List.append_nil, List.take_append_drop]
    · intro u hu
      rcases List.mem_append.1 hu with h1 | h1
      · exact plainOk_ascii hp u (List.mem_of_mem_take h1)
      · exact hsp'.2 u h1

/-- Taking a calling code off the national number. -/
theorem extractCallingCode_late {C : Container} (hC : ContOk C) {a : Aytf} (hl : Late a) :
    Late (a.extractCallingCode C).1 ∧ ((a.extractCallingCode C).2 = true → (a.extractCallingCode C).1.ndd = []) ∧
      ((a.extractCallingCode C).2 = false → (a.extractCallingCode C).1 = a) := by
  unfold extractCallingCode
  split
  · exact ⟨hl, fun h => (by cases h), fun _ => rfl⟩
  · dsimp only
    split
    · exact ⟨hl, fun h => (by cases h), fun _ => rfl⟩
    · rename_i h0
      refine ⟨?_, fun _ => rfl, fun h => (by cases h)⟩
      obtain ⟨_, hz, j, h1, h3, hj, h4, h5, h6⟩ := extractCC_spec C a.nn h0
      have hdec : decInt (extractCC C a.nn).1 = a.nn.take j := by
        rw [h6]
        show dec (digVal (a.nn.take j)) = _
        refine dec_digVal _ h5 ?_ ?_
        · intro hnil
          have := congrArg List.length hnil
          simp only [List.length_take, List.length_nil] at this
          omega
        · right
          rw [List.head?_take]
          split
          · simp
          · exact hz
      have hpre : (a.pre ++ decInt (extractCC C a.nn).1 ++ [32] : Str) = a.pre ++ a.nn.take j ++ [32] := by rw [hdec]
      refine ⟨?_, ?_, ?_, hl.plain, hl.acc, ?_⟩
      · show dial (a.pre ++ decInt (extractCC C a.nn).1 ++ [32]) ++ (extractCC C a.nn).2 = a.plain
        rw [hpre, h4, dial_append, dial_append, dial_digits (s := a.nn.take j) fun u hu => hl.nn u (List.mem_of_mem_take hu),
          show dial [32] = [] by decide +kernel, List.append_nil, List.append_assoc, List.take_append_drop]
        exact hl.split
      · show ∀ u ∈ (extractCC C a.nn).2, isDig u = true
        rw [h4]
        exact fun u hu => hl.nn u (List.mem_of_mem_drop hu)
      · show ∀ u ∈ a.pre ++ decInt (extractCC C a.nn).1 ++ [32], u < 128
        rw [hpre]
        intro u hu
        rcases List.mem_append.1 hu with hu | hu
        · rcases List.mem_append.1 hu with hu | hu
          · exact hl.pre u hu
          · exact isDig_lt (hl.nn u (List.mem_of_mem_take hu))
        · rw [List.mem_singleton.1 hu]; decide
      · show formatsOk (if _ then _ else _) = true
        split
        · exact hC.nonGeo _
        · split
          · exact hC.region _
          · exact hl.metadata

/-- A North American number dialled with its national prefix. -/
def nanpaHead (m : Metadata) : List Nat → Bool
  | b0 :: b1 :: _ => m.countryCode = 1 && b0 = 49 && b1 ≠ 48 && b1 ≠ 49
  | _ => false

/-- The national prefix that would be removed from a national number. -/
def removed (m : Metadata) (nn : Str) : Str :=
  if nanpaHead m (bytesOf nn) = true then nn.take 1
  else if m.npParsing.src ≠ [] then nn.take (m.npParsing.re.startLen nn) else []

/-- What `removeNationalPrefixFromNationalNumber` does. -/
theorem removeNationalPrefix_spec {a : Aytf} (hn : ∀ u ∈ a.nn, isDig u = true) :
    a.removeNationalPrefix.2 = removed a.currentMeta a.nn ∧
    ∃ sp k, (sp = [] ∨ sp = [32]) ∧ a.nn = a.removeNationalPrefix.2 ++ a.nn.drop k ∧
      a.removeNationalPrefix.1 = { a with
        complete := a.removeNationalPrefix.1.complete
        pre := a.pre ++ a.removeNationalPrefix.2 ++ sp
        nn := a.nn.drop k } := by
  have hid : ∀ x : Aytf, x = { x with complete := x.complete, pre := x.pre ++ [] ++ [], nn := x.nn.drop 0 } := by
    intro x; simp
  unfold removeNationalPrefix removed
  have hnan : a.isNanpaWithPrefix = nanpaHead a.currentMeta (bytesOf a.nn) := by
    unfold isNanpaWithPrefix nanpaHead; rfl
  rw [← hnan]
  split
  · rename_i h
    refine ⟨rfl, [32], 1, .inr rfl, (List.take_append_drop _ _).symm, ?_⟩
    have : a.nn.take 1 = [49] := by
      unfold isNanpaWithPrefix at h
      rw [bytesOf_digits hn] at h
      split at h
      · rename_i b0 b1 _ heq
        simp only [Bool.and_eq_true, decide_eq_true_eq] at h
        rw [heq, h.1.1.2]; rfl
      · cases h
    simp only [this]
    simp
  · split
    · have hs : a.currentMeta.npParsing.re.startLen a.nn = match a.currentMeta.npParsing.re.atStart.find a.nn with
          | some x => x.stop | none => 0 := rfl
      cases hx : a.currentMeta.npParsing.re.atStart.find a.nn with
      | none =>
        rw [hs, hx]
        exact ⟨rfl, [], 0, .inl rfl, by simp, by simp⟩
      | some x =>
        rw [hs, hx]
        dsimp only
        split
        · exact ⟨rfl, [], x.stop, .inl rfl, (List.take_append_drop _ _).symm, by simp⟩
        · rename_i h0
          have : x.stop = 0 := by omega
          rw [this]
          exact ⟨rfl, [], 0, .inl rfl, by simp, by simp⟩
    · exact ⟨rfl, [], 0, .inl rfl, by simp, by simp⟩

theorem removeNationalPrefix_late {a : Aytf} (hl : Late a) : Late a.removeNationalPrefix.1 := by
  obtain ⟨_, sp, k, hsp, h1, h2⟩ := removeNationalPrefix_spec (a := a) hl.nn
  have hd : ∀ u ∈ a.removeNationalPrefix.2, isDig u = true := fun u hu => hl.nn u (by rw [h1]; exact List.mem_append_left _ hu)
  have hsp' : dial sp = [] ∧ ∀ u ∈ sp, u < 128 := by
    rcases hsp with rfl | rfl <;> decide +kernel
  rw [h2]
  refine ⟨?_, fun u hu => hl.nn u (List.mem_of_mem_drop hu), ?_, hl.plain, hl.acc, hl.metadata⟩
  · show dial (a.pre ++ a.removeNationalPrefix.2 ++ sp) ++ a.nn.drop k = a.plain
    rw [dial_append, dial_append, hsp'.1, List.append_nil, dial_digits hd, List.append_assoc, ← h1]
    exact hl.split
  · intro u hu
    rcases List.mem_append.1 hu with hu | hu
    · rcases List.mem_append.1 hu with hu | hu
      · exact hl.pre u hu
      · exact isDig_lt (hd u hu)
    · exact hsp'.2 u hu

/-- The later steps: what was typed before is in step, the new digit is `c`. -/
theorem laterStep_good {C : Container} (hC : ContOk C) {a : Aytf} {c : Nat} {nn0 : Str} {p : Aytf × Str}
    (h : a.laterStep C c = .ok p) (hl : Late a) (hh : Held a) (hex : a.expecting = true → a.formats = [])
    (hlong : a.formats ≠ [] → 3 ≤ blen a.nn)
    (hst : a.formats ≠ [] → a.nn = nn0 ++ [c] ∧ (FillN a nn0 0 ∨ Exhausted a)) (hc : isDig c = true)
    (htpl : a.formats = [] → a.template = []) : Good p := by
  unfold laterStep at h
  split at h
  · rename_i he
    obtain rfl := Except.ok.inj h
    obtain ⟨k1, _, _⟩ := extractCallingCode_late hC hl
    have hfm : (a.extractCallingCode C).1.formats = [] := by
      rw [← hex he]; unfold extractCallingCode; split
      · rfl
      · dsimp only; split <;> rfl
    dsimp only
    split
    · refine ⟨⟨k1.split, k1.nn, k1.pre, k1.plain, k1.acc, k1.metadata⟩, ?_, fun _ h => absurd hfm h, ?_⟩
      · intro f hf; rw [show ({ (a.extractCallingCode C).1 with expecting := false } : Aytf).formats = [] from hfm] at hf; cases hf
      · show dial ((a.extractCallingCode C).1.pre ++ (a.extractCallingCode C).1.nn) = (a.extractCallingCode C).1.plain
        rw [dial_append, dial_digits k1.nn]; exact k1.split
    · refine ⟨k1, ?_, fun _ h => absurd hfm h, ?_⟩
      · intro f hf; rw [hfm] at hf; cases hf
      · rw [dial_append, dial_digits k1.nn]; exact k1.split
  · split at h
    · rename_i hne
      obtain ⟨hnn, hfill⟩ := hst hne
      have hlen := hlong hne
      have g0 := digitHelper_frame a c
      have hl0 := hl.frame g0
      have hl1 := hl0.frame (formatAccrued_frame _)
      have hr := formatAccrued_rest (a.digitHelper c).1
      have hfm : (a.digitHelper c).1.formats = a.formats := by
        unfold digitHelper; split <;> rfl
      have hh0 : Held (a.digitHelper c).1 := by intro f hf; rw [hfm] at hf; exact hh f hf
      have hh1 : Held (a.digitHelper c).1.formatAccrued.1 := by rw [hr]; exact hh0
      -- either a place was filled, or there was none
      have hcase : (FillN (a.digitHelper c).1 a.nn 0 ∧ dial (a.digitHelper c).2 = a.nn) ∨
          (Exhausted (a.digitHelper c).1 ∧ (a.digitHelper c).1.currentPattern = []) := by
        cases hk : (a.template.drop a.lastMatch).findIdx? (· = placeholder) with
        | none =>
          right
          rw [digitHelper_none hk]
          exact ⟨(exhausted_iff a).2 hk, rfl⟩
        | some k =>
          left
          rcases hfill with hfill | hfill
          · obtain ⟨k1, k2, _⟩ := digitHelper_fill hfill hc hk
            rw [hnn]; exact ⟨k1, k2⟩
          · rw [(exhausted_iff a).1 hfill] at hk; cases hk
      have hnn1 : (a.digitHelper c).1.formatAccrued.1.nn = a.nn := by rw [hr]; exact g0.nn
      have htp1 : (a.digitHelper c).1.formatAccrued.1.template = (a.digitHelper c).1.template := by rw [hr]
      have hlm1 : (a.digitHelper c).1.formatAccrued.1.lastMatch = (a.digitHelper c).1.lastMatch := by rw [hr]
      have hcp1 : (a.digitHelper c).1.formatAccrued.1.currentPattern = (a.digitHelper c).1.currentPattern := by rw [hr]
      dsimp only at h
      split at h
      · rename_i hne'
        obtain rfl := Except.ok.inj h
        refine ⟨hl1, hh1, fun _ _ => ?_, formatAccrued_dial hl0 hh0 hne'⟩
        rcases hcase with ⟨k1, _⟩ | ⟨k1, _⟩
        · left; rw [hnn1]; unfold FillN at k1 ⊢; rw [htp1, hlm1]; exact k1
        · right; unfold Exhausted at k1 ⊢; rw [htp1, hlm1]; exact k1
      · obtain ⟨fs, hfs, h⟩ := bind_ok.1 h
        have hmem := narrow_mem hfs
        generalize hA : (a.digitHelper c).1.formatAccrued.1 = A at *
        have hl2 : Late { A with formats := fs } := hl1.frame (FrameT.formats A fs)
        have hh2 : Held { A with formats := fs } := fun f hf => hh1 f (hmem f hf)
        have hnn2 : ({ A with formats := fs } : Aytf).nn ≠ [] := by
          show A.nn ≠ []
          rw [hnn1]; exact nn_ne_of_blen hlen
        split at h
        · rename_i hc
          obtain rfl := Except.ok.inj h
          exact createTemplate_good hl2 hh2 hnn2 hc
        · rename_i hc
          obtain rfl := Except.ok.inj h
          obtain ⟨k1, k2, k3⟩ := createLoop_spec fs { A with formats := fs }
          have hl3 := hl2.frame (createTemplate_frame _)
          have g3 := createTemplate_frame { A with formats := fs }
          have key := k2 (Bool.not_eq_true _ ▸ hc)
          have hst3 : ({ A with formats := fs } : Aytf).createTemplate.1.able = true →
              (FillN ({ A with formats := fs } : Aytf).createTemplate.1 A.nn 0 ∨ Exhausted ({ A with formats := fs } : Aytf).createTemplate.1) ∧
              dial (a.digitHelper c).2 = a.nn := by
            intro hab
            rcases key with k | ⟨k4, k5, k6⟩
            · rw [show ({ A with formats := fs } : Aytf).createTemplate.1.able = false from k] at hab; cases hab
            · rcases hcase with ⟨q1, q2⟩ | ⟨_, q2⟩
              · refine ⟨?_, q2⟩
                rcases k5 with k5 | k5
                · left
                  rw [← hnn1] at q1
                  unfold FillN at q1 ⊢
                  rw [show ({ A with formats := fs } : Aytf).createTemplate.1.template = A.template from k5,
                    show ({ A with formats := fs } : Aytf).createTemplate.1.lastMatch = A.lastMatch from k6, htp1, hlm1]
                  exact q1
                · right
                  unfold Exhausted
                  rw [show ({ A with formats := fs } : Aytf).createTemplate.1.template = [] from k5]
                  simp
              · exfalso
                obtain ⟨f, hf, hfe⟩ := List.mem_map.1 k4
                have hok := (hh2 f hf).1
                unfold formatOk at hok
                simp only [Bool.and_eq_true] at hok
                have : f.pattern.src = [] := by rw [hfe]; show A.currentPattern = []; rw [hcp1]; exact q2
                rw [this] at hok
                exact absurd hok.1.1 (by simp)
          refine ⟨hl3, fun g hg => hh2 g (k3 g hg), fun hab _ => ?_, ?_⟩
          · have := (hst3 hab).1
            rw [g3.nn]; exact this
          · dsimp only
            split
            · rename_i hab
              rw [dial_append_out, (hst3 hab).2, ← hnn1]
              have := hl3.split
              rw [g3.nn] at this
              exact this
            · exact hl3.acc
    · rename_i hne
      have hfn : a.formats = [] := Classical.not_not.1 hne
      exact choosePattern_good h hl hfn (htpl hfn)

end Verif.Aytf
