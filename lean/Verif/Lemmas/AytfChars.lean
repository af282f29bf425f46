import Verif.Lemmas.AytfPrefix
import Verif.Lemmas.Separators
/-!
# Lemmas: the characters the as-you-type formatter shows
-/
namespace Verif.Aytf
open Verif.Builder (bind_ok)
open Verif.Spec

/-- A digit, a plus sign or a separator that is not a letter. -/
def Key (u : Nat) : Prop := isDecimal u = true ∨ isPlus u = true ∨ (isSeparator u = true ∧ isEnd u = false)

/-- The literal characters of a format are digits and ASCII separators. -/
def litOk (f : NumberFormat) : Bool := (templateLiterals f.format).all fun u => isDig u || gapL.contains u

/-- The literal characters of the formats of a region are digits and ASCII separators. -/
def litsOk (m : Metadata) : Bool := m.formats.all litOk && m.intlFormats.all litOk

theorem key_small : ∀ u ∈ [48, 49, 50, 51, 52, 53, 54, 55, 56, 57, 43, 32, 45, 46, 40, 41],
    (isDecimal u || isPlus u || (isSeparator u && !isEnd u)) = true ∧ u ≠ placeholder := by decide +kernel

theorem key_of {u : Nat} (h : u ∈ [48, 49, 50, 51, 52, 53, 54, 55, 56, 57, 43, 32, 45, 46, 40, 41]) : Key u := by
  have := (key_small u h).1
  simpa [Key, or_assoc] using this

theorem key_digit {u : Nat} (h : isDig u = true) : Key u := by
  have := tenDigits_mem' h
  exact key_of (by revert this; simp; omega)
where
  tenDigits_mem' {u : Nat} (h : isDig u = true) : 48 ≤ u ∧ u ≤ 57 := by simpa [isDig] using h

theorem key_space : Key 32 := key_of (by decide)

theorem key_plain {s : Str} (h : PlainOk s) : ∀ u ∈ s, Key u := by
  intro u hu
  obtain ⟨i, hi⟩ := List.mem_iff_getElem?.1 hu
  rcases h i u hi with h1 | ⟨_, rfl⟩
  · exact key_digit h1
  · exact key_of (by decide)

theorem key_lit {f : NumberFormat} (h : litOk f = true) : ∀ u ∈ templateLiterals f.format, Key u ∧ u ≠ placeholder := by
  intro u hu
  have := List.all_eq_true.1 h u hu
  rw [Bool.or_eq_true] at this
  rcases this with h1 | h1
  · exact ⟨key_digit h1, isDig_ne_placeholder h1⟩
  · have : u ∈ [48, 49, 50, 51, 52, 53, 54, 55, 56, 57, 43, 32, 45, 46, 40, 41] := by
      have := List.contains_iff_mem.1 h1
      simp only [gapL, List.mem_cons, List.not_mem_nil, or_false] at this
      simp only [List.mem_cons, List.not_mem_nil, or_false]
      omega
    exact ⟨key_of this, (key_small u this).2⟩

/-- The text a formatter keeps consists of keys. -/
structure Cell (a : Aytf) : Prop where
  acc : ∀ u ∈ a.accrued, Key u
  plain : PlainOk a.plain
  nn : ∀ u ∈ a.nn, isDig u = true
  ndd : ∀ u ∈ a.ndd, isDig u = true
  pre : ∀ u ∈ a.pre, Key u
  tmpl : ∀ u ∈ a.template, u = placeholder ∨ Key u
  filled : ∀ u ∈ a.template.take a.lastMatch, u ≠ placeholder
  metadata : litsOk a.currentMeta = true
  forms : ∀ f ∈ a.formats, litOk f = true

/-- What a step must establish. -/
structure Shown (p : Aytf × Str) : Prop where
  cell : Cell p.1
  out : ∀ u ∈ p.2, Key u

theorem Cell.shown {a : Aytf} (h : Cell a) : Shown (a, a.accrued) := ⟨h, h.acc⟩

theorem Cell.frame {a b : Aytf} (h : Cell a) (f : FrameT a b) (ht : ∀ u ∈ b.template, u = placeholder ∨ Key u)
    (hf : ∀ u ∈ b.template.take b.lastMatch, u ≠ placeholder) (hm : ∀ g ∈ b.formats, litOk g = true) : Cell b :=
  ⟨by rw [f.accrued]; exact h.acc, by rw [f.plain]; exact h.plain, by rw [f.nn]; exact h.nn, by rw [f.ndd]; exact h.ndd,
    by rw [f.pre]; exact h.pre, ht, hf, by rw [f.currentMeta]; exact h.metadata, hm⟩

theorem Cell.append {a : Aytf} (h : Cell a) {s : Str} (hs : ∀ u ∈ s, Key u) : ∀ u ∈ a.append s, Key u := by
  intro u hu
  unfold Aytf.append at hu
  split at hu
  · rcases List.mem_append.1 hu with h1 | h1
    · exact h.pre u h1
    · rcases List.mem_cons.1 h1 with rfl | h1
      · exact key_space
      · exact hs u h1
  · rcases List.mem_append.1 hu with h1 | h1
    · exact h.pre u h1
    · exact hs u h1

theorem digitHelper_cell {a : Aytf} (h : Cell a) {c : Nat} (hc : isDig c = true) : Shown (a.digitHelper c) := by
  have hfr := digitHelper_frame a c
  have hfm := digitHelper_formats a c
  unfold digitHelper at hfr hfm ⊢
  cases hk : (a.template.drop a.lastMatch).findIdx? (· = placeholder) with
  | none => 
    rw [hk] at hfr hfm
    exact ⟨h.frame hfr h.tmpl h.filled h.forms, h.acc⟩
  | some k =>
    rw [hk] at hfr hfm
    dsimp only at hfr hfm ⊢
    rw [List.findIdx?_eq_some_iff_getElem] at hk
    obtain ⟨hkl, hkp, hkn⟩ := hk
    simp only [List.getElem_drop, decide_eq_true_eq] at hkp hkn
    simp only [List.length_drop] at hkl
    have hset : ∀ u ∈ a.template.set (a.lastMatch + k) c, u = placeholder ∨ Key u := by
      intro u hu
      rcases List.mem_or_eq_of_mem_set hu with h1 | rfl
      · exact h.tmpl u h1
      · exact .inr (key_digit hc)
    have hlow : ∀ u ∈ (a.template.set (a.lastMatch + k) c).take (a.lastMatch + k), u ≠ placeholder := by
      intro u hu
      rw [List.take_set, List.set_eq_of_length_le (by simp; omega)] at hu
      obtain ⟨i, hi, rfl⟩ := List.getElem_of_mem hu
      simp only [List.length_take] at hi
      rw [List.getElem_take]
      by_cases hil : i < a.lastMatch
      · refine h.filled _ ?_
        have : (a.template.take a.lastMatch)[i]'(by simp; omega) = a.template[i] := List.getElem_take
        exact this ▸ List.getElem_mem _
      · have := hkn (i - a.lastMatch) (by omega)
        have e : a.template[a.lastMatch + (i - a.lastMatch)]'(by omega) = a.template[i]'(by omega) := by congr 1; omega
        rw [e] at this
        exact this
    refine ⟨h.frame hfr hset hlow h.forms, ?_⟩
    intro u hu
    dsimp only at hu
    rw [List.take_succ_eq_append_getElem (by rw [List.length_set]; omega), List.getElem_set_self] at hu
    rcases List.mem_append.1 hu with h1 | h1
    · rcases hset u (List.mem_of_mem_take h1) with h2 | h2
      · exact absurd h2 (hlow u h1)
      · exact h2
    · rw [List.mem_singleton.1 h1]; exact key_digit hc

theorem inputBytes_cell (bs : List Nat) {a : Aytf} {out : Str} (h : Cell a) (hb : ∀ u ∈ bs, isDig u = true)
    (ho : ∀ u ∈ out, Key u) : Shown (inputBytes a bs out) := by
  induction bs generalizing a out with
  | nil => exact ⟨h, ho⟩
  | cons b bs ih =>
    have := digitHelper_cell h (hb b (List.mem_cons_self ..))
    exact ih this.cell (fun u hu => hb u (List.mem_cons_of_mem _ hu)) this.out

theorem inputAccrued_cell {a : Aytf} (h : Cell a) : Shown a.inputAccrued := by
  unfold inputAccrued
  split
  · exact ⟨h, h.pre⟩
  · have := inputBytes_cell (bytesOf a.nn) (out := []) h (by rw [bytesOf_digits h.nn]; exact h.nn) (fun u hu => by cases hu)
    refine ⟨this.cell, ?_⟩
    dsimp only
    split
    · exact this.cell.append this.out
    · exact this.cell.acc

theorem slice_mem {s : Str} {i j u : Nat} (h : u ∈ slice s i j) : u ∈ s := by
  unfold slice at h
  exact List.mem_of_mem_drop (List.mem_of_mem_take h)

theorem getTemplate_key {f : NumberFormat} (h : litOk f = true) (nn : Str) : ∀ u ∈ getTemplate nn f, u = placeholder ∨ Key u := by
  intro u hu
  unfold getTemplate at hu
  dsimp only at hu
  split at hu
  · cases hu
  · obtain ⟨v, hv, rfl⟩ := List.mem_map.1 hu
    split
    · exact .inl rfl
    · rename_i h57
      rcases replaceAll_mem hv with h1 | h1
      · exfalso
        apply h57
        unfold Re.findString at h1
        split at h1
        · exact (List.mem_replicate.1 (slice_mem h1)).2
        · cases h1
      · exact .inr (key_lit h v h1).1

theorem createLoop_cell (fs : List NumberFormat) {a : Aytf} (h : Cell a) (hf : ∀ f ∈ fs, litOk f = true) : Cell (createLoop a fs).1 := by
  induction fs generalizing a with
  | nil => exact ⟨h.acc, h.plain, h.nn, h.ndd, h.pre, h.tmpl, h.filled, h.metadata, fun f hf => by cases hf⟩
  | cons f fs ih =>
    unfold createLoop
    split
    · exact ⟨h.acc, h.plain, h.nn, h.ndd, h.pre, h.tmpl, h.filled, h.metadata, hf⟩
    · dsimp only
      split
      · exact ⟨h.acc, h.plain, h.nn, h.ndd, h.pre, getTemplate_key (hf f (List.mem_cons_self ..)) _, by simp, h.metadata, hf⟩
      · refine ih ?_ (fun g hg => hf g (List.mem_cons_of_mem _ hg))
        exact ⟨h.acc, h.plain, h.nn, h.ndd, h.pre, fun u hu => (by cases hu), by simp, h.metadata, h.forms⟩

theorem formatAccruedLoop_cell (fs : List NumberFormat) {a : Aytf} (h : Cell a) (hf : ∀ f ∈ fs, litOk f = true) :
    Shown (formatAccruedLoop a fs) := by
  induction fs generalizing a with
  | nil => exact ⟨h, fun u hu => by cases hu⟩
  | cons f fs ih =>
    have h' : Cell { a with addSpace := nationalPrefixSeparators.isMatch f.npRule } :=
      ⟨h.acc, h.plain, h.nn, h.ndd, h.pre, h.tmpl, h.filled, h.metadata, h.forms⟩
    unfold formatAccruedLoop
    split
    · dsimp only
      split
      · refine ⟨h', h'.append ?_⟩
        intro u hu
        rcases replaceAll_mem hu with h2 | h2
        · exact key_digit (h.nn u h2)
        · exact (key_lit (hf f (List.mem_cons_self ..)) u h2).1
      · exact ih h' (fun g hg => hf g (List.mem_cons_of_mem _ hg))
    · exact ih h (fun g hg => hf g (List.mem_cons_of_mem _ hg))

theorem formatAccrued_cell {a : Aytf} (h : Cell a) : Shown a.formatAccrued := formatAccruedLoop_cell _ h h.forms

theorem createTemplate_cell {a : Aytf} (h : Cell a) : Cell a.createTemplate.1 := createLoop_cell _ h h.forms

theorem getAvailable_cell {a b : Aytf} {d : Str} (h : a.getAvailable d = .ok b) (hc : Cell a) : Cell b := by
  unfold getAvailable at h
  obtain ⟨fs, hfs, h⟩ := bind_ok.1 h
  have h := Except.ok.inj h
  subst h
  refine ⟨hc.acc, hc.plain, hc.nn, hc.ndd, hc.pre, hc.tmpl, hc.filled, hc.metadata, ?_⟩
  intro f hf
  have hmem := narrow_mem hfs f hf
  have hm := hc.metadata
  unfold litsOk at hm
  simp only [Bool.and_eq_true, List.all_eq_true] at hm
  rcases List.mem_append.1 hmem with h1 | h1
  · exact hc.forms f h1
  · obtain ⟨h2, _⟩ := List.mem_filter.1 h1
    split at h2
    · exact hm.2 f h2
    · exact hm.1 f h2

theorem choosePattern_cell {a : Aytf} {p : Aytf × Str} (h : a.choosePattern = .ok p) (hc : Cell a) : Shown p := by
  unfold choosePattern at h
  split at h
  · obtain ⟨a1, h1, h⟩ := bind_ok.1 h
    have c1 := getAvailable_cell h1 hc
    have c2 := formatAccrued_cell c1
    dsimp only at h
    split at h
    · obtain rfl := Except.ok.inj h
      exact c2
    · have c3 := createTemplate_cell c2.cell
      split at h
      · obtain rfl := Except.ok.inj h
        exact inputAccrued_cell c3
      · obtain rfl := Except.ok.inj h
        exact c3.shown
  · obtain rfl := Except.ok.inj h
    exact ⟨hc, hc.append fun u hu => key_digit (hc.nn u hu)⟩

theorem choosePatternWithPrefix_cell {a : Aytf} {p : Aytf × Str} (h : a.choosePatternWithPrefix = .ok p) (hc : Cell a) : Shown p :=
  choosePattern_cell h ⟨hc.acc, hc.plain, hc.nn, hc.ndd, hc.pre, fun u hu => (by cases hu), by simp, hc.metadata, fun u hu => (by cases hu)⟩

theorem sp_key {sp : Str} (h : sp = [] ∨ sp = [32]) : ∀ u ∈ sp, Key u := by
  intro u hu
  rcases h with rfl | rfl
  · cases hu
  · rw [List.mem_singleton.1 hu]; exact key_space

theorem removeNationalPrefix_cell {a : Aytf} (h : Cell a) :
    Cell a.removeNationalPrefix.1 ∧ ∀ u ∈ a.removeNationalPrefix.2, isDig u = true := by
  obtain ⟨_, sp, k, hsp, h1, h2⟩ := removeNationalPrefix_spec (a := a) h.nn
  have hd : ∀ u ∈ a.removeNationalPrefix.2, isDig u = true := fun u hu => h.nn u (by rw [h1]; exact List.mem_append_left _ hu)
  refine ⟨?_, hd⟩
  rw [h2]
  refine ⟨h.acc, h.plain, fun u hu => h.nn u (List.mem_of_mem_drop hu), h.ndd, ?_, h.tmpl, h.filled, h.metadata, h.forms⟩
  intro u hu
  rcases List.mem_append.1 hu with hu | hu
  · rcases List.mem_append.1 hu with hu | hu
    · exact h.pre u hu
    · exact key_digit (hd u hu)
  · exact sp_key hsp u hu

theorem longerNdd_cell {a b : Aytf} {k : Bool} (h : a.longerNdd = .ok (b, k)) (hc : Cell a) : Cell b := by
  unfold longerNdd at h
  obtain ⟨a1, h1, h⟩ := bind_ok.1 h
  have c1 : Cell a1 := by
    split at h1
    · split at h1
      · obtain rfl := Except.ok.inj h1
        refine ⟨hc.acc, hc.plain, ?_, hc.ndd, fun u hu => hc.pre u (List.mem_of_mem_take hu), hc.tmpl, hc.filled, hc.metadata, hc.forms⟩
        intro u hu
        rcases List.mem_append.1 hu with hu | hu
        · exact hc.ndd u hu
        · exact hc.nn u hu
      · cases h1
    · obtain rfl := Except.ok.inj h1
      exact hc
  have h := congrArg Prod.fst (Except.ok.inj h)
  dsimp only at h
  rw [← h]
  exact (removeNationalPrefix_cell c1).1

theorem extractIdd_cell {a b : Aytf} {k : Bool} (h : a.extractIdd = .ok (b, k)) (hc : Cell a) : Cell b := by
  rcases extractIdd_spec h with ⟨_, rfl, _⟩ | ⟨_, x, hx, _, sp, hsp, rfl⟩
  · exact hc
  · have hdrop : a.plain.head? ≠ some 43 ∨ 1 ≤ x.stop := by
      by_cases h0 : a.plain.head? = some 43
      · right
        cases hp : a.plain with
        | nil => rw [hp] at h0; cases h0
        | cons u t =>
          rw [hp] at h0 hx
          simp only [List.head?_cons, Option.some.injEq] at h0
          subst h0
          obtain ⟨y, hy, hy1⟩ := iddRe_plus a.currentMeta t
          rw [hy] at hx
          simp only [Option.some.injEq] at hx
          rw [← hx, hy1]; exact Nat.le_refl _
      · exact .inl h0
    refine ⟨hc.acc, hc.plain, plainOk_drop hc.plain _ hdrop, hc.ndd, ?_, hc.tmpl, hc.filled, hc.metadata, hc.forms⟩
    intro u hu
    rcases List.mem_append.1 hu with h1 | h1
    · exact key_plain hc.plain u (List.mem_of_mem_take h1)
    · exact sp_key hsp u h1

/-- What is asked of the metadata of a container. -/
structure LitsOk (C : Container) : Prop where
  region : ∀ r, litsOk (metaFor C r) = true
  nonGeo : ∀ c, litsOk ((C.metaForNonGeo c).getD nilMetadata) = true

theorem extractCallingCode_cell {C : Container} (hC : LitsOk C) {a : Aytf} (hc : Cell a) : Cell (a.extractCallingCode C).1 := by
  unfold extractCallingCode
  split
  · exact hc
  · dsimp only
    split
    · exact hc
    · rename_i h0
      obtain ⟨_, hz, j, h1, h3, hj, h4, h5, h6⟩ := extractCC_spec C a.nn h0
      refine ⟨hc.acc, hc.plain, ?_, fun u hu => (by cases hu), ?_, hc.tmpl, hc.filled, ?_, hc.forms⟩
      · show ∀ u ∈ (extractCC C a.nn).2, isDig u = true
        rw [h4]
        exact fun u hu => hc.nn u (List.mem_of_mem_drop hu)
      · show ∀ u ∈ a.pre ++ decInt (extractCC C a.nn).1 ++ [32], Key u
        intro u hu
        rcases List.mem_append.1 hu with hu | hu
        · rcases List.mem_append.1 hu with hu | hu
          · exact hc.pre u hu
          · rw [h6] at hu
            exact key_digit (dec_digits _ u hu)
        · rw [List.mem_singleton.1 hu]; exact key_space
      · show litsOk (if _ then _ else _) = true
        split
        · exact hC.nonGeo _
        · split
          · exact hC.region _
          · exact hc.metadata

theorem unableStep_cell {C : Container} (hC : LitsOk C) {a : Aytf} {p : Aytf × Str} (h : a.unableStep C = .ok p) (hc : Cell a) :
    Shown p := by
  unfold unableStep at h
  split at h
  · obtain rfl := Except.ok.inj h
    exact hc.shown
  · obtain ⟨⟨b, k⟩, hi, h⟩ := bind_ok.1 h
    have c1 := extractIdd_cell hi hc
    dsimp only at h
    split at h
    · have c2 := extractCallingCode_cell hC c1
      split at h
      · exact choosePatternWithPrefix_cell h c2
      · obtain rfl := Except.ok.inj h
        exact c2.shown
    · obtain ⟨⟨q, k'⟩, hq, h⟩ := bind_ok.1 h
      have c2 := longerNdd_cell hq c1
      dsimp only at h
      split at h
      · refine choosePatternWithPrefix_cell h ⟨c2.acc, c2.plain, c2.nn, c2.ndd, ?_, c2.tmpl, c2.filled, c2.metadata, c2.forms⟩
        intro u hu
        rcases List.mem_append.1 hu with hu | hu
        · exact c2.pre u hu
        · rw [List.mem_singleton.1 hu]; exact key_space
      · obtain rfl := Except.ok.inj h
        exact c2.shown

theorem laterStep_cell {C : Container} (hC : LitsOk C) {a : Aytf} {c : Nat} {p : Aytf × Str} (h : a.laterStep C c = .ok p) (hc : Cell a)
    (hd : isDig c = true ∨ (a.expecting = true ∨ a.formats = [])) : Shown p := by
  unfold laterStep at h
  split at h
  · have c1 := extractCallingCode_cell hC hc
    obtain rfl := Except.ok.inj h
    have c2 : Cell (if (a.extractCallingCode C).2 then { (a.extractCallingCode C).1 with expecting := false }
        else (a.extractCallingCode C).1) := by
      split
      · exact ⟨c1.acc, c1.plain, c1.nn, c1.ndd, c1.pre, c1.tmpl, c1.filled, c1.metadata, c1.forms⟩
      · exact c1
    refine ⟨c2, ?_⟩
    intro u hu
    rcases List.mem_append.1 hu with hu | hu
    · exact c2.pre u hu
    · exact key_digit (c2.nn u hu)
  · rename_i hex
    split at h
    · rename_i hne
      have hdc : isDig c = true := by
        rcases hd with hd | hd | hd
        · exact hd
        · exact absurd hd hex
        · exact absurd hd hne
      have s1 := digitHelper_cell hc hdc
      have s2 := formatAccrued_cell s1.cell
      dsimp only at h
      split at h
      · obtain rfl := Except.ok.inj h
        exact s2
      · obtain ⟨fs, hfs, h⟩ := bind_ok.1 h
        have c3 : Cell { (a.digitHelper c).1.formatAccrued.1 with formats := fs } :=
          ⟨s2.cell.acc, s2.cell.plain, s2.cell.nn, s2.cell.ndd, s2.cell.pre, s2.cell.tmpl, s2.cell.filled, s2.cell.metadata,
            fun f hf => s2.cell.forms f (narrow_mem hfs f hf)⟩
        have c4 := createTemplate_cell c3
        split at h
        · obtain rfl := Except.ok.inj h
          exact inputAccrued_cell c4
        · obtain rfl := Except.ok.inj h
          refine ⟨c4, ?_⟩
          dsimp only
          split
          · exact c4.append s1.out
          · exact c4.acc
    · exact choosePattern_cell h hc

theorem ableStep_cell {C : Container} (hC : LitsOk C) {a : Aytf} {c : Nat} {p : Aytf × Str} (h : a.ableStep C c = .ok p) (hc : Cell a)
    (hd : isDig c = true ∨ blen a.plain < 3) : Shown p := by
  unfold ableStep at h
  split at h
  · obtain rfl := Except.ok.inj h
    exact hc.shown
  · rename_i h3
    have hd := hd.resolve_right h3
    split at h
    · obtain ⟨⟨b, k⟩, hi, h⟩ := bind_ok.1 h
      have c1 := extractIdd_cell hi hc
      dsimp only at h
      split at h
      · exact laterStep_cell hC h ⟨c1.acc, c1.plain, c1.nn, c1.ndd, c1.pre, c1.tmpl, c1.filled, c1.metadata, c1.forms⟩ (.inl hd)
      · obtain ⟨c2, c3⟩ := removeNationalPrefix_cell c1
        exact choosePattern_cell h ⟨c2.acc, c2.plain, c2.nn, c3, c2.pre, c2.tmpl, c2.filled, c2.metadata, c2.forms⟩
    · exact laterStep_cell hC h hc (.inl hd)

/-! ## The invariant over calls -/

/-- The characters invariant, for input of digits and a leading plus sign. -/
structure Chars (C : Container) (region s : Str) (a : Aytf) : Prop where
  typed : Typed s a
  clean : a.hasFmt = false
  out : ∀ u ∈ a.currentOutput, Key u
  fresh : s = [] → a = new C region
  state : (s.head? = some 0xFF0B ∧ Wide (metaFor C region) a) ∨ (s.head? ≠ some 0xFF0B ∧ Cell a)

theorem chars_fresh {C : Container} (hC : LitsOk C) (region : Str) : Chars C region [] (new C region) :=
  ⟨typed_new C region, rfl, fun u hu => (by cases hu), fun _ => rfl, .inr ⟨by simp,
    ⟨fun u hu => (by cases hu), fun i u hi => (by cases hi), fun u hu => (by cases hu), fun u hu => (by cases hu), fun u hu => (by cases hu),
      fun u hu => (by cases hu), fun u hu => (by cases hu), hC.region region, fun u hu => (by cases hu)⟩⟩⟩

theorem Cell.output {a : Aytf} (h : Cell a) (o : Str) : Cell { a with currentOutput := o } :=
  ⟨h.acc, h.plain, h.nn, h.ndd, h.pre, h.tmpl, h.filled, h.metadata, h.forms⟩

theorem key_phoneish {c : Nat} (hc : c < 0x110000) {b : Bool} (h : Phoneish b c) : Key c := by
  have hrune : rune c = c := by unfold rune badBase; split <;> omega
  rcases h with h | ⟨_, h⟩
  · exact .inl ((decimal_iff c).2 (by rw [hrune]; exact h))
  · refine .inr (.inl ?_)
    rw [isPlus_iff, hrune]
    rcases h with rfl | rfl <;> decide

theorem keys_typed {s : Str} (hlt : ∀ u ∈ s, u < 0x110000) (h : PhoneInput s) : ∀ u ∈ s, Key u := by
  intro u hu
  obtain ⟨i, hi⟩ := List.mem_iff_getElem?.1 hu
  exact key_phoneish (hlt u hu) (h i u hi)

theorem chars_step {C : Container} (hC : LitsOk C) {region s : Str} (hw : wideOk (metaFor C region) = true) {a : Aytf} {c : Nat} {r : Bool}
    {q : Aytf × Str} (hd : Chars C region s a) (hc : c < 0x110000) (hph : Phoneish (s.length == 0) c) (h : a.inputCore C c r = .ok q)
    (hps : PhoneInput s) (hlt : ∀ u ∈ s, u < 0x110000) : Chars C region (s ++ [c]) { q.1 with currentOutput := q.2 } := by
  have hT' := (typed_step C).2 s a c r q hd.typed hc h
  have hph' : (a.noted c r).isDigitOrLeadingPlus c = true := (phoneish_iff hc).2 (hd.typed.accrued ▸ hph)
  have hrest := taken_rest a c r
  generalize hTa : a.taken c r = T at hrest
  have e1 : T.accrued = s ++ [c] := by rw [hrest, ← hd.typed.accrued]
  have e2 : T.able = a.able := by rw [hrest]
  have e3 : T.hasFmt = false := by rw [hrest]; exact hd.clean
  have e4 : T.formats = a.formats := by rw [hrest]
  have e5 : T.template = a.template := by rw [hrest]
  have e6 : T.pre = a.pre := by rw [hrest]
  have e7 : T.ndd = a.ndd := by rw [hrest]
  have e8 : T.currentMeta = a.currentMeta := by rw [hrest]
  have e11 : T.lastMatch = a.lastMatch := by rw [hrest]
  have e9 : T.complete = a.complete := by rw [hrest]
  have hclean : q.1.hasFmt = false := by
    rcases inputCore_cases h with ⟨h1, _⟩ | ⟨_, _, hq⟩ | ⟨_, _, hq⟩
    · rw [hph'] at h1; cases h1
    · rw [(unableStep_frame hq).hasFmt, hTa]; exact e3
    · rw [(ableStep_frame hq).hasFmt, hTa]; exact e3
  have hacc : q.1.accrued = s ++ [c] := hT'.accrued
  have hkeys : ∀ u ∈ s ++ [c], Key u := by
    intro u hu
    rcases List.mem_append.1 hu with hu | hu
    · exact keys_typed hlt hps u hu
    · rw [List.mem_singleton.1 hu]; exact key_phoneish hc hph
  suffices k : (∀ u ∈ q.2, Key u) ∧ (((s ++ [c]).head? = some 0xFF0B ∧ Wide (metaFor C region) q.1) ∨
      ((s ++ [c]).head? ≠ some 0xFF0B ∧ Cell q.1)) by
    refine ⟨hT', hclean, k.1, fun h => absurd h (by simp), ?_⟩
    rcases k.2 with ⟨k1, k2⟩ | ⟨k1, k2⟩
    · exact .inl ⟨k1, k2.output _⟩
    · exact .inr ⟨k1, k2.output _⟩
  have hcases : (a.able = false ∧ unableStep C T = .ok q) ∨ (a.able = true ∧ ableStep C T ((a.noted c r).accrue c r).2 = .ok q) := by
    rcases inputCore_cases h with ⟨h1, _⟩ | ⟨_, h2, hq⟩ | ⟨_, h2, hq⟩
    · rw [hph'] at h1; cases h1
    · exact .inl ⟨h2, hTa ▸ hq⟩
    · exact .inr ⟨h2, hTa ▸ hq⟩
  have hrune : rune c = c := by unfold rune badBase; split <;> omega
  have h43 : c = 43 → s = [] := by
    rintro rfl
    rcases hph with ⟨v, hv⟩ | ⟨hf, _⟩
    · have := (charDigit_iff 43 _).2 ⟨v, hv, rfl⟩
      exact absurd this (by rw [show charDigit 43 = none by decide +kernel]; simp)
    · cases s with
      | nil => rfl
      | cons => cases hf
  rcases hd.state with ⟨hhead, hwide⟩ | ⟨hhead, hcell⟩
  · have hs0 : s ≠ [] := by rintro rfl; cases hhead
    rcases hcases with ⟨_, hq⟩ | ⟨h1, _⟩
    · have hc43 : c ≠ 43 := fun e => hs0 (h43 e)
      obtain ⟨p1, p2, _⟩ := taken_other a r hc43
      rw [hTa] at p1 p2
      obtain ⟨t, ht⟩ := hwide.plain
      have hwT : Wide (metaFor C region) T :=
        ⟨⟨t ++ [(charDigit c).getD c], by rw [p1, ht]; rfl⟩, by rw [p1, p2, hwide.nn], by rw [e7]; exact hwide.ndd,
          by rw [e2]; exact hwide.able, by rw [e8]; exact hwide.metadata⟩
      obtain ⟨k1, k2⟩ := wide_later hw hq hwT
      exact ⟨by rw [k2, hacc]; exact hkeys, .inl ⟨by rw [head_snoc c hs0]; exact hhead, k1⟩⟩
    · rw [hwide.able] at h1; cases h1
  · by_cases hwd : c = 0xFF0B
    · -- a full-width plus sign typed first
      have hs0 : s = [] := by
        rcases hph with ⟨v, hv⟩ | ⟨hf, _⟩
        · rw [hwd] at hv
          have := (charDigit_iff 0xFF0B _).2 ⟨v, hv, rfl⟩
          exact absurd this (by rw [show charDigit 0xFF0B = none by decide +kernel]; simp)
        · cases s with
          | nil => rfl
          | cons => cases hf
      have hn := hd.fresh hs0
      subst hs0
      obtain ⟨p1, p2, _⟩ := taken_other a r (c := c) (by rw [hwd]; decide)
      rw [hTa] at p1 p2
      have hcd : (charDigit c).getD c = 0xFF0B := by rw [hwd]; decide +kernel
      rcases hcases with ⟨h1, _⟩ | ⟨_, hq⟩
      · rw [hn] at h1; cases h1
      · obtain ⟨k1, k2⟩ := wide_first hw hq (by rw [p1, hcd, hn]; rfl) (by rw [p2, hcd, hn]; rfl) (by rw [e8, hn]; rfl)
          (by rw [e4, hn]; rfl) (by rw [e9, hn]; rfl)
        exact ⟨by rw [k2, hacc]; exact hkeys, .inl ⟨by rw [hwd]; rfl, k1⟩⟩
    · have hhead' : (s ++ [c]).head? ≠ some 0xFF0B := by
        cases s with
        | nil => simpa using hwd
        | cons => simpa using hhead
      suffices k : Shown q from ⟨k.out, .inr ⟨hhead', k.cell⟩⟩
      have hv : (c = 43 ∧ s = []) ∨ (c ≠ 43 ∧ isDig ((charDigit c).getD c) = true) := by
        by_cases hc43 : c = 43
        · exact .inl ⟨hc43, h43 hc43⟩
        · refine .inr ⟨hc43, ?_⟩
          rcases hph with ⟨v, hv⟩ | ⟨_, hp⟩
          · have e := (charDigit_iff c (48 + v)).2 ⟨v, hv, rfl⟩
            rw [e]
            obtain ⟨_, _, _, _, rfl⟩ := hv
            simp only [Option.getD_some, isDig, Bool.and_eq_true, decide_eq_true_eq]
            omega
          · rcases hp with hp | hp
            · exact absurd hp hc43
            · exact absurd hp hwd
      have hcT : Cell T ∧ (isDig ((a.noted c r).accrue c r).2 = true ∨ blen T.plain < 3) := by
        have hmk : PlainOk T.plain → (∀ u ∈ T.nn, isDig u = true) → Cell T := fun h1 h2 =>
          ⟨by rw [e1]; exact hkeys, h1, h2, by rw [e7]; exact hcell.ndd, by rw [e6]; exact hcell.pre, by rw [e5]; exact hcell.tmpl,
            by rw [e5, e11]; exact hcell.filled, by rw [e8]; exact hcell.metadata, by rw [e4]; exact hcell.forms⟩
        rcases hv with ⟨rfl, hs0⟩ | ⟨hc43, hdig⟩
        · obtain ⟨p1, p2⟩ := taken_plus a r
          rw [hTa] at p1 p2
          have hn := hd.fresh hs0
          have hp0 : T.plain = [43] := by rw [p1, hn]; rfl
          refine ⟨hmk ?_ (by rw [p2]; exact hcell.nn), .inr (by rw [hp0]; decide)⟩
          rw [hp0]
          intro i u hi
          cases i with
          | zero => exact .inr ⟨rfl, by simpa using hi.symm⟩
          | succ i => simp at hi
        · obtain ⟨p1, p2, p3⟩ := taken_other a r hc43
          rw [hTa] at p1 p2
          refine ⟨hmk ?_ ?_, .inl (by rw [p3]; exact hdig)⟩
          · rw [p1]
            intro i u hi
            by_cases hil : i < a.plain.length
            · rw [List.getElem?_append_left hil] at hi
              exact hcell.plain i u hi
            · rw [List.getElem?_append_right (by omega)] at hi
              have := List.mem_of_getElem? hi
              rw [List.mem_singleton.1 this]
              exact .inl hdig
          · rw [p2]
            intro u hu
            rcases List.mem_append.1 hu with hu | hu
            · exact hcell.nn u hu
            · rw [List.mem_singleton.1 hu]; exact hdig
      rcases hcases with ⟨_, hq⟩ | ⟨_, hq⟩
      · exact unableStep_cell hC hq hcT.1
      · exact ableStep_cell hC hq hcT.1 hcT.2

/-- Everything shown while digits and a leading plus sign are typed is a key. -/
theorem keys_calls {C : Container} (hC : LitsOk C) {region : Str} (hw : wideOk (metaFor C region) = true) {ks : List Call} {a : Aytf}
    (h : calls C (new C region) ks = .ok a) (hp : PhoneInput (typed ks)) :
    (∀ u ∈ a.currentOutput, Key u) ∧ ∀ u ∈ typed ks, Key u := by
  have key : Home C region a ∧ (∀ u ∈ typed ks, u < 0x110000) ∧ (PhoneInput (typed ks) → Chars C region (typed ks) a) := by
    refine calls_induct (P := fun s a => Home C region a ∧ (∀ u ∈ s, u < 0x110000) ∧ (PhoneInput s → Chars C region s a)) ?_ ?_ (s := [])
      ⟨⟨rfl, rfl⟩, fun u hu => (by cases hu), fun _ => chars_fresh hC region⟩ h
    · intro s a ⟨ha, _⟩
      rw [clear_eq_new ha]
      exact ⟨⟨rfl, rfl⟩, fun u hu => (by cases hu), fun _ => chars_fresh hC region⟩
    · intro s a c r q ⟨ha, hlt, hd⟩ hc hq
      refine ⟨home_step ha hq, ?_, fun hp => ?_⟩
      · intro u hu
        rcases List.mem_append.1 hu with hu | hu
        · exact hlt u hu
        · rw [List.mem_singleton.1 hu]; exact hc
      · obtain ⟨hp1, hp2⟩ := phoneInput_split hp
        exact chars_step hC hw (hd hp1) hc hp2 hq hp1 hlt
  exact ⟨(key.2.2 hp).out, keys_typed key.2.1 hp⟩

/-! ## Reading what is shown -/

theorem sep_semi : ∀ c ∈ sepCodes, c ≠ 59 := by decide

theorem separator_quiet {u : Nat} (h : isSeparator u = true) : isStart u = false ∧ u ≠ 59 := by
  have hm := separator_mem h
  refine ⟨?_, ?_⟩
  · have h1 : isPlus u = false := by
      rw [Bool.eq_false_iff]
      exact fun hp => sep_not_plus _ hm (isPlus_iff.1 hp)
    have h2 := separator_not_decimal h
    unfold isDecimal at h2
    unfold isStart
    rw [h1, h2]; rfl
  · rintro rfl
    exact sep_semi _ hm rfl

theorem charDigit_isDig {c v : Nat} (h : charDigit c = some v) : isDig v = true := by
  obtain ⟨w, h1, rfl⟩ := (charDigit_iff _ _).1 h
  obtain ⟨_, _, _, _, rfl⟩ := h1
  simp only [isDig, Bool.and_eq_true, decide_eq_true_eq]
  omega

theorem isPlus_dial {u : Nat} (h : isPlus u = true) : dialOf u = some 43 := by
  have hp := isPlus_iff.1 h
  have hi : IsPlus u := by
    unfold rune at hp
    split at hp
    · simp only [plusL, List.mem_cons, List.not_mem_nil, or_false] at hp
      rcases hp with rfl | rfl
      · exact .inl rfl
      · exact .inr rfl
    · exact absurd hp (by decide)
  have hd : charDigit (rune u) = none := by
    have : ∀ c ∈ plusL, charDigit c = none := by decide +kernel
    exact this _ hp
  unfold dialOf
  rw [hd]
  dsimp only
  rw [if_pos hi]

/-- Without plus signs, what is dialled is the digits. -/
theorem transcript_dial {b : Str} (hk : ∀ u ∈ b, isDecimal u = true ∨ isSeparator u = true) (hd : ∀ v ∈ dial b, isDig v = true) :
    DigitTranscript b (dial b) := by
  induction b with
  | nil => exact .nil
  | cons u b ih =>
    have hk' : ∀ u ∈ b, isDecimal u = true ∨ isSeparator u = true := fun v hv => hk v (List.mem_cons_of_mem _ hv)
    have hd' : ∀ v ∈ dial b, isDig v = true := by
      intro v hv
      refine hd v ?_
      rw [show u :: b = [u] ++ b from rfl, dial_append]
      exact List.mem_append_right _ hv
    have ih := ih hk' hd'
    cases hu : charDigit (rune u) with
    | some v =>
      obtain ⟨w, h1, rfl⟩ := (charDigit_iff _ _).1 hu
      have : dialOf u = some (48 + w) := by unfold dialOf; rw [hu]
      rw [dial, List.filterMap_cons_some this]
      exact .digit h1 ih
    | none =>
      have h1 := (charDigit_none_iff _).1 hu
      have : dialOf u = none := by
        cases hx : dialOf u with
        | none => rfl
        | some v =>
          exfalso
          have hv := hd v (by rw [dial, List.filterMap_cons_some hx]; exact List.mem_cons_self ..)
          unfold dialOf at hx
          rw [hu] at hx
          dsimp only at hx
          split at hx
          · obtain rfl := Option.some.inj hx
            exact absurd hv (by decide)
          · split at hx
            · rename_i hs
              obtain rfl := Option.some.inj hx
              rcases hs with rfl | rfl <;> exact absurd hv (by decide)
            · cases hx
      rw [dial, List.filterMap_cons_none this]
      exact .other h1 ih

/-- The list up to the last element with a property, and the rest. -/
theorem split_last (p : Nat → Bool) : ∀ {l : Str}, (∃ u ∈ l, p u = true) → ∃ t u back, l = t ++ [u] ++ back ∧ p u = true ∧
    ∀ v ∈ back, p v = false
  | [], h => by obtain ⟨u, hu, _⟩ := h; cases hu
  | x :: l, h => by
    by_cases hl : ∃ u ∈ l, p u = true
    · obtain ⟨t, u, back, rfl, h1, h2⟩ := split_last p hl
      exact ⟨x :: t, u, back, rfl, h1, h2⟩
    · refine ⟨[], x, l, rfl, ?_, fun v hv => ?_⟩
      · obtain ⟨u, hu, h1⟩ := h
        rcases List.mem_cons.1 hu with rfl | hu
        · exact h1
        · exact absurd ⟨u, hu, h1⟩ hl
      · rw [Bool.eq_false_iff]
        exact fun h3 => hl ⟨v, hv, h3⟩

theorem dial_back {b : Str} (h : ∀ v ∈ b, isDecimal v = false) (hk : ∀ u ∈ b, isDecimal u = true ∨ isSeparator u = true)
    (hd : ∀ v ∈ dial b, isDig v = true) : dial b = [] := by
  have ht := transcript_length (transcript_dial hk hd)
  rw [List.filter_eq_nil_iff.2 (fun v hv => by simp [h v hv])] at ht
  exact List.length_eq_zero_iff.1 ht

/-- A text of digits, plus signs and separators that dials digits after an optional plus sign says a number. -/
theorem numberText_of_keys {s : Str} (hk : ∀ u ∈ s, Key u) (hp : PlainOk (dial s)) {ds : Str} {plus : Bool}
    (hd : dial s = (if plus then [43] else []) ++ ds) (hds : ∀ u ∈ ds, isDig u = true) (h3 : 3 ≤ ds.length) (hb : blen s ≤ 250) :
    NumberText s plus ds := by
  refine ⟨?_, h3, hb⟩
  -- the part before the first plus sign or digit
  have hf : ∀ u ∈ s.takeWhile (fun u => !isStart u), isStart u = false ∧ isSeparator u = true := by
    intro u hu
    have h1 : isStart u = false := by simpa using List.all_eq_true.1 List.all_takeWhile u hu
    refine ⟨h1, ?_⟩
    unfold isStart at h1
    rw [Bool.or_eq_false_iff] at h1
    rcases hk u ((List.takeWhile_prefix _).subset hu) with h2 | h2 | h2
    · unfold isDecimal at h2; rw [h1.2] at h2; cases h2
    · rw [h1.1] at h2; cases h2
    · exact h2.1
  have hsplit := List.takeWhile_append_dropWhile (p := fun u => !isStart u) (l := s)
  generalize s.takeWhile (fun u => !isStart u) = front at hf hsplit
  have hhead : ∀ u t, s.dropWhile (fun u => !isStart u) = u :: t → isStart u = true := by
    intro u t h
    have := List.head?_dropWhile_not (fun u => !isStart u) s
    rw [h] at this
    simpa using this
  generalize s.dropWhile (fun u => !isStart u) = rest at hsplit hhead
  subst hsplit
  have hfd : dial front = [] := by
    unfold dial
    rw [List.filterMap_eq_nil_iff]
    intro u hu
    cases hx : dialOf u with
    | none => rfl
    | some v =>
      exfalso
      obtain ⟨i, hi⟩ := List.mem_iff_getElem?.1 (show v ∈ dial (front ++ rest) by
        rw [dial_append]; exact List.mem_append_left _ (List.mem_filterMap.2 ⟨u, hu, hx⟩))
      have hdec := separator_not_decimal (hf u hu).2
      have hcd : charDigit (rune u) = none := by
        rw [charDigit_none_iff]
        intro v hv
        have := (decimal_iff u).2 ⟨v, hv⟩
        rw [hdec] at this; cases this
      have hst := (hf u hu).1
      unfold dialOf at hx
      rw [hcd] at hx
      dsimp only at hx
      split at hx
      · rename_i hpl
        have : isPlus u = true := by rcases hpl with rfl | rfl <;> decide
        unfold isStart at hst
        rw [this] at hst; cases hst
      · split at hx
        · rename_i hs
          obtain rfl := Option.some.inj hx
          rcases hp i u hi with h1 | ⟨_, h1⟩
          · rcases hs with rfl | rfl <;> exact absurd h1 (by decide)
          · rcases hs with rfl | rfl <;> exact absurd h1 (by decide)
        · cases hx
  rw [dial_append, hfd, List.nil_append] at hd
  have hkr : ∀ u ∈ rest, Key u := fun u hu => hk u (List.mem_append_right _ hu)
  have noplus : ∀ {t : Str}, (∀ v ∈ dial t, isDig v = true) → ∀ u ∈ t, isPlus u = false := by
    intro t ht u hu
    rw [Bool.eq_false_iff]
    intro h
    exact absurd (ht 43 (List.mem_filterMap.2 ⟨u, hu, isPlus_dial h⟩)) (by decide)
  have hbody : ∀ {t : Str}, (∀ u ∈ t, Key u) → (∀ v ∈ dial t, isDig v = true) → ∀ u ∈ t, isDecimal u = true ∨ isSeparator u = true := by
    intro t ht hd u hu
    rcases ht u hu with h | h | h
    · exact .inl h
    · rw [noplus hd u hu] at h; cases h
    · exact .inr h.1
  -- splitting off what follows the last digit
  have hlast : ∀ t : Str, (∀ u ∈ t, Key u) → dial t = ds → ∃ body back, t = body ++ back ∧
      (∀ u ∈ body, isDecimal u = true ∨ isSeparator u = true) ∧ (∃ t u, body = t ++ [u] ∧ isDecimal u = true) ∧
      DigitTranscript body ds ∧ (∀ u ∈ back, isEnd u = false ∧ u ≠ ';'.toNat) ∧ (∀ u t', t = u :: t' → isDecimal u = true →
        ∃ t'', body = u :: t'') := by
    intro t hkt hdt
    have hdd : ∀ v ∈ dial t, isDig v = true := by rw [hdt]; exact hds
    have hb := hbody hkt hdd
    have hex : ∃ u ∈ t, isDecimal u = true := by
      have := transcript_length (transcript_dial hb hdd)
      rw [hdt] at this
      have h4 : 0 < (t.filter isDecimal).length := by omega
      obtain ⟨u, hu⟩ := List.exists_mem_of_length_pos h4
      exact ⟨u, (List.mem_filter.1 hu).1, (List.mem_filter.1 hu).2⟩
    obtain ⟨x, u, back, rfl, h1, h2⟩ := split_last isDecimal hex
    have hbb : ∀ v ∈ back, isDecimal v = true ∨ isSeparator v = true := fun v hv => hb v (List.mem_append_right _ hv)
    have hbd : dial back = [] := dial_back h2 hbb (fun v hv => hdd v (by rw [dial_append]; exact List.mem_append_right _ hv))
    refine ⟨x ++ [u], back, rfl, fun v hv => hb v (List.mem_append_left _ hv), ⟨x, u, rfl, h1⟩, ?_, ?_, ?_⟩
    · rw [dial_append, hbd, List.append_nil] at hdt
      have := transcript_dial (b := x ++ [u]) (fun v hv => hb v (List.mem_append_left _ hv)) (by rw [hdt]; exact hds)
      rw [hdt] at this
      exact this
    · intro v hv
      have hs : isSeparator v = true := (hbb v hv).resolve_left (by rw [h2 v hv]; simp)
      refine ⟨?_, (separator_quiet hs).2⟩
      rcases hkt v (List.mem_append_right _ hv) with h | h | h
      · rw [h2 v hv] at h; cases h
      · rw [noplus hdd v (List.mem_append_right _ hv)] at h; cases h
      · exact h.2
    · intro w t' hw hdw
      cases x with
      | nil =>
        simp only [List.nil_append, List.cons_append, List.cons.injEq] at hw
        exact ⟨[], by rw [hw.1]; rfl⟩
      | cons y x =>
        simp only [List.cons_append, List.cons.injEq] at hw
        exact ⟨x ++ [u], by rw [hw.1]; rfl⟩
  have hfr : ∀ u ∈ front, isStart u = false ∧ u ≠ ';'.toNat := fun u hu => ⟨(hf u hu).1, (separator_quiet (hf u hu).2).2⟩
  cases plus with
  | true =>
    cases rest with
    | nil => simp [dial] at hd
    | cons u t =>
      have hst := hhead u t rfl
      have hpu : isPlus u = true := by
        unfold isStart at hst
        rw [Bool.or_eq_true] at hst
        rcases hst with h | h
        · exact h
        · exfalso
          have hdu : isDecimal u = true := h
          obtain ⟨v, hv⟩ := (decimal_iff u).1 hdu
          have e := (charDigit_iff _ _).2 ⟨v, hv, rfl⟩
          have : dialOf u = some (48 + v) := by unfold dialOf; rw [e]
          rw [dial, List.filterMap_cons_some this] at hd
          simp only [if_true, List.cons_append, List.cons.injEq] at hd
          omega
      rw [dial, List.filterMap_cons_some (isPlus_dial hpu)] at hd
      simp only [if_true, List.cons_append, List.nil_append, List.cons.injEq, true_and] at hd
      obtain ⟨body, back, rfl, h1, h2, h4, h5, _⟩ := hlast t (fun v hv => hkr v (List.mem_cons_of_mem _ hv)) hd
      refine ⟨front, [u], body, back, by simp, hfr, ?_, by simp, h1, by simp, h2, h4, h5⟩
      intro v hv
      rw [List.mem_singleton.1 hv]; exact hpu
  | false =>
    simp only [Bool.false_eq_true, if_false, List.nil_append] at hd
    obtain ⟨body, back, e, h1, h2, h4, h5, h6⟩ := hlast rest hkr hd
    refine ⟨front, [], body, back, by rw [e]; simp, hfr, fun v hv => (by cases hv), by simp, h1, fun _ => ?_, h2, h4, h5⟩
    cases rest with
    | nil =>
      rw [show dial [] = [] from rfl] at hd
      rw [← hd] at h3
      simp at h3
    | cons u t =>
      have hst := hhead u t rfl
      unfold isStart at hst
      rw [Bool.or_eq_true] at hst
      have hdu : isDecimal u = true := by
        rcases hst with h | h
        · rw [noplus (by rw [hd]; exact hds) u (List.mem_cons_self ..)] at h; cases h
        · exact h
      obtain ⟨t'', ht⟩ := h6 u t rfl hdu
      exact ⟨u, t'', ht, hdu⟩

end Verif.Aytf
