import Verif.Spec.Aytf
import Verif.Lemmas.Builder
import Verif.Lemmas.Normalize
import Verif.Lemmas.Viable
/-!
# The as-you-type formatter: what each step leaves alone
-/
namespace Verif.Aytf
open Verif.Builder (bind_ok)

/-- The fields that only the input of a character and `Clear` change. -/
structure Frame (a b : Aytf) : Prop where
  accrued : b.accrued = a.accrued
  plain : b.plain = a.plain
  hasFmt : b.hasFmt = a.hasFmt
  defaultCountry : b.defaultCountry = a.defaultCountry
  defaultMeta : b.defaultMeta = a.defaultMeta
  originalPos : b.originalPos = a.originalPos
  rememberPos : b.rememberPos = a.rememberPos

/-- The fields that choosing and filling templates leaves alone. -/
structure FrameT (a b : Aytf) : Prop extends Frame a b where
  pre : b.pre = a.pre
  ndd : b.ndd = a.ndd
  nn : b.nn = a.nn
  currentMeta : b.currentMeta = a.currentMeta
  complete : b.complete = a.complete
  expecting : b.expecting = a.expecting

theorem Frame.rfl {a : Aytf} : Frame a a := ⟨.refl _, .refl _, .refl _, .refl _, .refl _, .refl _, .refl _⟩

theorem Frame.trans {a b c : Aytf} (h : Frame a b) (k : Frame b c) : Frame a c :=
  ⟨k.1.trans h.1, k.2.trans h.2, k.3.trans h.3, k.4.trans h.4, k.5.trans h.5, k.6.trans h.6, k.7.trans h.7⟩

theorem FrameT.rfl {a : Aytf} : FrameT a a := ⟨.rfl, .refl _, .refl _, .refl _, .refl _, .refl _, .refl _⟩

theorem FrameT.trans {a b c : Aytf} (h : FrameT a b) (k : FrameT b c) : FrameT a c :=
  ⟨h.1.trans k.1, k.2.trans h.2, k.3.trans h.3, k.4.trans h.4, k.5.trans h.5, k.6.trans h.6, k.7.trans h.7⟩

theorem createLoop_frame (fs : List NumberFormat) (a : Aytf) : FrameT a (createLoop a fs).1 := by
  induction fs generalizing a with
  | nil => exact ⟨⟨.refl _, .refl _, .refl _, .refl _, .refl _, .refl _, .refl _⟩, .refl _, .refl _, .refl _, .refl _, .refl _, .refl _⟩
  | cons f fs ih =>
    unfold createLoop
    split
    · exact ⟨⟨.refl _, .refl _, .refl _, .refl _, .refl _, .refl _, .refl _⟩, .refl _, .refl _, .refl _, .refl _, .refl _, .refl _⟩
    · dsimp only
      split
      · exact ⟨⟨.refl _, .refl _, .refl _, .refl _, .refl _, .refl _, .refl _⟩, .refl _, .refl _, .refl _, .refl _, .refl _, .refl _⟩
      · have := ih { a with template := [] }
        exact ⟨⟨this.1.1, this.1.2, this.1.3, this.1.4, this.1.5, this.1.6, this.1.7⟩, this.2, this.3, this.4, this.5, this.6, this.7⟩

theorem createTemplate_frame (a : Aytf) : FrameT a a.createTemplate.1 := createLoop_frame _ _

theorem digitHelper_frame (a : Aytf) (c : Nat) : FrameT a (a.digitHelper c).1 := by
  unfold digitHelper
  split
  · exact ⟨⟨.refl _, .refl _, .refl _, .refl _, .refl _, .refl _, .refl _⟩, .refl _, .refl _, .refl _, .refl _, .refl _, .refl _⟩
  · exact ⟨⟨.refl _, .refl _, .refl _, .refl _, .refl _, .refl _, .refl _⟩, .refl _, .refl _, .refl _, .refl _, .refl _, .refl _⟩

theorem formatAccruedLoop_frame (fs : List NumberFormat) (a : Aytf) : FrameT a (formatAccruedLoop a fs).1 := by
  induction fs generalizing a with
  | nil => exact .rfl
  | cons f fs ih =>
    unfold formatAccruedLoop
    split
    · dsimp only
      split
      · exact ⟨⟨.refl _, .refl _, .refl _, .refl _, .refl _, .refl _, .refl _⟩, .refl _, .refl _, .refl _, .refl _, .refl _, .refl _⟩
      · have := ih { a with addSpace := nationalPrefixSeparators.isMatch f.npRule }
        exact ⟨⟨this.1.1, this.1.2, this.1.3, this.1.4, this.1.5, this.1.6, this.1.7⟩, this.2, this.3, this.4, this.5, this.6, this.7⟩
    · exact ih a

theorem formatAccrued_frame (a : Aytf) : FrameT a a.formatAccrued.1 := formatAccruedLoop_frame _ _

theorem inputBytes_frame (bs : List Nat) (a : Aytf) (out : Str) : FrameT a (inputBytes a bs out).1 := by
  induction bs generalizing a out with
  | nil => exact .rfl
  | cons b bs ih => exact (digitHelper_frame a b).trans (ih _ _)

theorem inputAccrued_frame (a : Aytf) : FrameT a a.inputAccrued.1 := by
  unfold inputAccrued
  split
  · exact .rfl
  · exact inputBytes_frame _ _ _

theorem getAvailable_frame {a b : Aytf} {d : Str} (h : a.getAvailable d = .ok b) : ∃ fs, b = { a with formats := fs } := by
  unfold getAvailable at h
  obtain ⟨fs, _, h⟩ := bind_ok.1 h
  exact ⟨fs, (Except.ok.inj h).symm⟩

theorem FrameT.formats (a : Aytf) (fs : List NumberFormat) : FrameT a { a with formats := fs } :=
  ⟨⟨.refl _, .refl _, .refl _, .refl _, .refl _, .refl _, .refl _⟩, .refl _, .refl _, .refl _, .refl _, .refl _, .refl _⟩

theorem choosePattern_frame {a : Aytf} {p : Aytf × Str} (h : a.choosePattern = .ok p) : FrameT a p.1 := by
  unfold choosePattern at h
  split at h
  · obtain ⟨a1, h1, h⟩ := bind_ok.1 h
    obtain ⟨fs, rfl⟩ := getAvailable_frame h1
    have f1 := (FrameT.formats a fs).trans (formatAccrued_frame _)
    dsimp only at h
    split at h
    · obtain rfl := Except.ok.inj h; exact f1
    · split at h
      · obtain rfl := Except.ok.inj h; exact (f1.trans (createTemplate_frame _)).trans (inputAccrued_frame _)
      · obtain rfl := Except.ok.inj h; exact f1.trans (createTemplate_frame _)
  · obtain rfl := Except.ok.inj h; exact .rfl

theorem choosePatternWithPrefix_frame {a : Aytf} {p : Aytf × Str} (h : a.choosePatternWithPrefix = .ok p) :
    Frame a p.1 ∧ p.1.pre = a.pre ∧ p.1.ndd = a.ndd ∧ p.1.nn = a.nn ∧ p.1.currentMeta = a.currentMeta ∧ p.1.complete = a.complete ∧
      p.1.expecting = false := by
  have := choosePattern_frame h
  exact ⟨⟨this.1.1, this.1.2, this.1.3, this.1.4, this.1.5, this.1.6, this.1.7⟩, this.2, this.3, this.4, this.5, this.6, this.7⟩

theorem removeNationalPrefix_frame (a : Aytf) : Frame a a.removeNationalPrefix.1 := by
  unfold removeNationalPrefix
  split
  · exact ⟨.refl _, .refl _, .refl _, .refl _, .refl _, .refl _, .refl _⟩
  · split
    · split
      · split
        · exact ⟨.refl _, .refl _, .refl _, .refl _, .refl _, .refl _, .refl _⟩
        · exact .rfl
      · exact .rfl
    · exact .rfl

theorem longerNdd_frame {a b : Aytf} {k : Bool} (h : a.longerNdd = .ok (b, k)) : Frame a b := by
  unfold longerNdd at h
  obtain ⟨a1, h1, h⟩ := bind_ok.1 h
  have f1 : Frame a a1 := by
    split at h1
    · split at h1
      · cases h1; exact ⟨.refl _, .refl _, .refl _, .refl _, .refl _, .refl _, .refl _⟩
      · cases h1
    · cases h1; exact .rfl
  cases h
  exact f1.trans (removeNationalPrefix_frame _)

theorem extractIdd_frame {a b : Aytf} {k : Bool} (h : a.extractIdd = .ok (b, k)) : Frame a b := by
  unfold extractIdd at h
  split at h
  · cases h; exact .rfl
  · split at h
    · cases h
    · cases h; exact ⟨.refl _, .refl _, .refl _, .refl _, .refl _, .refl _, .refl _⟩

theorem extractCallingCode_frame (C : Container) (a : Aytf) : Frame a (a.extractCallingCode C).1 := by
  unfold extractCallingCode
  split
  · exact .rfl
  · dsimp only
    split
    · exact .rfl
    · exact ⟨.refl _, .refl _, .refl _, .refl _, .refl _, .refl _, .refl _⟩

theorem unableStep_frame {C : Container} {a : Aytf} {p : Aytf × Str} (h : a.unableStep C = .ok p) : Frame a p.1 := by
  unfold unableStep at h
  split at h
  · obtain rfl := Except.ok.inj h; exact .rfl
  · obtain ⟨⟨r1, r2⟩, hr, h⟩ := bind_ok.1 h
    have f1 := extractIdd_frame hr
    dsimp only at h
    split at h
    · have f2 := extractCallingCode_frame C r1
      split at h
      · exact (f1.trans f2).trans (choosePatternWithPrefix_frame h).1
      · obtain rfl := Except.ok.inj h; exact f1.trans f2
    · obtain ⟨⟨q1, q2⟩, hq, h⟩ := bind_ok.1 h
      have f2 := longerNdd_frame hq
      dsimp only at h
      split at h
      · have f3 := (choosePatternWithPrefix_frame h).1
        exact (f1.trans f2).trans ⟨f3.1, f3.2, f3.3, f3.4, f3.5, f3.6, f3.7⟩
      · obtain rfl := Except.ok.inj h; exact f1.trans f2

theorem laterStep_frame {C : Container} {a : Aytf} {c : Nat} {p : Aytf × Str} (h : a.laterStep C c = .ok p) : Frame a p.1 := by
  unfold laterStep at h
  split at h
  · obtain rfl := Except.ok.inj h
    have f := extractCallingCode_frame C a
    split
    · exact ⟨f.1, f.2, f.3, f.4, f.5, f.6, f.7⟩
    · exact f
  · split at h
    · have f1 := ((digitHelper_frame a c).trans (formatAccrued_frame _)).1
      dsimp only at h
      split at h
      · obtain rfl := Except.ok.inj h; exact f1
      · obtain ⟨fs, _, h⟩ := bind_ok.1 h
        have f2 := f1.trans ((FrameT.formats (a.digitHelper c).1.formatAccrued.1 fs).trans (createTemplate_frame _)).1
        split at h
        · obtain rfl := Except.ok.inj h; exact f2.trans (inputAccrued_frame _).1
        · obtain rfl := Except.ok.inj h; exact f2
    · exact (choosePattern_frame h).1

theorem ableStep_frame {C : Container} {a : Aytf} {c : Nat} {p : Aytf × Str} (h : a.ableStep C c = .ok p) : Frame a p.1 := by
  unfold ableStep at h
  split at h
  · obtain rfl := Except.ok.inj h; exact .rfl
  · split at h
    · obtain ⟨⟨r1, r2⟩, hr, h⟩ := bind_ok.1 h
      have f1 := extractIdd_frame hr
      dsimp only at h
      split at h
      · have f2 := laterStep_frame h
        exact f1.trans ⟨f2.1, f2.2, f2.3, f2.4, f2.5, f2.6, f2.7⟩
      · have f2 := (choosePattern_frame h).1
        exact (f1.trans (removeNationalPrefix_frame _)).trans ⟨f2.1, f2.2, f2.3, f2.4, f2.5, f2.6, f2.7⟩
    · exact laterStep_frame h

/-! ## What is returned when formatting is off -/

/-- When formatting is off the output is what was typed, or a formatted text with the same diallable characters. -/
def OutOk (b : Aytf) (out : Str) : Prop := b.able = false → out = b.accrued ∨ normalizeDiallable out = b.plain

theorem formatAccruedLoop_out (fs : List NumberFormat) (a : Aytf) (h : (formatAccruedLoop a fs).2 ≠ []) :
    normalizeDiallable (formatAccruedLoop a fs).2 = (formatAccruedLoop a fs).1.plain := by
  induction fs generalizing a with
  | nil => exact absurd rfl h
  | cons f fs ih =>
    unfold formatAccruedLoop at h ⊢
    split
    · rename_i h1
      simp only [if_pos h1] at h
      dsimp only at h ⊢
      split
      · rename_i h2; exact h2
      · rename_i h2; rw [if_neg h2] at h; exact ih _ h
    · rename_i h1
      rw [if_neg h1] at h
      exact ih _ h

theorem formatAccrued_out (a : Aytf) (h : a.formatAccrued.2 ≠ []) : OutOk a.formatAccrued.1 a.formatAccrued.2 :=
  fun _ => .inr (formatAccruedLoop_out _ _ h)

theorem inputAccrued_out (a : Aytf) (h : a.nn ≠ []) : OutOk a.inputAccrued.1 a.inputAccrued.2 := by
  intro hb
  unfold inputAccrued at hb ⊢
  rw [if_neg h] at hb ⊢
  dsimp only at hb ⊢
  simp [hb]

theorem createLoop_out (fs : List NumberFormat) (a : Aytf) : (createLoop a fs).2 = true → (createLoop a fs).1.able = a.able := by
  induction fs generalizing a with
  | nil => intro h; cases h
  | cons f fs ih =>
    intro h
    unfold createLoop at h ⊢
    split
    · rfl
    · rename_i h1
      rw [if_neg h1] at h
      dsimp only at h ⊢
      split
      · rfl
      · rename_i h2; rw [if_neg h2] at h; exact ih _ h

theorem formatAccruedLoop_able (fs : List NumberFormat) (a : Aytf) : (formatAccruedLoop a fs).1.able = a.able := by
  induction fs generalizing a with
  | nil => rfl
  | cons f fs ih =>
    unfold formatAccruedLoop
    split
    · dsimp only
      split
      · rfl
      · rw [ih]
    · exact ih a

theorem nn_ne_of_blen {s : Str} (h : blen s ≥ minLeadingDigits) : s ≠ [] := by
  intro h0; subst h0; exact absurd h (by decide)

theorem choosePattern_out {a : Aytf} {p : Aytf × Str} (h : a.choosePattern = .ok p) (ha : a.able = true) : OutOk p.1 p.2 := by
  unfold choosePattern at h
  split at h
  · rename_i hn
    obtain ⟨a1, h1, h⟩ := bind_ok.1 h
    obtain ⟨fs, rfl⟩ := getAvailable_frame h1
    dsimp only at h
    split at h
    · rename_i hne
      obtain rfl := Except.ok.inj h; exact formatAccrued_out _ hne
    · split at h
      · obtain rfl := Except.ok.inj h
        refine inputAccrued_out _ ?_
        rw [(createTemplate_frame _).nn, (formatAccrued_frame _).nn]
        exact nn_ne_of_blen hn
      · obtain rfl := Except.ok.inj h; exact fun _ => .inl rfl
  · obtain rfl := Except.ok.inj h; intro hb; rw [ha] at hb; cases hb


/-! ## The invariant that holds for every container -/

theorem width_pos (u : Nat) : 1 ≤ width u := by unfold width; repeat (first | split | omega)

theorem blen_append (s t : Str) : blen (s ++ t) = blen s + blen t := by simp [blen]

theorem blen_one (u : Nat) : blen [u] = width u := by simp [blen]

/-- What choosing a pattern guarantees: the candidate formats need at least three digits. -/
theorem choosePattern_long {a : Aytf} {p : Aytf × Str} (h : a.choosePattern = .ok p) (hf : a.formats = []) :
    p.1.formats ≠ [] → 3 ≤ blen p.1.nn := by
  intro hp
  rw [(choosePattern_frame h).nn]
  unfold choosePattern at h
  split at h
  · rename_i hn; exact hn
  · obtain rfl := Except.ok.inj h
    exact absurd hf hp

/-- What holds in every reachable state, whatever the metadata. -/
structure Inv (a : Aytf) : Prop where
  fmt : a.hasFmt = true → a.able = false
  off : a.hasFmt = false → a.able = false → 3 ≤ blen a.plain
  early : a.able = true → blen a.plain < 3 → a.formats = [] ∧ a.ndd = [] ∧ a.expecting = false ∧ a.pre = [] ∧ a.template = []
  long : a.able = true → a.formats ≠ [] → 3 ≤ blen a.nn ∧ a.expecting = false
  same : a.hasFmt = false → a.accrued.length = a.plain.length
  orig : a.originalPos ≤ a.accrued.length
  rem : a.rememberPos ≤ a.plain.length

/-- What a formatting step guarantees about the new state and the output. -/
structure Post (p : Aytf × Str) : Prop where
  long : p.1.able = true → p.1.formats ≠ [] → 3 ≤ blen p.1.nn ∧ p.1.expecting = false
  out : OutOk p.1 p.2

theorem choosePattern_post {a : Aytf} {p : Aytf × Str} (h : a.choosePattern = .ok p) (ha : a.able = true) (hf : a.formats = [])
    (he : a.expecting = false) : Post p :=
  ⟨fun _ h1 => ⟨choosePattern_long h hf h1, (choosePattern_frame h).expecting.trans he⟩, choosePattern_out h ha⟩

theorem choosePatternWithPrefix_post {a : Aytf} {p : Aytf × Str} (h : a.choosePatternWithPrefix = .ok p) : Post p :=
  choosePattern_post h rfl rfl rfl

theorem unableStep_post {C : Container} {a : Aytf} {p : Aytf × Str} (h : a.unableStep C = .ok p) (ha : a.able = false) : Post p := by
  have triv : ∀ b : Aytf, b.able = false → Post (b, b.accrued) := fun b hb =>
    ⟨(fun h => by rw [hb] at h; cases h), (fun _ => .inl rfl)⟩
  unfold unableStep at h
  split at h
  · obtain rfl := Except.ok.inj h; exact triv a ha
  · obtain ⟨⟨r1, r2⟩, hr, h⟩ := bind_ok.1 h
    have a1 : r1.able = false := by
      unfold extractIdd at hr
      split at hr
      · cases hr; exact ha
      · split at hr
        · cases hr
        · cases hr; exact ha
    dsimp only at h
    split at h
    · split at h
      · exact choosePatternWithPrefix_post h
      · obtain rfl := Except.ok.inj h
        refine triv _ ?_
        unfold extractCallingCode
        split
        · exact a1
        · dsimp only; split <;> exact a1
    · obtain ⟨⟨q1, q2⟩, hq, h⟩ := bind_ok.1 h
      dsimp only at h
      split at h
      · exact choosePatternWithPrefix_post h
      · obtain rfl := Except.ok.inj h
        refine triv _ ?_
        unfold longerNdd at hq
        obtain ⟨b, hb, hq⟩ := bind_ok.1 hq
        have a2 : b.able = false := by
          split at hb
          · split at hb
            · cases hb; exact a1
            · cases hb
          · cases hb; exact a1
        cases hq
        show (b.removeNationalPrefix).1.able = false
        unfold removeNationalPrefix
        repeat (first | exact a2 | split)

theorem laterStep_post {C : Container} {a : Aytf} {c : Nat} {p : Aytf × Str} (h : a.laterStep C c = .ok p) (ha : a.able = true)
    (hl : a.formats ≠ [] → 3 ≤ blen a.nn ∧ a.expecting = false) : Post p := by
  unfold laterStep at h
  split at h
  · rename_i hex
    have hf : a.formats = [] := by
      cases hfs : a.formats with
      | nil => rfl
      | cons f fs => have := (hl (by simp [hfs])).2; rw [hex] at this; cases this
    have key : (a.extractCallingCode C).1.able = true ∧ (a.extractCallingCode C).1.formats = [] := by
      unfold extractCallingCode
      split
      · exact ⟨ha, hf⟩
      · dsimp only; split <;> exact ⟨ha, hf⟩
    obtain rfl := Except.ok.inj h
    dsimp only
    constructor
    · intro _ h2
      exfalso
      dsimp only at h2
      split at h2
      · exact h2 key.2
      · exact h2 key.2
    · intro h1
      exfalso
      dsimp only at h1
      split at h1
      · have := key.1; rw [show (a.extractCallingCode C).1.able = false from h1] at this; cases this
      · have := key.1; rw [h1] at this; cases this
  · rename_i hex
    have hex : a.expecting = false := by simpa using hex
    split at h
    · rename_i hne
      have hnn := (hl hne).1
      have g := (digitHelper_frame a c).trans (formatAccrued_frame _)
      have hnn' : 3 ≤ blen (a.digitHelper c).1.formatAccrued.1.nn := by rw [g.nn]; exact hnn
      have hex' : (a.digitHelper c).1.formatAccrued.1.expecting = false := by rw [g.expecting]; exact hex
      dsimp only at h
      split at h
      · rename_i hne'
        obtain rfl := Except.ok.inj h
        exact ⟨fun _ _ => ⟨hnn', hex'⟩, formatAccrued_out _ hne'⟩
      · obtain ⟨fs, _, h⟩ := bind_ok.1 h
        have g2 := createTemplate_frame { (a.digitHelper c).1.formatAccrued.1 with formats := fs }
        have hnn2 : 3 ≤ blen ({ (a.digitHelper c).1.formatAccrued.1 with formats := fs } : Aytf).createTemplate.1.nn := by
          rw [g2.nn]; exact hnn'
        have hex2 : ({ (a.digitHelper c).1.formatAccrued.1 with formats := fs } : Aytf).createTemplate.1.expecting = false := by
          rw [g2.expecting]; exact hex'
        generalize ({ (a.digitHelper c).1.formatAccrued.1 with formats := fs } : Aytf).createTemplate = t at h hnn2 hex2
        split at h
        · obtain rfl := Except.ok.inj h
          refine ⟨fun _ _ => ?_, inputAccrued_out _ (nn_ne_of_blen hnn2)⟩
          rw [(inputAccrued_frame _).nn, (inputAccrued_frame _).expecting]
          exact ⟨hnn2, hex2⟩
        · obtain rfl := Except.ok.inj h
          refine ⟨fun _ _ => ⟨hnn2, hex2⟩, fun hb => .inl ?_⟩
          dsimp only at hb ⊢
          simp [hb]
    · rename_i hne
      exact choosePattern_post h ha (Classical.not_not.1 hne) hex

theorem ableStep_post {C : Container} {a : Aytf} {c : Nat} {p : Aytf × Str} (h : a.ableStep C c = .ok p) (ha : a.able = true)
    (hl : a.formats ≠ [] → 3 ≤ blen a.nn ∧ a.expecting = false)
    (he : blen a.plain ≤ 3 → a.formats = [] ∧ a.expecting = false) : Post p := by
  unfold ableStep at h
  split at h
  · obtain rfl := Except.ok.inj h
    exact ⟨fun _ => hl, fun hb => by rw [ha] at hb; cases hb⟩
  · split at h
    · rename_i h3
      obtain ⟨hf, hex⟩ := he (by omega)
      obtain ⟨⟨r1, r2⟩, hr, h⟩ := bind_ok.1 h
      have a1 : r1.able = true ∧ r1.formats = [] ∧ r1.expecting = false := by
        unfold extractIdd at hr
        split at hr
        · cases hr; exact ⟨ha, hf, hex⟩
        · split at hr
          · cases hr
          · cases hr; exact ⟨ha, hf, hex⟩
      dsimp only at h
      split at h
      · exact laterStep_post h a1.1 (fun hne => absurd a1.2.1 hne)
      · have a2 : r1.removeNationalPrefix.1.able = true ∧ r1.removeNationalPrefix.1.formats = [] ∧
            r1.removeNationalPrefix.1.expecting = false := by
          unfold removeNationalPrefix
          repeat (first | exact a1 | split)
        exact choosePattern_post h a2.1 a2.2.1 a2.2.2
    · exact laterStep_post h ha hl

theorem accrue_plain (a : Aytf) (c : Nat) (r : Bool) : ∃ v, (a.accrue c r).1.plain = a.plain ++ [v] := by
  unfold accrue; by_cases hc : c = 43 <;> cases r <;> simp [hc]

theorem accrue_nn (a : Aytf) (c : Nat) (r : Bool) : ∃ t, (a.accrue c r).1.nn = a.nn ++ t := by
  unfold accrue; by_cases hc : c = 43 <;> cases r <;> simp [hc]

/-- The other fields are not changed by taking in a character. -/
theorem accrue_rest (a : Aytf) (c : Nat) (r : Bool) : (a.accrue c r).1 =
    { a with plain := (a.accrue c r).1.plain, nn := (a.accrue c r).1.nn, rememberPos := (a.accrue c r).1.rememberPos } := by
  unfold accrue; by_cases hc : c = 43 <;> cases r <;> simp [hc]

theorem accrue_rem (a : Aytf) (c : Nat) (r : Bool) (h : a.rememberPos ≤ a.plain.length) :
    (a.accrue c r).1.rememberPos ≤ (a.accrue c r).1.plain.length := by
  unfold accrue; by_cases hc : c = 43 <;> cases r <;> simp [hc] <;> omega

/-- The state after noting the typed character. -/
def noted (a : Aytf) (c : Nat) (remember : Bool) : Aytf :=
  if remember then { a with accrued := a.accrued ++ [c], originalPos := (a.accrued ++ [c]).length }
  else { a with accrued := a.accrued ++ [c] }

theorem noted_rest (a : Aytf) (c : Nat) (r : Bool) : a.noted c r =
    { a with accrued := a.accrued ++ [c], originalPos := (a.noted c r).originalPos } := by
  unfold noted; split <;> rfl

theorem inputCore_eq (C : Container) (a : Aytf) (c : Nat) (r : Bool) : a.inputCore C c r =
    if !(a.noted c r).isDigitOrLeadingPlus c then unableStep C { a.noted c r with able := false, hasFmt := true }
    else if !((a.noted c r).accrue c r).1.able then unableStep C ((a.noted c r).accrue c r).1
    else ableStep C ((a.noted c r).accrue c r).1 ((a.noted c r).accrue c r).2 := by
  unfold inputCore noted; cases r <;> rfl

/-- The state after noting the character and taking it in. -/
def taken (a : Aytf) (c : Nat) (r : Bool) : Aytf := ((a.noted c r).accrue c r).1

/-- The three ways an input can go. -/
theorem inputCore_cases {C : Container} {a : Aytf} {c : Nat} {r : Bool} {p : Aytf × Str} (h : a.inputCore C c r = .ok p) :
    ((a.noted c r).isDigitOrLeadingPlus c = false ∧
        p = ({ a.noted c r with able := false, hasFmt := true }, a.accrued ++ [c])) ∨
    ((a.noted c r).isDigitOrLeadingPlus c = true ∧ a.able = false ∧ unableStep C (a.taken c r) = .ok p) ∨
    ((a.noted c r).isDigitOrLeadingPlus c = true ∧ a.able = true ∧
        ableStep C (a.taken c r) ((a.noted c r).accrue c r).2 = .ok p) := by
  have e1 : ((a.noted c r).accrue c r).1.able = a.able := by
    rw [accrue_rest]; show (a.noted c r).able = a.able; rw [noted_rest]
  rw [inputCore_eq, e1] at h
  cases hd : (a.noted c r).isDigitOrLeadingPlus c with
  | false =>
    left
    rw [hd] at h
    simp only [Bool.not_false, if_true] at h
    unfold unableStep at h
    simp only [if_true] at h
    obtain rfl := Except.ok.inj h
    refine ⟨rfl, ?_⟩
    have : (a.noted c r).accrued = a.accrued ++ [c] := by rw [noted_rest]
    rw [← this]
  | true =>
    right
    rw [hd] at h
    simp only [Bool.not_true, Bool.false_eq_true, if_false] at h
    cases ha : a.able with
    | false => left; rw [ha] at h; exact ⟨rfl, rfl, by simpa [taken] using h⟩
    | true => right; rw [ha] at h; exact ⟨rfl, rfl, by simpa [taken] using h⟩

theorem inv_new (C : Container) (r : Str) : Inv (new C r) where
  fmt := fun h => by cases h
  off := fun _ h => by cases h
  early := fun _ _ => ⟨rfl, rfl, rfl, rfl, rfl⟩
  long := fun _ h => absurd rfl h
  same := fun _ => rfl
  orig := Nat.le_refl _
  rem := Nat.le_refl _

theorem inv_clear (C : Container) (a : Aytf) : Inv (a.clear C) where
  fmt := fun h => by cases h
  off := fun _ h => by cases h
  early := fun _ _ => ⟨rfl, rfl, rfl, rfl, rfl⟩
  long := fun _ h => absurd rfl h
  same := fun _ => rfl
  orig := Nat.le_refl _
  rem := Nat.le_refl _

theorem taken_rest (a : Aytf) (c : Nat) (r : Bool) : a.taken c r =
    { a with accrued := a.accrued ++ [c], originalPos := (a.noted c r).originalPos, plain := (a.taken c r).plain,
             nn := (a.taken c r).nn, rememberPos := (a.taken c r).rememberPos } := by
  unfold taken accrue noted; by_cases hc : c = 43 <;> cases r <;> simp [hc]

theorem taken_plain (a : Aytf) (c : Nat) (r : Bool) : ∃ v, (a.taken c r).plain = a.plain ++ [v] := by
  obtain ⟨v, h⟩ := accrue_plain (a.noted c r) c r
  exact ⟨v, by rw [taken, h, noted_rest]⟩

theorem taken_nn (a : Aytf) (c : Nat) (r : Bool) : ∃ t, (a.taken c r).nn = a.nn ++ t := by
  obtain ⟨v, h⟩ := accrue_nn (a.noted c r) c r
  exact ⟨v, by rw [taken, h, noted_rest]⟩

theorem noted_orig (a : Aytf) (c : Nat) (r : Bool) (h : a.originalPos ≤ a.accrued.length) :
    (a.noted c r).originalPos ≤ a.accrued.length + 1 := by
  unfold noted; split
  · simp
  · show a.originalPos ≤ _; omega

/-- Every input keeps the invariant, and the output is sound when formatting is off. -/
theorem inv_input {C : Container} {a : Aytf} {c : Nat} {r : Bool} {p : Aytf × Str} (hi : Inv a)
    (h : a.inputCore C c r = .ok p) :
    Inv p.1 ∧ p.1.accrued = a.accrued ++ [c] ∧ (p.1.able = false → p.2 = p.1.accrued ∨
      (p.1.hasFmt = false ∧ normalizeDiallable p.2 = p.1.plain)) := by
  have horig := noted_orig a c r hi.orig
  rcases inputCore_cases h with ⟨_, rfl⟩ | ⟨_, ha, h⟩ | ⟨_, ha, h⟩
  · have e : (a.noted c r).accrued = a.accrued ++ [c] := by rw [noted_rest]
    refine ⟨⟨fun _ => rfl, fun h => (by cases h), fun h => (by cases h), fun h => (by cases h), fun h => (by cases h), ?_, ?_⟩, e,
      fun _ => .inl e.symm⟩
    · show (a.noted c r).originalPos ≤ (a.noted c r).accrued.length
      rw [e, List.length_append]; exact horig
    · show (a.noted c r).rememberPos ≤ (a.noted c r).plain.length
      rw [noted_rest]; exact hi.rem
  all_goals
    have hrem : (a.taken c r).rememberPos ≤ (a.taken c r).plain.length := by
      refine accrue_rem _ _ _ ?_
      rw [noted_rest]; exact hi.rem
    have hT := taken_rest a c r
    obtain ⟨v, hp⟩ := taken_plain a c r
    obtain ⟨t, hn⟩ := taken_nn a c r
    have e1 : (a.taken c r).accrued = a.accrued ++ [c] := by rw [hT]
    have e2 : (a.taken c r).able = a.able := by rw [hT]
    have e3 : (a.taken c r).hasFmt = a.hasFmt := by rw [hT]
    have e4 : (a.taken c r).originalPos = (a.noted c r).originalPos := by rw [hT]
    have e5 : (a.taken c r).formats = a.formats := by rw [hT]
    have e6 : (a.taken c r).expecting = a.expecting := by rw [hT]
    have e7 : (a.taken c r).ndd = a.ndd ∧ (a.taken c r).pre = a.pre ∧ (a.taken c r).template = a.template := by rw [hT]; simp
    have hbl : blen (a.taken c r).plain = blen a.plain + width v := by rw [hp, blen_append, blen_one]
    have hw := width_pos v
    clear hT
    generalize a.taken c r = T at *
  · have f := unableStep_frame h
    have post := unableStep_post h (e2.trans ha)
    refine ⟨⟨?_, ?_, ?_, post.long, ?_, ?_, ?_⟩, f.accrued.trans e1, ?_⟩
    · intro hfm
      rw [f.hasFmt] at hfm
      unfold unableStep at h
      rw [if_pos hfm] at h
      obtain rfl := Except.ok.inj h
      exact e2.trans ha
    · intro hfm _
      have := hi.off (e3 ▸ f.hasFmt ▸ hfm) ha
      rw [f.plain, hbl]; omega
    · intro hab hb
      exfalso
      rw [f.plain, hbl] at hb
      cases hfm : a.hasFmt with
      | false => have := hi.off hfm ha; omega
      | true =>
        unfold unableStep at h
        rw [if_pos (e3.trans hfm)] at h
        obtain rfl := Except.ok.inj h
        rw [e2, ha] at hab; cases hab
    · intro hfm
      rw [f.accrued, f.plain, e1, hp, List.length_append, List.length_append, hi.same (e3 ▸ f.hasFmt ▸ hfm)]
      rfl
    · rw [f.originalPos, f.accrued, e1, e4, List.length_append]; exact horig
    · rw [f.rememberPos, f.plain]; exact hrem
    · intro hab
      cases hfm : p.1.hasFmt with
      | true =>
        unfold unableStep at h
        rw [if_pos (f.hasFmt ▸ hfm)] at h
        obtain rfl := Except.ok.inj h
        exact .inl rfl
      | false =>
        rcases post.out hab with h | h
        · exact .inl h
        · exact .inr ⟨rfl, h⟩
  · have hfm : a.hasFmt = false := by
      cases hfm : a.hasFmt with
      | false => rfl
      | true => have := hi.fmt hfm; rw [ha] at this; cases this
    have f := ableStep_frame h
    have hlong : T.formats ≠ [] → 3 ≤ blen T.nn ∧ T.expecting = false := by
      intro hne
      obtain ⟨k1, k2⟩ := hi.long ha (e5 ▸ hne)
      rw [hn, blen_append, e6]
      exact ⟨by omega, k2⟩
    have hearly : blen T.plain ≤ 3 → T.formats = [] ∧ T.expecting = false := by
      intro hb
      obtain ⟨k1, _, k3, _⟩ := hi.early ha (by omega)
      exact ⟨e5.trans k1, e6.trans k3⟩
    have post := ableStep_post h (e2.trans ha) hlong hearly
    refine ⟨⟨?_, ?_, ?_, post.long, ?_, ?_, ?_⟩, f.accrued.trans e1, ?_⟩
    · intro k; rw [f.hasFmt, e3, hfm] at k; cases k
    · intro _ hab
      rw [f.plain]
      cases Nat.lt_or_ge (blen T.plain) 3 with
      | inr h => exact h
      | inl hlt =>
        unfold ableStep at h
        rw [if_pos hlt] at h
        obtain rfl := Except.ok.inj h
        rw [e2, ha] at hab; cases hab
    · intro hab hb
      rw [f.plain] at hb
      unfold ableStep at h
      rw [if_pos hb] at h
      obtain rfl := Except.ok.inj h
      obtain ⟨k1, k2, k3, k4, k5⟩ := hi.early ha (by omega)
      exact ⟨e5.trans k1, e7.1.trans k2, e6.trans k3, e7.2.1.trans k4, e7.2.2.trans k5⟩
    · intro _
      rw [f.accrued, f.plain, e1, hp, List.length_append, List.length_append, hi.same hfm]
      rfl
    · rw [f.originalPos, f.accrued, e1, e4, List.length_append]; exact horig
    · rw [f.rememberPos, f.plain]; exact hrem
    · intro hab
      rcases post.out hab with h | h
      · exact .inl h
      · exact .inr ⟨f.hasFmt.trans (e3.trans hfm), h⟩

end Verif.Aytf
