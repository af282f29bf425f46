import Verif.Lemmas.AytfStatic
/-!
# The as-you-type formatter does not panic
-/
namespace Verif.Aytf
open Verif.Builder (bind_ok)
open Verif.Spec

/-! ## Each step returns -/

theorem ok_bind {α β : Type} (a : α) (f : α → Go β) : ((Except.ok a : Go α) >>= f) = f a := rfl

theorem keepFormat_total {d : Str} (h : 3 ≤ blen d) (f : NumberFormat) : ∃ k, keepFormat d f = .ok k := by
  unfold keepFormat
  split
  · exact ⟨_, rfl⟩
  · rename_i ld lds hl
    rw [if_neg (by unfold minLeadingDigits; omega)]
    have hlt : min (blen d - minLeadingDigits) lds.length < (ld :: lds).length := by
      simp only [List.length_cons]; omega
    rw [List.getElem?_eq_getElem hlt]
    exact ⟨_, rfl⟩

theorem narrow_total {d : Str} (h : 3 ≤ blen d) (fs : List NumberFormat) : ∃ gs, narrow d fs = .ok gs := by
  induction fs with
  | nil => exact ⟨[], rfl⟩
  | cons f fs ih =>
    obtain ⟨k, hk⟩ := keepFormat_total h f
    obtain ⟨gs, hg⟩ := ih
    exact ⟨if k then f :: gs else gs, by unfold narrow; rw [hk, hg]; rfl⟩

theorem choosePattern_total (a : Aytf) : ∃ p, a.choosePattern = .ok p := by
  unfold choosePattern
  split
  · rename_i h
    have : ∃ b, a.getAvailable a.nn = .ok b := by
      unfold getAvailable
      dsimp only
      obtain ⟨gs, hg⟩ := narrow_total (d := a.nn) h (a.formats ++ List.filter a.available
        (if a.complete = true ∧ a.ndd = [] ∧ a.currentMeta.intlFormats ≠ [] then a.currentMeta.intlFormats else a.currentMeta.formats))
      rw [hg]; exact ⟨_, rfl⟩
    obtain ⟨b, hb⟩ := this
    rw [hb, ok_bind]
    dsimp only
    split
    · exact ⟨_, rfl⟩
    · split <;> exact ⟨_, rfl⟩
  · exact ⟨_, rfl⟩

theorem laterStep_total {C : Container} {a : Aytf} (c : Nat) (h : a.expecting = true ∨ (a.formats ≠ [] → 3 ≤ blen a.nn)) :
    ∃ p, a.laterStep C c = .ok p := by
  unfold laterStep
  by_cases he : a.expecting = true
  · rw [if_pos he]; exact ⟨_, rfl⟩
  · rw [if_neg he]
    split
    · rename_i hne
      have hlen : 3 ≤ blen (a.digitHelper c).1.formatAccrued.1.nn := by
        rw [(formatAccrued_frame _).nn, (digitHelper_frame a c).nn]
        rcases h with h | h
        · exact absurd h he
        · exact h hne
      dsimp only
      split
      · exact ⟨_, rfl⟩
      · obtain ⟨gs, hg⟩ := narrow_total hlen (a.digitHelper c).1.formatAccrued.1.formats
        rw [hg, ok_bind]
        split <;> exact ⟨_, rfl⟩
    · exact choosePattern_total a

theorem extractIdd_total {a : Aytf} (h : a.plain ≠ []) : ∃ r, a.extractIdd = .ok r := by
  unfold extractIdd
  split
  · exact ⟨_, rfl⟩
  · split
    · rename_i hp; exact absurd hp h
    · exact ⟨_, rfl⟩

theorem lastIndexOf_some {p s : Str} (h : p <:+: s) : ∃ i, lastIndexOf s p = some i := by
  induction s with
  | nil =>
    have := List.infix_nil.1 h
    exact ⟨0, by unfold lastIndexOf; rw [if_pos this]⟩
  | cons u t ih =>
    unfold lastIndexOf
    cases hl : lastIndexOf t p with
    | some i => exact ⟨i + 1, rfl⟩
    | none =>
      rcases List.infix_cons_iff.1 h with h1 | h1
      · have := List.isPrefixOf_iff_prefix.2 h1
        exact ⟨0, by simp only [this]; rfl⟩
      · obtain ⟨i, hi⟩ := ih h1
        rw [hi] at hl; cases hl

/-- What keeps `ableToExtractLongerNdd` from cutting at a prefix that is not there. -/
def NddSafe (a : Aytf) : Prop :=
  a.ndd = [] ∨ (a.able = false ∧ ((iddRe a.currentMeta).atStart.find a.plain).isSome = true) ∨
    (a.ndd <:+: a.pre ∧ Cov a.currentMeta a.ndd ∧ ∀ u ∈ a.ndd, isDig u = true)

theorem unableStep_total {C : Container} {a : Aytf} (hp : a.plain ≠ []) (hn : NddSafe a) : ∃ p, a.unableStep C = .ok p := by
  unfold unableStep
  split
  · exact ⟨_, rfl⟩
  · obtain ⟨⟨b, k⟩, hr⟩ := extractIdd_total hp
    rw [hr, ok_bind]
    cases k with
    | true =>
      dsimp only
      rw [if_pos rfl]
      split
      · exact choosePattern_total _
      · exact ⟨_, rfl⟩
    | false =>
      rcases extractIdd_spec hr with ⟨_, rfl, hx⟩ | ⟨h, _⟩
      · have : ∃ q, b.longerNdd = .ok q := by
          unfold longerNdd
          by_cases hne : b.ndd = []
          · rw [if_neg (by simp [hne])]; exact ⟨_, rfl⟩
          · rw [if_pos hne]
            rcases hn with hn | ⟨_, hn⟩ | ⟨hn, _⟩
            · exact absurd hn hne
            · rw [hx] at hn; cases hn
            · obtain ⟨i, hi⟩ := lastIndexOf_some hn
              rw [hi]; exact ⟨_, rfl⟩
        obtain ⟨q, hq⟩ := this
        dsimp only
        rw [if_neg (by simp)]
        rw [hq, ok_bind]
        split
        · exact choosePattern_total _
        · exact ⟨_, rfl⟩
      · cases h

/-! ## The invariant -/

/-- From the third character on. -/
structure Safe (a : Aytf) : Prop where
  nn : ∀ u ∈ a.nn, isDig u = true
  plain : PlainOk a.plain
  metadata : formatsOk a.currentMeta = true
  ndd : NddSafe a

theorem NddSafe.frame {a b : Aytf} (h : NddSafe a) (ha : a.able = true ∨ b.able = false) (f : FrameT a b) : NddSafe b := by
  rcases h with h | ⟨h1, h2⟩ | ⟨h1, h2, h3⟩
  · exact .inl (f.ndd.trans h)
  · rcases ha with ha | ha
    · rw [ha] at h1; cases h1
    · exact .inr (.inl ⟨ha, by rw [f.currentMeta, f.plain]; exact h2⟩)
  · exact .inr (.inr ⟨by rw [f.ndd, f.pre]; exact h1, by rw [f.ndd, f.currentMeta]; exact h2, by rw [f.ndd]; exact h3⟩)

theorem Safe.frame {a b : Aytf} (h : Safe a) (ha : a.able = true ∨ b.able = false) (f : FrameT a b) : Safe b :=
  ⟨by rw [f.nn]; exact h.nn, by rw [f.plain]; exact h.plain, by rw [f.currentMeta]; exact h.metadata, h.ndd.frame ha f⟩

/-- Frame for states without an extracted prefix, whatever happens to `able`. -/
theorem Safe.frame0 {a b : Aytf} (h : Safe a) (h0 : a.ndd = []) (f : FrameT a b) : Safe b :=
  ⟨by rw [f.nn]; exact h.nn, by rw [f.plain]; exact h.plain, by rw [f.currentMeta]; exact h.metadata, .inl (f.ndd.trans h0)⟩

theorem extractCallingCode_safe {C : Container} (hC : ContOk C) {a : Aytf} (h : Safe a) :
    Safe (a.extractCallingCode C).1 ∧ ((a.extractCallingCode C).2 = true → (a.extractCallingCode C).1.ndd = []) ∧
      ((a.extractCallingCode C).2 = false → (a.extractCallingCode C).1 = a) := by
  unfold extractCallingCode
  split
  · exact ⟨h, fun h => (by cases h), fun _ => rfl⟩
  · dsimp only
    split
    · exact ⟨h, fun h => (by cases h), fun _ => rfl⟩
    · rename_i h0
      refine ⟨?_, fun _ => rfl, fun h => (by cases h)⟩
      obtain ⟨_, _, j, _, _, _, h4, _⟩ := extractCC_spec C a.nn h0
      refine ⟨?_, h.plain, ?_, .inl rfl⟩
      · show ∀ u ∈ (extractCC C a.nn).2, isDig u = true
        rw [h4]
        exact fun u hu => h.nn u (List.mem_of_mem_drop hu)
      · show formatsOk (if _ then _ else _) = true
        split
        · exact hC.nonGeo _
        · split
          · exact hC.region _
          · exact h.metadata

theorem laterStep_safe {C : Container} (hC : ContOk C) {a : Aytf} {c : Nat} {p : Aytf × Str} (h : a.laterStep C c = .ok p)
    (hs : Safe a) (ha : a.able = true) : Safe p.1 := by
  unfold laterStep at h
  split at h
  · obtain rfl := Except.ok.inj h
    obtain ⟨k1, k2, _⟩ := extractCallingCode_safe hC hs
    dsimp only
    split
    · exact ⟨k1.nn, k1.plain, k1.metadata, .inl (k2 ‹_›)⟩
    · exact k1
  · split at h
    · dsimp only at h
      have f1 := (digitHelper_frame a c).trans (formatAccrued_frame _)
      split at h
      · obtain rfl := Except.ok.inj h
        exact hs.frame (.inl ha) f1
      · obtain ⟨fs, _, h⟩ := bind_ok.1 h
        have f2 := (f1.trans (FrameT.formats _ fs)).trans (createTemplate_frame _)
        split at h
        · obtain rfl := Except.ok.inj h
          exact hs.frame (.inl ha) (f2.trans (inputAccrued_frame _))
        · obtain rfl := Except.ok.inj h
          exact hs.frame (.inl ha) f2
    · exact hs.frame (.inl ha) (choosePattern_frame h)

theorem extractIdd_safe {a b : Aytf} (h : a.extractIdd = .ok (b, true)) (hs : Safe a) (ha : a.able = false ∨ a.ndd = []) : Safe b := by
  rcases extractIdd_spec h with ⟨h1, _⟩ | ⟨_, x, hx, _, sp, hsp, rfl⟩
  · cases h1
  · refine ⟨plainOk_drop hs.plain _ ?_, hs.plain, hs.metadata, ?_⟩
    · by_cases h0 : a.plain.head? = some 43
      · right
        cases hp : a.plain with
        | nil => rw [hp] at h0; cases h0
        | cons u t =>
          rw [hp] at h0 hx
          simp only [List.head?_cons, Option.some.injEq] at h0
          subst h0
          obtain ⟨y, hy, hy1⟩ := iddRe_plus a.currentMeta t
          rw [hy] at hx
          simp only [Option.some.injEq] at hx
          rw [← hx, hy1]; exact Nat.le_refl _
      · exact .inl h0
    · rcases ha with ha | ha
      · exact .inr (.inl ⟨ha, by show ((iddRe a.currentMeta).atStart.find a.plain).isSome = true; rw [hx]; rfl⟩)
      · exact .inl ha

theorem unableStep_safe {C : Container} (hC : ContOk C) {a : Aytf} {p : Aytf × Str} (h : a.unableStep C = .ok p)
    (hs : Safe a) (ha : a.able = false) : Safe p.1 := by
  unfold unableStep at h
  split at h
  · obtain rfl := Except.ok.inj h; exact hs
  · have h0 := bind_ok.1 h
    clear h
    obtain ⟨⟨b, k⟩, hi, h⟩ := h0
    cases k with
    | true =>
      simp only [if_true] at h
      have hb := extractIdd_safe hi hs (.inl ha)
      obtain ⟨k1, k2, k3⟩ := extractCallingCode_safe hC hb
      split at h
      · rename_i h2
        have fr := choosePattern_frame h
        refine Safe.frame0 (a := _) ?_ ?_ fr
        · exact ⟨k1.nn, k1.plain, k1.metadata, .inl (k2 h2)⟩
        · exact k2 h2
      · obtain rfl := Except.ok.inj h
        exact k1
    | false =>
      simp only [Bool.false_eq_true, if_false] at h
      rcases extractIdd_spec hi with ⟨_, rfl, hx⟩ | ⟨h1, _⟩
      · obtain ⟨⟨q, k⟩, hq, h⟩ := bind_ok.1 h
        -- what removing the prefix again leaves
        have main : Safe q ∧ (q.ndd = [] ∨ (q.ndd <:+: q.pre ∧ Cov q.currentMeta q.ndd ∧ ∀ u ∈ q.ndd, isDig u = true)) := by
          unfold longerNdd at hq
          by_cases hne : b.ndd = []
          · rw [if_neg (by simp [hne])] at hq
            have := congrArg Prod.fst (Except.ok.inj hq)
            dsimp only at this
            obtain ⟨_, sp, i, _, _, r4⟩ := removeNationalPrefix_spec hs.nn
            rw [← this, r4]
            exact ⟨⟨fun u hu => hs.nn u (List.mem_of_mem_drop hu), hs.plain, hs.metadata, .inl hne⟩, .inl hne⟩
          · rw [if_pos hne] at hq
            rcases hs.ndd with hn | ⟨_, hn⟩ | ⟨hn1, hn2, hn3⟩
            · exact absurd hn hne
            · rw [hx] at hn; cases hn
            · obtain ⟨i, hidx⟩ := lastIndexOf_some hn1
              rw [hidx] at hq
              have := congrArg Prod.fst (Except.ok.inj hq)
              dsimp only at this
              have hd : ∀ u ∈ b.ndd ++ b.nn, isDig u = true := by
                intro u hu
                rcases List.mem_append.1 hu with hu | hu
                · exact hn3 u hu
                · exact hs.nn u hu
              obtain ⟨r1, sp, j, r2, r3, r4⟩ := removeNationalPrefix_spec (a := { b with nn := b.ndd ++ b.nn, pre := b.pre.take i }) hd
              rw [← this, r4]
              have hcov := hn2 b.nn hs.nn
              have hin : b.ndd <:+: b.pre.take i ++ ({ b with nn := b.ndd ++ b.nn, pre := b.pre.take i } : Aytf).removeNationalPrefix.2 ++ sp := by
                rw [r1]
                obtain ⟨y, hy⟩ := hcov
                refine ⟨b.pre.take i, y ++ sp, ?_⟩
                show _ = b.pre.take i ++ removed b.currentMeta (b.ndd ++ b.nn) ++ sp
                rw [← hy]; simp
              have key : b.ndd <:+: b.pre.take i ++ ({ b with nn := b.ndd ++ b.nn, pre := b.pre.take i } : Aytf).removeNationalPrefix.2 ++ sp ∧
                  Cov b.currentMeta b.ndd ∧ ∀ u ∈ b.ndd, isDig u = true := ⟨hin, hn2, hn3⟩
              exact ⟨⟨fun u hu => hd u (List.mem_of_mem_drop hu), hs.plain, hs.metadata, .inr (.inr key)⟩, .inr key⟩
        obtain ⟨hq1, hq2⟩ := main
        dsimp only at h
        split at h
        · have fr := choosePattern_frame h
          have key : NddSafe p.1 := by
            rcases hq2 with h0 | ⟨h1, h2, h3⟩
            · exact .inl (fr.ndd.trans h0)
            · refine .inr (.inr ⟨?_, ?_, ?_⟩)
              · rw [fr.ndd, fr.pre]
                show q.ndd <:+: q.pre ++ [32]
                obtain ⟨x, y, hxy⟩ := h1
                exact ⟨x, y ++ [32], by rw [← hxy]; simp⟩
              · rw [fr.currentMeta, fr.ndd]; exact h2
              · rw [fr.ndd]; exact h3
          exact ⟨by rw [fr.nn]; exact hq1.nn, by rw [fr.plain]; exact hq1.plain, by rw [fr.currentMeta]; exact hq1.metadata, key⟩
        · obtain rfl := Except.ok.inj h
          exact hq1
      · cases h1

/-- Before the third character. -/
structure Start (m : Metadata) (a : Aytf) : Prop where
  short : blen a.plain < 3
  able : a.able = true
  shape : a.plain = a.nn ∨ a.plain = 43 :: a.nn
  digits : ∀ u ∈ a.nn, isDig u = true
  metadata : a.currentMeta = m
  complete : a.complete = false

theorem start_plainOk {a : Aytf} (hp : a.plain = a.nn ∨ a.plain = 43 :: a.nn) (hnn : ∀ u ∈ a.nn, isDig u = true) : PlainOk a.plain := by
  intro i u hi
  rcases hp with hp | hp
  · rw [hp] at hi; exact .inl (hnn u (List.mem_of_getElem? hi))
  · rw [hp] at hi
    cases i with
    | zero => simp at hi; exact .inr ⟨rfl, hi.symm⟩
    | succ i => exact .inl (hnn u (List.mem_of_getElem? (by simpa using hi)))

/-- The step at which the third character arrives. -/
theorem firstStep_safe {C : Container} (hC : ContOk C) {a : Aytf} (c : Nat) (h3 : blen a.plain = 3) (ha : a.able = true)
    (hpre : a.pre = []) (hnd : a.ndd = []) (hf : a.formats = []) (hp : a.plain = a.nn ∨ a.plain = 43 :: a.nn)
    (hnn : ∀ u ∈ a.nn, isDig u = true) (hmo : formatsOk a.currentMeta = true) (hcov : coverOk a.currentMeta = true) :
    ∃ p, a.ableStep C c = .ok p ∧ Safe p.1 := by
  have hpo := start_plainOk hp hnn
  have hs : Safe a := ⟨hnn, hpo, hmo, .inl hnd⟩
  unfold ableStep
  rw [if_neg (by omega), if_pos h3]
  obtain ⟨⟨b, k⟩, hi⟩ := extractIdd_total (a := a) (by intro h; rw [h] at h3; cases h3)
  rw [hi]
  cases k with
  | true =>
    have hb := extractIdd_safe hi hs (.inr hnd)
    have hb' : Safe { b with expecting := true } := ⟨hb.nn, hb.plain, hb.metadata, hb.ndd⟩
    obtain ⟨p, hq⟩ := laterStep_total (C := C) (a := { b with expecting := true }) c (.inl rfl)
    refine ⟨p, hq, laterStep_safe hC hq hb' ?_⟩
    rcases extractIdd_spec hi with ⟨h1, _⟩ | ⟨_, x, hx, _, sp, hsp, rfl⟩
    · cases h1
    · exact ha
  | false =>
    rcases extractIdd_spec hi with ⟨_, rfl, hx⟩ | ⟨h1, _⟩
    · have hpn : b.plain = b.nn := by
        rcases hp with hp | hp
        · exact hp
        · rw [hp] at hx
          obtain ⟨y, hy, _⟩ := iddRe_plus b.currentMeta b.nn
          rw [hy] at hx; cases hx
      obtain ⟨r1, sp, i, r2, r3, r4⟩ := removeNationalPrefix_spec hnn
      show ∃ p, choosePattern { b.removeNationalPrefix.1 with ndd := b.removeNationalPrefix.2 } = .ok p ∧ _
      obtain ⟨p, hq⟩ := choosePattern_total { b.removeNationalPrefix.1 with ndd := b.removeNationalPrefix.2 }
      refine ⟨p, hq, ?_⟩
      have fr := choosePattern_frame hq
      refine Safe.frame (a := { b.removeNationalPrefix.1 with ndd := b.removeNationalPrefix.2 }) ?_ (.inl ?_) fr
      · refine ⟨?_, ?_, ?_, ?_⟩
        · show ∀ u ∈ b.removeNationalPrefix.1.nn, isDig u = true
          rw [r4]; exact fun u hu => hnn u (List.mem_of_mem_drop hu)
        · show PlainOk b.removeNationalPrefix.1.plain; rw [r4]; exact hpo
        · show formatsOk b.removeNationalPrefix.1.currentMeta = true; rw [r4]; exact hmo
        · by_cases hq0 : b.removeNationalPrefix.2 = []
          · exact .inl hq0
          · refine .inr (.inr ⟨?_, ?_, ?_⟩)
            · show b.removeNationalPrefix.2 <:+: b.removeNationalPrefix.1.pre
              rw [r4]
              exact ⟨b.pre, sp, rfl⟩
            · show Cov b.removeNationalPrefix.1.currentMeta b.removeNationalPrefix.2
              rw [r4]
              show Cov b.currentMeta b.removeNationalPrefix.2
              rw [r1]
              refine coverOk_spec hcov ?_ hnn (r1 ▸ hq0)
              rw [← blen_digits hnn, ← hpn]; exact h3
            · intro u hu
              exact hnn u (by rw [r3]; exact List.mem_append_left _ hu)
      · show b.removeNationalPrefix.1.able = true; rw [r4]; exact ha
    · cases h1

/-- Reachable states. -/
structure Live (C : Container) (region : Str) (a : Aytf) : Prop where
  inv : Inv a
  home : Home C region a
  state : a.hasFmt = true ∨ Wide (metaFor C region) a ∨ Start (metaFor C region) a ∨ (3 ≤ blen a.plain ∧ Safe a)

theorem live_new (C : Container) (region : Str) : Live C region (new C region) :=
  ⟨inv_new C region, ⟨rfl, rfl⟩, .inr (.inr (.inl ⟨(by decide : blen [] < 3), rfl, .inl rfl, fun u hu => (by cases hu), rfl, rfl⟩))⟩

theorem Safe.output {a : Aytf} (h : Safe a) (o : Str) : Safe { a with currentOutput := o } := ⟨h.nn, h.plain, h.metadata, h.ndd⟩

theorem Start.output {m : Metadata} {a : Aytf} (h : Start m a) (o : Str) : Start m { a with currentOutput := o } :=
  ⟨h.short, h.able, h.shape, h.digits, h.metadata, h.complete⟩

theorem live_step {C : Container} (hC : ContOk C) {region : Str} (hw : wideOk (metaFor C region) = true)
    (hcov : coverOk (metaFor C region) = true) {a : Aytf} (hl : Live C region a) {c : Nat} (hc : c < 0x110000) (r : Bool) :
    ∃ q, a.inputCore C c r = .ok q ∧ Live C region { q.1 with currentOutput := q.2 } := by
  suffices k : ∃ q, a.inputCore C c r = .ok q ∧
      (q.1.hasFmt = true ∨ Wide (metaFor C region) q.1 ∨ Start (metaFor C region) q.1 ∨ (3 ≤ blen q.1.plain ∧ Safe q.1)) by
    obtain ⟨q, h1, h2⟩ := k
    refine ⟨q, h1, (inv_input hl.inv h1).1.output _, home_step hl.home h1, ?_⟩
    rcases h2 with h | h | h | ⟨h, h'⟩
    · exact .inl h
    · exact .inr (.inl (h.output _))
    · exact .inr (.inr (.inl (h.output _)))
    · exact .inr (.inr (.inr ⟨h, h'.output _⟩))
  rw [inputCore_eq]
  cases hph : (a.noted c r).isDigitOrLeadingPlus c with
  | false => exact ⟨_, rfl, .inl rfl⟩
  | true =>
    simp only [Bool.not_true, Bool.false_eq_true, if_false]
    show ∃ q, (if (!(a.taken c r).able) = true then unableStep C (a.taken c r) else
      ableStep C (a.taken c r) ((a.noted c r).accrue c r).2) = .ok q ∧ _
    have hrest := taken_rest a c r
    have hplus := taken_plus a r
    have hother := taken_other a (c := c) r
    have hplain := taken_plain a c r
    generalize hTa : a.taken c r = T at hrest hother hplain
    have e2 : T.able = a.able := by rw [hrest]
    have e3 : T.hasFmt = a.hasFmt := by rw [hrest]
    have e4 : T.formats = a.formats := by rw [hrest]
    have e6 : T.pre = a.pre := by rw [hrest]
    have e7 : T.ndd = a.ndd := by rw [hrest]
    have e8 : T.currentMeta = a.currentMeta := by rw [hrest]
    have e9 : T.complete = a.complete := by rw [hrest]
    have e10 : T.expecting = a.expecting := by rw [hrest]
    have hTne : T.plain ≠ [] := by
      obtain ⟨v, hv⟩ := hplain
      rw [hv]; simp
    have hph2 := (phoneish_iff hc).1 hph
    by_cases hfmt : a.hasFmt = true
    · rw [e2, hl.inv.fmt hfmt]
      simp only [Bool.not_false, if_true]
      unfold unableStep
      rw [if_pos (e3.trans hfmt)]
      exact ⟨_, rfl, .inl (e3.trans hfmt)⟩
    · have hclean : a.hasFmt = false := Bool.not_eq_true _ ▸ hfmt
      rcases hl.state with h | hwide | hst | ⟨hlong, hsafe⟩
      · exact absurd h hfmt
      · rw [e2, hwide.able]
        simp only [Bool.not_false, if_true]
        obtain ⟨q, hq⟩ := unableStep_total (C := C) hTne (.inl (e7.trans hwide.ndd))
        refine ⟨q, hq, .inr (.inl ?_)⟩
        obtain ⟨t, ht⟩ := hwide.plain
        have hc43 : c ≠ 43 := by
          rintro rfl
          rcases hph2 with ⟨v, hv⟩ | ⟨hf, _⟩
          · have := (charDigit_iff 43 _).2 ⟨v, hv, rfl⟩
            exact absurd this (by rw [show charDigit 43 = none by decide +kernel]; simp)
          · have := hl.inv.same hclean
            rw [ht] at this
            simp only [List.length_cons] at this
            rw [this] at hf; simp at hf
        obtain ⟨p1, p2, _⟩ := hother hc43
        refine (wide_later hw hq ?_).1
        exact ⟨⟨t ++ [(charDigit c).getD c], by rw [p1, ht]; rfl⟩, by rw [p1, p2, hwide.nn], by rw [e7]; exact hwide.ndd,
          by rw [e2]; exact hwide.able, by rw [e8]; exact hwide.metadata⟩
      · -- before the third character
        have hinv := hl.inv.early hst.able hst.short
        rw [e2, hst.able]
        simp only [Bool.not_true, Bool.false_eq_true, if_false]
        by_cases hplusc : IsPlus c ∧ a.accrued = []
        · obtain ⟨hpc, hacc⟩ := hplusc
          have hpl0 : a.plain = [] := by
            have := hl.inv.same hclean
            rw [hacc] at this
            exact List.length_eq_zero_iff.1 this.symm
          have hnn0 : a.nn = [] := by
            rcases hst.shape with h | h
            · rw [← h]; exact hpl0
            · rw [hpl0] at h; cases h
          rcases hpc with rfl | rfl
          · have p1' : T.plain = [43] := by rw [← hTa]; exact hplus.1.trans (by rw [hpl0]; rfl)
            have p2' : T.nn = [] := by rw [← hTa]; exact hplus.2.trans hnn0
            unfold ableStep
            rw [if_pos (by rw [p1']; decide)]
            refine ⟨_, rfl, .inr (.inr (.inl ⟨?_, e2.trans hst.able, .inr ?_, ?_, e8.trans hst.metadata, e9.trans hst.complete⟩))⟩
            · show blen T.plain < 3; rw [p1']; decide
            · show T.plain = 43 :: T.nn; rw [p1', p2']
            · intro u hu; dsimp only at hu; rw [p2'] at hu; cases hu
          · obtain ⟨p1, p2, _⟩ := hother (by decide)
            have hcd : (charDigit 0xFF0B).getD 0xFF0B = 0xFF0B := by decide +kernel
            have p1' : T.plain = [0xFF0B] := p1.trans (by rw [hpl0]; exact congrArg (fun x => [] ++ [x]) hcd)
            have p2' : T.nn = [0xFF0B] := p2.trans (by rw [hnn0]; exact congrArg (fun x => [] ++ [x]) hcd)
            have htot : ∃ q, ableStep C T ((a.noted '＋'.toNat r).accrue '＋'.toNat r).2 = .ok q := by
              unfold ableStep
              rw [if_neg (by rw [p1']; decide), if_pos (by rw [p1']; rfl)]
              obtain ⟨⟨b, k⟩, hi⟩ := extractIdd_total hTne
              rw [hi]
              rcases extractIdd_spec hi with ⟨rfl, rfl, _⟩ | ⟨_, x, hx, _⟩
              · exact choosePattern_total _
              · rw [p1', e8, hst.metadata, wide_idd hw] at hx; cases hx
            obtain ⟨q, hq⟩ := htot
            exact ⟨q, hq, .inr (.inl (wide_first hw hq p1' p2' (e8.trans hst.metadata) (e4.trans hinv.1) (e9.trans hst.complete)).1)⟩
        · have hdig : ∃ v, charDigit c = some v := by
            rcases hph2 with ⟨v, hv⟩ | ⟨h1, h2⟩
            · exact ⟨_, (charDigit_iff c _).2 ⟨v, hv, rfl⟩⟩
            · exfalso; exact hplusc ⟨h2, List.length_eq_zero_iff.1 (by simpa using h1)⟩
          obtain ⟨v, hv⟩ := hdig
          have hvd := charDigit_isDig hv
          have hc43 : c ≠ 43 := by rintro rfl; exact absurd hv (by rw [show charDigit 43 = none by decide +kernel]; simp)
          obtain ⟨p1, p2, p3⟩ := hother hc43
          rw [hv, Option.getD_some] at p1 p2
          have hshape : T.plain = T.nn ∨ T.plain = 43 :: T.nn := by
            rcases hst.shape with h | h
            · left; rw [p1, p2, h]
            · right; rw [p1, p2, h]; rfl
          have hdigits : ∀ u ∈ T.nn, isDig u = true := by
            rw [p2]; intro u hu
            rcases List.mem_append.1 hu with hu | hu
            · exact hst.digits u hu
            · rw [List.mem_singleton.1 hu]; exact hvd
          have hblen : blen T.plain = blen a.plain + 1 := by rw [p1]; exact blen_snoc_digit hvd
          by_cases hl3 : blen T.plain < 3
          · unfold ableStep
            rw [if_pos hl3]
            exact ⟨_, rfl, .inr (.inr (.inl ⟨hl3, e2.trans hst.able, hshape, hdigits, e8.trans hst.metadata, e9.trans hst.complete⟩))⟩
          · have h3 : blen T.plain = 3 := by have := hst.short; omega
            obtain ⟨q, hq, hs⟩ := firstStep_safe hC ((a.noted c r).accrue c r).2 h3 (e2.trans hst.able) (e6.trans hinv.2.2.2.1)
              (e7.trans hinv.2.1) (e4.trans hinv.1) hshape hdigits (by rw [e8, hst.metadata]; exact hC.region region)
              (by rw [e8, hst.metadata]; exact hcov)
            refine ⟨q, hq, .inr (.inr (.inr ⟨?_, hs⟩))⟩
            rw [(ableStep_frame hq).plain]; omega
      · -- from the third character on
        have hdig : ∃ v, charDigit c = some v := by
          rcases hph2 with ⟨v, hv⟩ | ⟨h1, h2⟩
          · exact ⟨_, (charDigit_iff c _).2 ⟨v, hv, rfl⟩⟩
          · exfalso
            have := hl.inv.same hclean
            rw [show a.accrued.length = 0 by simpa using h1] at this
            rw [List.length_eq_zero_iff.1 this.symm] at hlong
            exact absurd hlong (by decide)
        obtain ⟨v, hv⟩ := hdig
        have hvd := charDigit_isDig hv
        have hc43 : c ≠ 43 := by rintro rfl; exact absurd hv (by rw [show charDigit 43 = none by decide +kernel]; simp)
        obtain ⟨p1, p2, p3⟩ := hother hc43
        rw [hv, Option.getD_some] at p1 p2
        have hblen : blen T.plain = blen a.plain + 1 := by rw [p1]; exact blen_snoc_digit hvd
        have hsT : Safe T := by
          refine ⟨?_, ?_, by rw [e8]; exact hsafe.metadata, ?_⟩
          · rw [p2]; intro u hu
            rcases List.mem_append.1 hu with hu | hu
            · exact hsafe.nn u hu
            · rw [List.mem_singleton.1 hu]; exact hvd
          · rw [p1]; intro i u hi
            rw [List.getElem?_append] at hi
            split at hi
            · exact hsafe.plain i u hi
            · left
              have := List.mem_of_getElem? hi
              rw [List.mem_singleton.1 this]; exact hvd
          · rcases hsafe.ndd with hn | ⟨h1, h2⟩ | ⟨h1, h2, h3⟩
            · exact .inl (e7.trans hn)
            · refine .inr (.inl ⟨e2.trans h1, ?_⟩)
              rw [e8, p1]
              refine atStart_find_mono ?_ h2 _
              have := hsafe.metadata
              unfold formatsOk at this
              simp only [Bool.and_eq_true] at this
              show (Re.noAnchor (.alt _ _)) = true
              simp only [Re.noAnchor, Bool.and_eq_true]
              exact ⟨by decide, this.2⟩
            · exact .inr (.inr ⟨by rw [e6, e7]; exact h1, by rw [e8, e7]; exact h2, by rw [e7]; exact h3⟩)
        cases hab : a.able with
        | false =>
          rw [e2, hab]
          simp only [Bool.not_false, if_true]
          obtain ⟨q, hq⟩ := unableStep_total (C := C) hTne hsT.ndd
          refine ⟨q, hq, .inr (.inr (.inr ⟨?_, unableStep_safe hC hq hsT (e2.trans hab)⟩))⟩
          rw [(unableStep_frame hq).plain]; omega
        | true =>
          rw [e2, hab]
          simp only [Bool.not_true, Bool.false_eq_true, if_false]
          have hstep : ableStep C T ((a.noted c r).accrue c r).2 = laterStep C T ((a.noted c r).accrue c r).2 := by
            unfold ableStep
            rw [if_neg (by omega), if_neg (by omega)]
          obtain ⟨q, hq⟩ := laterStep_total (C := C) (a := T) ((a.noted c r).accrue c r).2 (.inr fun hne => by
            rw [e4] at hne
            rw [p2, blen_snoc_digit hvd]
            have := (hl.inv.long hab hne).1; omega)
          refine ⟨q, hstep ▸ hq, .inr (.inr (.inr ⟨?_, laterStep_safe hC hq hsT (e2.trans hab)⟩))⟩
          rw [(ableStep_frame (hstep ▸ hq : ableStep C T _ = .ok q)).plain]; omega

/-- Every sequence of calls returns. -/
theorem calls_total {C : Container} (hC : ContOk C) {region : Str} (hw : wideOk (metaFor C region) = true)
    (hcov : coverOk (metaFor C region) = true) (ks : List Call) : ∃ a, calls C (new C region) ks = .ok a := by
  suffices h : ∀ a, Live C region a → ∃ b, calls C a ks = .ok b from h _ (live_new C region)
  induction ks with
  | nil => exact fun a _ => ⟨a, rfl⟩
  | cons k ks ih =>
    intro a hl
    have key : ∃ b, call C a k = .ok b ∧ Live C region b := by
      have hin : ∀ (c : Int) (r : Bool), ∃ p, a.input C c r = .ok p ∧ Live C region p.1 := by
        intro c r
        obtain ⟨q, h1, h2⟩ := live_step hC hw hcov hl (typedChar_lt c) r
        exact ⟨_, by unfold input; rw [typedChar_eq, h1]; rfl, h2⟩
      cases k with
      | clear => exact ⟨_, rfl, by rw [clear_eq_new hl.home]; exact live_new C region⟩
      | input c =>
        obtain ⟨p, h1, h2⟩ := hin c false
        exact ⟨p.1, by simp only [call, h1]; rfl, h2⟩
      | remember c =>
        obtain ⟨p, h1, h2⟩ := hin c true
        exact ⟨p.1, by simp only [call, h1]; rfl, h2⟩
    obtain ⟨b, h1, h2⟩ := key
    obtain ⟨b', h3⟩ := ih b h2
    exact ⟨b', by unfold calls; rw [h1]; exact h3⟩

end Verif.Aytf
