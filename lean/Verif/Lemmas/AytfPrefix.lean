import Verif.Lemmas.AytfDigits
import Verif.Lemmas.AytfCalls
/-!
# The national prefix in an as-you-type formatter, and the digits invariant over calls
-/
namespace Verif.Aytf
open Verif.Builder (bind_ok)
open Verif.Spec

/-! ## Templates go with formats -/

theorem createLoop_ne (fs : List NumberFormat) (a : Aytf) (h : (createLoop a fs).1.able = true) : (createLoop a fs).1.formats ≠ [] := by
  induction fs generalizing a with
  | nil => cases h
  | cons f fs ih =>
    unfold createLoop at h ⊢
    split
    · exact fun h => by cases h
    · rename_i h1
      rw [if_neg h1] at h
      dsimp only at h ⊢
      split
      · exact fun h => by cases h
      · rename_i h2
        rw [if_neg h2] at h
        exact ih _ h

theorem formatAccrued_ne {a : Aytf} (h : a.formatAccrued.2 ≠ []) : a.formatAccrued.1.formats ≠ [] := by
  rw [formatAccrued_rest]
  show a.formats ≠ []
  intro h0
  unfold formatAccrued at h
  rw [h0] at h
  exact h rfl

theorem digitHelper_formats (a : Aytf) (c : Nat) : (a.digitHelper c).1.formats = a.formats := by
  unfold digitHelper; split <;> rfl

theorem digitHelper_able (a : Aytf) (c : Nat) (h : (a.digitHelper c).1.able = true) : a.able = true := by
  unfold digitHelper at h; split at h
  · exact h
  · dsimp only at h; split at h
    · cases h
    · exact h

theorem inputBytes_rest (bs : List Nat) (a : Aytf) (out : Str) : (a.inputBytes bs out).1.formats = a.formats ∧
    ((a.inputBytes bs out).1.able = true → a.able = true) := by
  induction bs generalizing a out with
  | nil => exact ⟨rfl, id⟩
  | cons b bs ih =>
    obtain ⟨h1, h2⟩ := ih (a.digitHelper b).1 (a.digitHelper b).2
    unfold inputBytes
    exact ⟨h1.trans (digitHelper_formats a b), fun h => digitHelper_able a b (h2 h)⟩

theorem inputAccrued_rest (a : Aytf) : a.inputAccrued.1.formats = a.formats ∧ (a.inputAccrued.1.able = true → a.able = true) := by
  unfold inputAccrued
  split
  · exact ⟨rfl, id⟩
  · exact inputBytes_rest _ _ _

/-- Formatting on without formats leaves no template. -/
def Bare (a : Aytf) : Prop := a.able = true → a.formats = [] → a.template = []

theorem bare_of_ne {a : Aytf} (h : a.able = true → a.formats ≠ []) : Bare a := fun h1 h2 => absurd h2 (h h1)

theorem choosePattern_bare {a : Aytf} {p : Aytf × Str} (h : a.choosePattern = .ok p) (ht : a.template = []) : Bare p.1 := by
  unfold choosePattern at h
  split at h
  · obtain ⟨a1, h1, h⟩ := bind_ok.1 h
    dsimp only at h
    split at h
    · rename_i hne
      obtain rfl := Except.ok.inj h
      exact bare_of_ne fun _ => formatAccrued_ne hne
    · split at h
      · obtain rfl := Except.ok.inj h
        refine bare_of_ne fun h => ?_
        obtain ⟨k1, k2⟩ := inputAccrued_rest a1.formatAccrued.1.createTemplate.1
        rw [k1]; exact createLoop_ne _ _ (k2 h)
      · obtain rfl := Except.ok.inj h
        exact bare_of_ne (createLoop_ne _ _)
  · obtain rfl := Except.ok.inj h
    exact fun _ _ => ht

theorem laterStep_bare {C : Container} {a : Aytf} {c : Nat} {p : Aytf × Str} (h : a.laterStep C c = .ok p)
    (hex : a.expecting = true → a.template = []) (ht : a.formats = [] → a.template = []) : Bare p.1 := by
  unfold laterStep at h
  split at h
  · rename_i he
    obtain rfl := Except.ok.inj h
    have : (a.extractCallingCode C).1.template = a.template := by
      unfold extractCallingCode; split
      · rfl
      · dsimp only; split <;> rfl
    intro _ _
    dsimp only
    split
    · exact this.trans (hex he)
    · exact this.trans (hex he)
  · split at h
    · dsimp only at h
      split at h
      · rename_i hne
        obtain rfl := Except.ok.inj h
        exact bare_of_ne fun _ => formatAccrued_ne hne
      · obtain ⟨fs, _, h⟩ := bind_ok.1 h
        split at h
        · obtain rfl := Except.ok.inj h
          refine bare_of_ne fun h => ?_
          obtain ⟨k1, k2⟩ := inputAccrued_rest ({ (a.digitHelper c).1.formatAccrued.1 with formats := fs } : Aytf).createTemplate.1
          rw [k1]; exact createLoop_ne _ _ (k2 h)
        · obtain rfl := Except.ok.inj h
          exact bare_of_ne (createLoop_ne _ _)
    · rename_i hne
      exact choosePattern_bare h (ht (Classical.not_not.1 hne))

/-! ## The extracted national prefix -/

/-- The national prefix was taken from the first three digits and the formatter still works on what followed it. -/
def Fresh (m : Metadata) (a : Aytf) : Prop :=
  ∃ s t sp, a.plain = s ++ t ∧ s.length = 3 ∧ (∀ u ∈ s, isDig u = true) ∧ a.ndd = removed m s ∧ a.ndd ≠ [] ∧
    a.ndd ++ a.nn = a.plain ∧ a.pre = a.ndd ++ sp ∧ (sp = [] ∨ sp = [32]) ∧ a.currentMeta = m

/-- What is known of the extracted national prefix: there is none, or it is about to be dropped because an international prefix was
seen, or it is as first extracted. -/
def NddOk (m : Metadata) (a : Aytf) : Prop :=
  a.ndd = [] ∨ (a.able = false ∧ ((iddRe a.currentMeta).atStart.find a.plain).isSome = true) ∨ Fresh m a

theorem Fresh.frame {m : Metadata} {a b : Aytf} (h : Fresh m a) (f : FrameT a b) : Fresh m b := by
  obtain ⟨s, t, sp, h1, h2, h3, h4, h5, h6, h7, h8, h9⟩ := h
  exact ⟨s, t, sp, f.plain.trans h1, h2, h3, f.ndd.trans h4, by rw [f.ndd]; exact h5, by rw [f.ndd, f.nn, f.plain]; exact h6,
    by rw [f.pre, f.ndd]; exact h7, h8, f.currentMeta.trans h9⟩

theorem NddOk.frame {m : Metadata} {a b : Aytf} (h : NddOk m a) (ha : a.able = true) (f : FrameT a b) : NddOk m b := by
  rcases h with h | h | h
  · exact .inl (f.ndd.trans h)
  · rw [ha] at h; cases h.1
  · exact .inr (.inr (h.frame f))

theorem laterStep_ndd {C : Container} (hC : ContOk C) {m : Metadata} {a : Aytf} {c : Nat} {p : Aytf × Str} (h : a.laterStep C c = .ok p)
    (hl : Late a) (ha : a.able = true) (hn : NddOk m a) : NddOk m p.1 := by
  unfold laterStep at h
  split at h
  · obtain rfl := Except.ok.inj h
    obtain ⟨_, k2, k3⟩ := extractCallingCode_late hC hl
    dsimp only
    split
    · rename_i h2
      exact .inl (k2 h2)
    · rename_i h2
      rw [k3 (Bool.not_eq_true _ ▸ h2)]; exact hn
  · split at h
    · dsimp only at h
      have f1 := (digitHelper_frame a c).trans (formatAccrued_frame _)
      split at h
      · obtain rfl := Except.ok.inj h
        exact hn.frame ha f1
      · obtain ⟨fs, _, h⟩ := bind_ok.1 h
        have f2 := (f1.trans (FrameT.formats _ fs)).trans (createTemplate_frame _)
        split at h
        · obtain rfl := Except.ok.inj h
          exact hn.frame ha (f2.trans (inputAccrued_frame _))
        · obtain rfl := Except.ok.inj h
          exact hn.frame ha f2
    · exact hn.frame ha (choosePattern_frame h)

theorem lastIndexOf_none {p s : Str} (hp : p ≠ []) (h : ∀ k, ¬ p <+: s.drop k) : lastIndexOf s p = none := by
  induction s with
  | nil => unfold lastIndexOf; rw [if_neg hp]
  | cons u t ih =>
    have h1 : lastIndexOf t p = none := ih fun k => h (k + 1)
    have h2 : p.isPrefixOf (u :: t) = false := by
      have := h 0
      rw [List.drop_zero, ← List.isPrefixOf_iff_prefix] at this
      exact Bool.not_eq_true _ ▸ this
    unfold lastIndexOf
    rw [h1]
    simp only [h2]
    rfl

theorem lastIndexOf_front {p sp : Str} (hp : p ≠ []) (hd : ∀ u ∈ p, isDig u = true) (hsp : sp = [] ∨ sp = [32]) :
    lastIndexOf (p ++ sp) p = some 0 := by
  cases hp' : p with
  | nil => exact absurd hp' hp
  | cons u t =>
    have key : lastIndexOf (t ++ sp) (u :: t) = none := by
      refine lastIndexOf_none (by simp) fun k hk => ?_
      have hlen := hk.length_le
      simp only [List.length_cons, List.length_drop, List.length_append] at hlen
      rcases hsp with rfl | rfl
      · simp at hlen; omega
      · have k0 : k = 0 := by simp at hlen; omega
        subst k0
        rw [List.drop_zero] at hk
        have he := hk.eq_of_length (by simp)
        have hm : (32 : Nat) ∈ u :: t := by rw [he]; simp
        have := hd 32 (hp' ▸ hm)
        exact absurd this (by decide)
    rw [List.cons_append]
    unfold lastIndexOf
    rw [key]
    have : (u :: t).isPrefixOf (u :: (t ++ sp)) = true := List.isPrefixOf_iff_prefix.2 ⟨sp, rfl⟩
    simp only [this]
    rfl

/-- The prefix removed from the first three digits is the one removed from every longer number. -/
def Stable (m : Metadata) : Prop := ∀ s t : Str, s.length = 3 → (∀ u ∈ s, isDig u = true) → (∀ u ∈ t, isDig u = true) →
  removed m s ≠ [] → removed m (s ++ t) = removed m s

theorem Good.off {a : Aytf} (hl : Late a) (hh : Held a) (ha : a.able = false) : Good (a, a.accrued) :=
  ⟨hl, hh, fun h => (by rw [show a.able = false from ha] at h; cases h), hl.acc⟩

/-- The step taken when formatting is off. -/
theorem unableStep_good {C : Container} (hC : ContOk C) {m : Metadata} {a : Aytf} {p : Aytf × Str} (h : a.unableStep C = .ok p)
    (hf : a.hasFmt = false) (hl : Late a) (hh : Held a) (ha : a.able = false) (hn : NddOk m a)
    (hs : Stable m ∨ a.plain.head? = some 43) : Good p ∧ Bare p.1 ∧ NddOk m p.1 := by
  unfold unableStep at h
  rw [if_neg (by rw [hf]; simp)] at h
  have h0 := bind_ok.1 h
  clear h
  obtain ⟨⟨b, k⟩, hi, h⟩ := h0
  cases k with
  | true =>
    have hlb := extractIdd_late hi hl.plain hl.acc hl.metadata
    obtain ⟨k1, k2, k3⟩ := extractCallingCode_late hC hlb
    simp only [if_true] at h
    split at h
    · rename_i h2
      have fr := choosePattern_frame h
      refine ⟨choosePatternWithPrefix_good h k1, choosePattern_bare h rfl, .inl ?_⟩
      exact fr.ndd.trans (k2 h2)
    · rename_i h2
      obtain rfl := Except.ok.inj h
      have hk3 := k3 (Bool.not_eq_true _ ▸ h2)
      rw [hk3]
      rcases extractIdd_spec hi with ⟨h1, _⟩ | ⟨_, x, hx, _, sp, hsp, rfl⟩
      · cases h1
      · refine ⟨Good.off hlb hh ha, ?_, .inr (.inl ⟨ha, ?_⟩)⟩
        · intro h; rw [show a.able = false from ha] at h; cases h
        · show ((iddRe a.currentMeta).atStart.find a.plain).isSome = true
          rw [hx]; rfl
  | false =>
    simp only [Bool.false_eq_true, if_false] at h
    rcases extractIdd_spec hi with ⟨_, rfl, hx⟩ | ⟨h1, _⟩
    · have hst : Stable m := by
        rcases hs with hs | hs
        · exact hs
        · exfalso
          cases hp : b.plain with
          | nil => rw [hp] at hs; cases hs
          | cons u t =>
            rw [hp] at hs hx
            simp only [List.head?_cons, Option.some.injEq] at hs
            subst hs
            obtain ⟨y, hy, _⟩ := iddRe_plus b.currentMeta t
            rw [hy] at hx; cases hx
      obtain ⟨⟨q, k⟩, hq, h⟩ := bind_ok.1 h
      -- the state in which the prefix is removed again
      have main : ∃ b' : Aytf, b'.removeNationalPrefix.1 = q ∧ decide (b.ndd ≠ b'.removeNationalPrefix.2) = k ∧ Late b' ∧
          b'.formats = b.formats ∧ b'.able = b.able ∧ b'.ndd = b.ndd ∧
          ((b.ndd = []) ∨ (Fresh m b ∧ b' = { b with nn := b.plain, pre := [] })) := by
        unfold longerNdd at hq
        by_cases hne : b.ndd = []
        · rw [if_neg (by simp [hne])] at hq
          have := Except.ok.inj hq
          exact ⟨b, congrArg Prod.fst this, congrArg Prod.snd this, hl, rfl, rfl, rfl, .inl hne⟩
        · rw [if_pos hne] at hq
          rcases hn with hn | ⟨_, hn⟩ | hn
          · exact absurd hn hne
          · rw [hx] at hn; cases hn
          · obtain ⟨s, t, sp, e1, e2, e3, e4, e5, e6, e7, e8, e9⟩ := id hn
            have hnd : ∀ u ∈ b.ndd, isDig u = true := by
              intro u hu
              refine plainOk_digits hl.plain ?_ u (by rw [← e6]; exact List.mem_append_left _ hu)
              rw [e1]
              cases s with
              | nil => cases e2
              | cons v s =>
                have := e3 v (List.mem_cons_self ..)
                intro h
                simp only [List.cons_append, List.head?_cons, Option.some.injEq] at h
                rw [h] at this; cases this
            have hidx : lastIndexOf b.pre b.ndd = some 0 := by rw [e7]; exact lastIndexOf_front hne hnd e8
            rw [hidx] at hq
            have := Except.ok.inj hq
            refine ⟨{ b with nn := b.ndd ++ b.nn, pre := [] }, congrArg Prod.fst this, congrArg Prod.snd this, ?_, rfl, rfl, rfl, .inr ⟨hn, by rw [e6]⟩⟩
            refine ⟨?_, ?_, fun u hu => (by cases hu), hl.plain, hl.acc, hl.metadata⟩
            · show dial [] ++ (b.ndd ++ b.nn) = b.plain
              rw [e6]; rfl
            · intro u hu
              rcases List.mem_append.1 hu with hu | hu
              · exact hnd u hu
              · exact hl.nn u hu
      obtain ⟨b', hq1, hk, hl', f1, f2, f3, hc⟩ := main
      have hlq := removeNationalPrefix_late hl'
      obtain ⟨r1, sp, i, r2, r3, r4⟩ := removeNationalPrefix_spec hl'.nn
      have hqa : q.able = false := by rw [← hq1, r4]; exact f2.trans ha
      have hqf : q.formats = b.formats := by rw [← hq1, r4]; exact f1
      have hqn : q.ndd = b.ndd := by rw [← hq1, r4]; exact f3
      rw [hq1] at hlq
      have hhq : Held q := by intro f hf'; rw [hqf] at hf'; exact hh f hf'
      dsimp only at h
      split at h
      · rename_i hkt
        have hl2 : Late { q with pre := q.pre ++ [32] } := by
          refine ⟨?_, hlq.nn, ?_, hlq.plain, hlq.acc, hlq.metadata⟩
          · show dial (q.pre ++ [32]) ++ q.nn = q.plain
            rw [dial_append, show dial [32] = [] by decide +kernel, List.append_nil]
            exact hlq.split
          · intro u hu
            rcases List.mem_append.1 hu with hu | hu
            · exact hlq.pre u hu
            · rw [List.mem_singleton.1 hu]; decide
        refine ⟨choosePatternWithPrefix_good h hl2, choosePattern_bare h rfl, .inl ?_⟩
        have hnd0 : b.ndd = [] := by
          rcases hc with hc | ⟨hc, hb'⟩
          · exact hc
          · exfalso
            obtain ⟨s, t, sp, e1, e2, e3, e4, e5, e6, e7, e8, e9⟩ := hc
            rw [← hk, r1, hb'] at hkt
            have : removed b.currentMeta b.plain = b.ndd := by
              rw [e9, e1, e4]
              refine hst s t e2 e3 ?_ (e4 ▸ e5)
              intro u hu
              rcases List.mem_iff_getElem?.1 hu with ⟨j, hj⟩
              have := hl.plain (s.length + j) u (by rw [e1, List.getElem?_append_right (by omega)]; simpa using hj)
              rcases this with h | ⟨h, _⟩
              · exact h
              · omega
            simp only [decide_eq_true_eq] at hkt
            exact hkt this.symm
        exact (choosePattern_frame h).ndd.trans (hqn.trans hnd0)
      · rename_i hkt
        obtain rfl := Except.ok.inj h
        refine ⟨Good.off hlq hhq hqa, ?_, ?_⟩
        · intro h; rw [show q.able = false from hqa] at h; cases h
        rcases hc with hc | ⟨hc, hb'⟩
        · exact .inl (hqn.trans hc)
        · refine .inr (.inr ?_)
          obtain ⟨s, t, sp', e1, e2, e3, e4, e5, e6, e7, e8, e9⟩ := hc
          have hr2 : b'.removeNationalPrefix.2 = b.ndd := by
            rw [← hk] at hkt
            simp only [decide_eq_true_eq] at hkt
            exact (Classical.not_not.1 hkt).symm
          have hb'n : b'.nn = b.plain := by rw [hb']
          have hb'p : b'.pre = [] := by rw [hb']
          refine ⟨s, t, sp, ?_, e2, e3, hqn.trans e4, by rw [hqn]; exact e5, ?_, ?_, r2, ?_⟩
          · rw [← hq1, r4, hb']; exact e1
          · rw [hqn, ← hr2, ← hq1, r4]
            show b'.removeNationalPrefix.2 ++ b'.nn.drop i = b'.plain
            rw [← r3, hb'n, hb']
          · rw [hqn, ← hr2, ← hq1, r4]
            show b'.pre ++ b'.removeNationalPrefix.2 ++ sp = _
            rw [hb'p]; rfl
          · rw [← hq1, r4, hb']; exact e9
    · cases h1

/-- The step at which the third character arrives. -/
theorem firstStep_good {C : Container} (hC : ContOk C) {m : Metadata} {a : Aytf} {c : Nat} {p : Aytf × Str} (h : a.ableStep C c = .ok p)
    (h3 : blen a.plain = 3) (ha : a.able = true) (hpre : a.pre = []) (hnd : a.ndd = []) (hf : a.formats = []) (ht : a.template = [])
    (hp : a.plain = a.nn ∨ a.plain = 43 :: a.nn) (hnn : ∀ u ∈ a.nn, isDig u = true) (hacc : dial a.accrued = a.plain)
    (hm : a.currentMeta = m) (hmo : formatsOk m = true) (hc : isDig c = true) : Good p ∧ Bare p.1 ∧ NddOk m p.1 := by
  have hpo : PlainOk a.plain := by
    intro i u hi
    rcases hp with hp | hp
    · rw [hp] at hi; exact .inl (hnn u (List.mem_of_getElem? hi))
    · rw [hp] at hi
      cases i with
      | zero => simp at hi; exact .inr ⟨rfl, hi.symm⟩
      | succ i => exact .inl (hnn u (List.mem_of_getElem? (by simpa using hi)))
  unfold ableStep at h
  rw [if_neg (by omega), if_pos h3] at h
  have h0 := bind_ok.1 h
  clear h
  obtain ⟨⟨b, k⟩, hi, h⟩ := h0
  have hh : ∀ b : Aytf, b.formats = [] → Held b := by intro b hb f hf'; rw [hb] at hf'; cases hf'
  cases k with
  | true =>
    simp only [if_true] at h
    have hlb := extractIdd_late hi hpo hacc (by rw [hm]; exact hmo)
    have hl2 : Late { b with expecting := true } := ⟨hlb.split, hlb.nn, hlb.pre, hlb.plain, hlb.acc, hlb.metadata⟩
    rcases extractIdd_spec hi with ⟨h1, _⟩ | ⟨_, x, hx, _, sp, hsp, rfl⟩
    · cases h1
    · refine ⟨laterStep_good hC (nn0 := []) h hl2 (hh _ hf) (fun _ => hf) (fun hne => absurd hf hne) (fun hne => absurd hf hne) hc
        (fun _ => ht), laterStep_bare h (fun _ => ht) (fun _ => ht), laterStep_ndd hC h hl2 ha (.inl hnd)⟩
  | false =>
    simp only [Bool.false_eq_true, if_false] at h
    rcases extractIdd_spec hi with ⟨_, rfl, hx⟩ | ⟨h1, _⟩
    · have hpn : b.plain = b.nn := by
        rcases hp with hp | hp
        · exact hp
        · rw [hp] at hx
          obtain ⟨y, hy, _⟩ := iddRe_plus b.currentMeta b.nn
          rw [hy] at hx; cases hx
      have hl : Late b := by
        refine ⟨?_, hnn, ?_, hpo, hacc, by rw [hm]; exact hmo⟩
        · rw [hpre, hpn]; rfl
        · intro u hu; rw [hpre] at hu; cases hu
      have hlq := removeNationalPrefix_late hl
      obtain ⟨r1, sp, i, r2, r3, r4⟩ := removeNationalPrefix_spec hl.nn
      generalize b.removeNationalPrefix = q at h hlq r1 r3 r4
      have hl2 : Late { q.1 with ndd := q.2 } := ⟨hlq.split, hlq.nn, hlq.pre, hlq.plain, hlq.acc, hlq.metadata⟩
      have q1 : q.1.formats = [] := by rw [r4]; exact hf
      have q2 : q.1.template = [] := by rw [r4]; exact ht
      refine ⟨choosePattern_good h hl2 q1 q2, choosePattern_bare h q2, ?_⟩
      have fr := choosePattern_frame h
      refine NddOk.frame (a := { q.1 with ndd := q.2 }) ?_ (by show q.1.able = true; rw [r4]; exact ha) fr
      by_cases hq : q.2 = []
      · exact .inl hq
      · refine .inr (.inr ⟨b.plain, [], sp, ?_, ?_, ?_, ?_, hq, ?_, ?_, r2, ?_⟩)
        · show q.1.plain = _; rw [r4]; simp
        · rw [← blen_digits (hpn ▸ hnn)]; exact h3
        · rw [hpn]; exact hnn
        · show q.2 = _; rw [r1, hm, hpn]
        · show q.2 ++ q.1.nn = q.1.plain; rw [r4]; show q.2 ++ b.nn.drop i = b.plain; rw [← r3, hpn]
        · show q.1.pre = q.2 ++ sp; rw [r4]; show b.pre ++ q.2 ++ sp = _; rw [hpre]; rfl
        · show q.1.currentMeta = m; rw [r4]; exact hm
    · cases h1

/-! ## A full-width plus sign typed first -/

/-- What keeps the formatter from taking U+FF0B for anything. -/
def wideOk (m : Metadata) : Bool :=
  (iddRe m).boundedLoops && ((iddRe m).runsA ⟨0, [0xFF0B], []⟩).isEmpty && m.npParsing.re.boundedLoops &&
  m.npParsing.re.decided [0xFF0B] == some 0 &&
  m.formats.all fun f => match f.leadingDigits with
    | [] => false
    | p :: _ => !p.re.atStart.isMatch [0xFF0B]

theorem wide_idd {m : Metadata} (h : wideOk m = true) (t : Str) : (iddRe m).atStart.find (0xFF0B :: t) = none := by
  unfold wideOk at h
  simp only [Bool.and_eq_true] at h
  have hrel := runsA_rel _ h.1.1.1.1 t 1 ⟨0, [0xFF0B], []⟩ rfl
  rw [List.isEmpty_iff.1 h.1.1.1.2] at hrel
  rw [atStart_find, show (⟨0, 0xFF0B :: t, []⟩ : MSt) = (⟨0, [0xFF0B], []⟩ : MSt).ext t from rfl]
  generalize (iddRe m).runs _ = L at hrel
  cases hrel
  rfl

theorem wide_removed {m : Metadata} (h : wideOk m = true) {a : Aytf} (hm : a.currentMeta = m) {t : Str} (hn : a.nn = 0xFF0B :: t) :
    a.removeNationalPrefix = (a, []) := by
  unfold wideOk at h
  simp only [Bool.and_eq_true, beq_iff_eq] at h
  have hs := decided_spec h.1.1.2 h.1.2 t
  unfold removeNationalPrefix
  have hna : a.isNanpaWithPrefix = false := by
    unfold isNanpaWithPrefix
    rw [hn]
    have : ∃ b1 l, bytesOf (0xFF0B :: t) = 0xEF :: b1 :: l := ⟨_, _, rfl⟩
    obtain ⟨b1, l, hb⟩ := this
    rw [hb]
    simp
  rw [hna]
  simp only [Bool.false_eq_true, if_false]
  split
  · rw [hm, hn]
    unfold Re.startLen at hs
    simp only [List.singleton_append] at hs
    split
    · rename_i x hx
      rw [hx] at hs
      dsimp only at hs
      rw [if_neg (by omega)]
    · rfl
  · rfl

theorem wide_narrow {fs : List NumberFormat} {gs : List NumberFormat} (h : narrow [0xFF0B] fs = .ok gs)
    (hf : ∀ f ∈ fs, ∃ p ps, f.leadingDigits = p :: ps ∧ p.re.atStart.isMatch [0xFF0B] = false) : gs = [] := by
  induction fs generalizing gs with
  | nil => cases h; rfl
  | cons f fs ih =>
    unfold narrow at h
    obtain ⟨k, hk, h⟩ := bind_ok.1 h
    obtain ⟨r, hr, h⟩ := bind_ok.1 h
    obtain ⟨p, ps, h1, h2⟩ := hf f (List.mem_cons_self ..)
    have : k = false := by
      unfold keepFormat at hk
      rw [h1] at hk
      dsimp only at hk
      rw [if_neg (by decide)] at hk
      have hi : min (blen [0xFF0B] - minLeadingDigits) ps.length = 0 := by
        rw [show blen [0xFF0B] - minLeadingDigits = 0 from rfl]; exact Nat.zero_min _
      rw [hi] at hk
      simp only [List.getElem?_cons_zero] at hk
      have := Except.ok.inj hk
      rw [← this]; exact h2
    have hr := ih hr fun g hg => hf g (List.mem_cons_of_mem _ hg)
    have := Except.ok.inj h
    rw [← this, ‹k = false›, hr]
    rfl

/-- After a full-width plus sign: formatting is off and nothing has been taken off the number. -/
structure Wide (m : Metadata) (a : Aytf) : Prop where
  plain : ∃ t, a.plain = 0xFF0B :: t
  nn : a.nn = a.plain
  ndd : a.ndd = []
  able : a.able = false
  metadata : a.currentMeta = m

theorem wide_first {C : Container} {m : Metadata} (hw : wideOk m = true) {a : Aytf} {c : Nat} {p : Aytf × Str}
    (h : a.ableStep C c = .ok p) (hp : a.plain = [0xFF0B]) (hn : a.nn = [0xFF0B]) (hm : a.currentMeta = m) (hf : a.formats = [])
    (hcomp : a.complete = false) : Wide m p.1 ∧ p.2 = p.1.accrued := by
  unfold ableStep at h
  rw [if_neg (by rw [hp]; decide), if_pos (by rw [hp]; rfl)] at h
  have h0 := bind_ok.1 h
  clear h
  obtain ⟨⟨b, k⟩, hi, h⟩ := h0
  rcases extractIdd_spec hi with ⟨rfl, rfl, _⟩ | ⟨_, x, hx, _⟩
  · simp only [Bool.false_eq_true, if_false] at h
    rw [wide_removed hw hm hn] at h
    unfold choosePattern at h
    rw [if_pos (by show blen b.nn ≥ 3; rw [hn]; decide)] at h
    have h0 := bind_ok.1 h
    clear h
    obtain ⟨a1, h1, h⟩ := h0
    have hfs : a1 = { b with ndd := [], formats := [] } := by
      unfold getAvailable at h1
      obtain ⟨fs, h2, h1⟩ := bind_ok.1 h1
      have h1 := Except.ok.inj h1
      rw [← h1]
      dsimp only at h2
      rw [if_neg (by rw [hcomp]; simp), hf, hn] at h2
      rw [wide_narrow h2 ?_]
      intro f hf'
      rw [List.nil_append] at hf'
      have := (List.mem_filter.1 hf').1
      unfold wideOk at hw
      simp only [Bool.and_eq_true, List.all_eq_true] at hw
      have := hw.2 f (hm ▸ this)
      split at this
      · cases this
      · rename_i p ps hl
        exact ⟨p, ps, hl, by simpa using this⟩
    subst hfs
    have := Except.ok.inj h
    rw [← this]
    exact ⟨⟨⟨[], hp⟩, hn.trans hp.symm, rfl, rfl, hm⟩, rfl⟩
  · rw [hp, hm, wide_idd hw] at hx; cases hx

theorem wide_later {C : Container} {m : Metadata} (hw : wideOk m = true) {a : Aytf} {p : Aytf × Str}
    (h : a.unableStep C = .ok p) (ha : Wide m a) : Wide m p.1 ∧ p.2 = p.1.accrued := by
  unfold unableStep at h
  split at h
  · obtain rfl := Except.ok.inj h
    exact ⟨ha, rfl⟩
  · have h0 := bind_ok.1 h
    clear h
    obtain ⟨⟨b, k⟩, hi, h⟩ := h0
    obtain ⟨t, hp⟩ := ha.plain
    rcases extractIdd_spec hi with ⟨rfl, rfl, _⟩ | ⟨_, x, hx, _⟩
    · simp only [Bool.false_eq_true, if_false] at h
      have h0 := bind_ok.1 h
      clear h
      obtain ⟨q, hq, h⟩ := h0
      unfold longerNdd at hq
      rw [if_neg (by rw [ha.ndd]; simp)] at hq
      have hq := Except.ok.inj hq
      rw [wide_removed hw ha.metadata (ha.nn.trans hp), ha.ndd] at hq
      rw [← hq] at h
      simp only [ne_eq, not_true_eq_false, decide_false, Bool.false_eq_true, if_false] at h
      have := Except.ok.inj h
      rw [← this]
      exact ⟨ha, rfl⟩
    · rw [hp, ha.metadata, wide_idd hw] at hx; cases hx

/-! ## The invariant over calls -/

theorem taken_plus (a : Aytf) (r : Bool) : (a.taken 43 r).plain = a.plain ++ [43] ∧ (a.taken 43 r).nn = a.nn := by
  unfold taken accrue noted; cases r <;> simp

theorem taken_other (a : Aytf) {c : Nat} (r : Bool) (h : c ≠ 43) :
    (a.taken c r).plain = a.plain ++ [(charDigit c).getD c] ∧ (a.taken c r).nn = a.nn ++ [(charDigit c).getD c] ∧
    ((a.noted c r).accrue c r).2 = (charDigit c).getD c := by
  unfold taken accrue noted; cases r <;> simp [h]

/-- Before the third character. -/
structure Early (m : Metadata) (a : Aytf) : Prop where
  short : blen a.plain < 3
  able : a.able = true
  shape : a.plain = a.nn ∨ a.plain = 43 :: a.nn
  digits : ∀ u ∈ a.nn, isDig u = true
  acc : dial a.accrued = a.plain
  metadata : a.currentMeta = m
  complete : a.complete = false

/-- From the third character on. -/
structure Mid (m : Metadata) (a : Aytf) : Prop where
  long : 3 ≤ blen a.plain
  late : Late a
  held : Held a
  step : InStep a
  bare : Bare a
  ndd : NddOk m a

/-- The digits invariant, for input of digits and a leading plus sign. -/
structure Dig (C : Container) (region s : Str) (a : Aytf) : Prop where
  typed : Typed s a
  home : Home C region a
  clean : a.hasFmt = false
  out : dial a.currentOutput = dial s
  state : (s.head? = some 0xFF0B ∧ Wide (metaFor C region) a) ∨
    (s.head? ≠ some 0xFF0B ∧ (Early (metaFor C region) a ∨ Mid (metaFor C region) a))

theorem dig_fresh (C : Container) (region : Str) : Dig C region [] (new C region) :=
  ⟨typed_new C region, ⟨rfl, rfl⟩, rfl, rfl, .inr ⟨by simp, .inl ⟨(by decide : blen [] < 3), rfl, .inl rfl, fun u hu => (by cases hu), rfl, rfl, rfl⟩⟩⟩

theorem home_step {C : Container} {region : Str} {a : Aytf} {c : Nat} {r : Bool} {q : Aytf × Str} (ha : Home C region a)
    (hq : a.inputCore C c r = .ok q) : Home C region { q.1 with currentOutput := q.2 } := by
  have hn : (a.noted c r).defaultCountry = a.defaultCountry ∧ (a.noted c r).defaultMeta = a.defaultMeta := by
    rw [noted_rest]; exact ⟨rfl, rfl⟩
  have ht : (a.taken c r).defaultCountry = a.defaultCountry ∧ (a.taken c r).defaultMeta = a.defaultMeta := by
    rw [taken_rest]; exact ⟨rfl, rfl⟩
  rcases inputCore_cases hq with ⟨_, rfl⟩ | ⟨_, _, hq⟩ | ⟨_, _, hq⟩
  · exact ⟨hn.1.trans ha.1, hn.2.trans ha.2⟩
  · have f := unableStep_frame hq
    exact ⟨f.defaultCountry.trans (ht.1.trans ha.1), f.defaultMeta.trans (ht.2.trans ha.2)⟩
  · have f := ableStep_frame hq
    exact ⟨f.defaultCountry.trans (ht.1.trans ha.1), f.defaultMeta.trans (ht.2.trans ha.2)⟩

theorem Mid.output {m : Metadata} {a : Aytf} (h : Mid m a) (o : Str) : Mid m { a with currentOutput := o } :=
  ⟨h.long, ⟨h.late.split, h.late.nn, h.late.pre, h.late.plain, h.late.acc, h.late.metadata⟩, h.held, h.step, h.bare, h.ndd⟩

theorem Early.output {m : Metadata} {a : Aytf} (h : Early m a) (o : Str) : Early m { a with currentOutput := o } :=
  ⟨h.short, h.able, h.shape, h.digits, h.acc, h.metadata, h.complete⟩

theorem Wide.output {m : Metadata} {a : Aytf} (h : Wide m a) (o : Str) : Wide m { a with currentOutput := o } :=
  ⟨h.plain, h.nn, h.ndd, h.able, h.metadata⟩

theorem blen_snoc_digit {s : Str} {v : Nat} (hv : isDig v = true) : blen (s ++ [v]) = blen s + 1 := by
  rw [blen_append, blen_digits (s := [v]) (by simpa using hv)]; rfl

theorem head_snoc {s : Str} (c : Nat) (h : s ≠ []) : (s ++ [c]).head? = s.head? := by
  cases s with
  | nil => exact absurd rfl h
  | cons u t => rfl

/-- One more character keeps the invariant. -/
theorem dig_step {C : Container} (hC : ContOk C) {region s : Str} (hw : wideOk (metaFor C region) = true) {a : Aytf} {c : Nat} {r : Bool}
    {q : Aytf × Str} (hd : Dig C region s a) (hc : c < 0x110000) (hph : Phoneish (s.length == 0) c)
    (hst : Stable (metaFor C region) ∨ ∃ u, (s ++ [c]).head? = some u ∧ IsPlus u) (h : a.inputCore C c r = .ok q) :
    Dig C region (s ++ [c]) { q.1 with currentOutput := q.2 } := by
  have hT' := (typed_step C).2 s a c r q hd.typed hc h
  have hph' : (a.noted c r).isDigitOrLeadingPlus c = true := (phoneish_iff hc).2 (hd.typed.accrued ▸ hph)
  have hrest := taken_rest a c r
  generalize hTa : a.taken c r = T at hrest
  have e1 : T.accrued = s ++ [c] := by rw [hrest, ← hd.typed.accrued]
  have e2 : T.able = a.able := by rw [hrest]
  have e3 : T.hasFmt = false := by rw [hrest]; exact hd.clean
  have e4 : T.formats = a.formats := by rw [hrest]
  have e5 : T.template = a.template := by rw [hrest]
  have e6 : T.pre = a.pre := by rw [hrest]
  have e7 : T.ndd = a.ndd := by rw [hrest]
  have e8 : T.currentMeta = a.currentMeta := by rw [hrest]
  have e9 : T.complete = a.complete := by rw [hrest]
  have e10 : T.expecting = a.expecting := by rw [hrest]
  have e11 : T.lastMatch = a.lastMatch := by rw [hrest]
  have hclean : q.1.hasFmt = false := by
    rcases inputCore_cases h with ⟨h1, _⟩ | ⟨_, _, hq⟩ | ⟨_, _, hq⟩
    · rw [hph'] at h1; cases h1
    · rw [(unableStep_frame hq).hasFmt, hTa]; exact e3
    · rw [(ableStep_frame hq).hasFmt, hTa]; exact e3
  have hacc : q.1.accrued = s ++ [c] := hT'.accrued
  suffices k : dial q.2 = dial (s ++ [c]) ∧ (((s ++ [c]).head? = some 0xFF0B ∧ Wide (metaFor C region) q.1) ∨
      ((s ++ [c]).head? ≠ some 0xFF0B ∧ (Early (metaFor C region) q.1 ∨ Mid (metaFor C region) q.1))) by
    refine ⟨hT', home_step hd.home h, hclean, k.1, ?_⟩
    rcases k.2 with ⟨k1, k2⟩ | ⟨k1, k2⟩
    · exact .inl ⟨k1, k2.output _⟩
    · exact .inr ⟨k1, k2.imp (·.output _) (·.output _)⟩
  -- the two ways to go on
  have hcases : (a.able = false ∧ unableStep C T = .ok q) ∨ (a.able = true ∧ ableStep C T ((a.noted c r).accrue c r).2 = .ok q) := by
    rcases inputCore_cases h with ⟨h1, _⟩ | ⟨_, h2, hq⟩ | ⟨_, h2, hq⟩
    · rw [hph'] at h1; cases h1
    · exact .inl ⟨h2, hTa ▸ hq⟩
    · exact .inr ⟨h2, hTa ▸ hq⟩
  have hrune : rune c = c := by unfold rune badBase; split <;> omega
  rcases hd.state with ⟨hhead, hwide⟩ | ⟨hhead, hstate⟩
  · -- after a full-width plus sign
    have hs0 : s ≠ [] := by rintro rfl; cases hhead
    rcases hcases with ⟨_, hq⟩ | ⟨h1, _⟩
    · have hc43 : c ≠ 43 := by
        rintro rfl
        rcases hph with ⟨v, hv⟩ | ⟨hf, _⟩
        · have := (charDigit_iff 43 _).2 ⟨v, hv, rfl⟩
          exact absurd this (by rw [show charDigit 43 = none by decide +kernel]; simp)
        · cases s with
          | nil => exact hs0 rfl
          | cons => cases hf
      obtain ⟨p1, p2, _⟩ := taken_other a r hc43
      rw [hTa] at p1 p2
      obtain ⟨t, ht⟩ := hwide.plain
      have hwT : Wide (metaFor C region) T :=
        ⟨⟨t ++ [(charDigit c).getD c], by rw [p1, ht]; rfl⟩, by rw [p1, p2, hwide.nn], by rw [e7]; exact hwide.ndd,
          by rw [e2]; exact hwide.able, by rw [e8]; exact hwide.metadata⟩
      obtain ⟨k1, k2⟩ := wide_later hw hq hwT
      exact ⟨by rw [k2, hacc], .inl ⟨by rw [head_snoc c hs0]; exact hhead, k1⟩⟩
    · rw [hwide.able] at h1; cases h1
  · by_cases hplus : IsPlus c ∧ s = []
    · obtain ⟨hplus, rfl⟩ := hplus
      -- a plus sign typed first
      rcases hstate with he | hm
      · have hab := he.able
        have hinv := hd.typed.inv.early hab he.short
        have hplain : a.plain = [] := by
          have := hd.typed.inv.same hd.clean
          rw [hd.typed.accrued] at this
          exact List.length_eq_zero_iff.1 this.symm
        have hnn : a.nn = [] := by
          rcases he.shape with h | h
          · rw [← h]; exact hplain
          · rw [hplain] at h; cases h
        rcases hcases with ⟨h1, _⟩ | ⟨_, hq⟩
        · rw [hab] at h1; cases h1
        · rcases hplus with rfl | rfl
          · obtain ⟨p1, p2⟩ := taken_plus a r
            have p1' : T.plain = [43] := by rw [← hTa]; exact p1.trans (by rw [hplain]; rfl)
            have p2' : T.nn = [] := by rw [← hTa]; exact p2.trans hnn
            unfold ableStep at hq
            rw [if_pos (by rw [p1']; decide)] at hq
            have hq := Except.ok.inj hq
            rw [← hq]
            refine ⟨by show dial T.accrued = _; rw [e1], .inr ⟨by decide, .inl ⟨?_, by rw [e2]; exact hab, .inr ?_, ?_, ?_, by rw [e8]; exact he.metadata, by rw [e9]; exact he.complete⟩⟩⟩
            · show blen T.plain < 3; rw [p1']; decide
            · show T.plain = 43 :: T.nn; rw [p1', p2']
            · intro u hu; dsimp only at hu; rw [p2'] at hu; cases hu
            · show dial T.accrued = T.plain; rw [e1, p1']; decide +kernel
          · obtain ⟨p1, p2, _⟩ := taken_other a (c := 0xFF0B) r (by decide)
            have hcd : (charDigit 0xFF0B).getD 0xFF0B = 0xFF0B := by decide +kernel
            rw [hcd] at p1 p2
            have p1' : T.plain = [0xFF0B] := by rw [← hTa]; exact p1.trans (by rw [hplain]; rfl)
            have p2' : T.nn = [0xFF0B] := by rw [← hTa]; exact p2.trans (by rw [hnn]; rfl)
            obtain ⟨k1, k2⟩ := wide_first hw hq p1' p2' (by rw [e8]; exact he.metadata) (by rw [e4]; exact hinv.1)
              (by rw [e9]; exact he.complete)
            exact ⟨by rw [k2, hacc], .inl ⟨rfl, k1⟩⟩
      · exfalso
        have := hm.long
        have hs := hd.typed.inv.same hd.clean
        rw [hd.typed.accrued] at hs
        rw [List.length_eq_zero_iff.1 hs.symm] at this
        exact absurd this (by decide)
    · -- a digit
      have hdig : ∃ v, charDigit c = some v := by
        rcases hph with ⟨v, hv⟩ | ⟨h1, h2⟩
        · exact ⟨_, (charDigit_iff c _).2 ⟨v, hv, rfl⟩⟩
        · exfalso; refine hplus ⟨h2, ?_⟩
          cases s with
          | nil => rfl
          | cons => cases h1
      obtain ⟨v, hv⟩ := hdig
      have hvd := charDigit_isDig hv
      have hc43 : c ≠ 43 := by rintro rfl; exact absurd hv (by rw [show charDigit 43 = none by decide +kernel]; simp)
      have hcff : c ≠ 0xFF0B := by rintro rfl; exact absurd hv (by rw [show charDigit 0xFF0B = none by decide +kernel]; simp)
      obtain ⟨p1, p2, p3⟩ := taken_other a r hc43
      rw [hv, Option.getD_some] at p1 p2 p3
      rw [hTa] at p1 p2
      rw [p3] at hcases
      have hdial : dial (s ++ [c]) = dial s ++ [v] := by
        rw [dial_append]
        congr 1
        have : dialOf c = some v := by unfold dialOf; rw [hrune, hv]
        rw [dial, List.filterMap_cons_some this]; rfl
      have hhead' : (s ++ [c]).head? ≠ some 0xFF0B := by
        by_cases hs0 : s = []
        · subst hs0; simp [hcff]
        · rw [head_snoc c hs0]; exact hhead
      have hblen : blen T.plain = blen a.plain + 1 := by rw [p1]; exact blen_snoc_digit hvd
      have hTaccd : dial a.accrued = a.plain → dial T.accrued = T.plain := by
        intro h; rw [e1, hdial, p1, ← h, hd.typed.accrued]
      rcases hstate with he | hm
      · have hinv := hd.typed.inv.early he.able he.short
        have hacc' := hTaccd he.acc
        have hshape : T.plain = T.nn ∨ T.plain = 43 :: T.nn := by
          rcases he.shape with h | h
          · left; rw [p1, p2, h]
          · right; rw [p1, p2, h]; rfl
        have hdigits : ∀ u ∈ T.nn, isDig u = true := by
          rw [p2]; intro u hu
          rcases List.mem_append.1 hu with hu | hu
          · exact he.digits u hu
          · rw [List.mem_singleton.1 hu]; exact hvd
        rcases hcases with ⟨h1, _⟩ | ⟨_, hq⟩
        · rw [he.able] at h1; cases h1
        · by_cases hl3 : blen T.plain < 3
          · unfold ableStep at hq
            rw [if_pos hl3] at hq
            have hq := Except.ok.inj hq
            rw [← hq]
            exact ⟨by show dial T.accrued = _; rw [e1], .inr ⟨hhead', .inl ⟨hl3, by rw [e2]; exact he.able, hshape, hdigits, hacc',
              by rw [e8]; exact he.metadata, by rw [e9]; exact he.complete⟩⟩⟩
          · have h3 : blen T.plain = 3 := by have := he.short; omega
            obtain ⟨g1, g2, g3⟩ := firstStep_good hC (m := metaFor C region) hq h3 (by rw [e2]; exact he.able)
              (by rw [e6]; exact hinv.2.2.2.1) (by rw [e7]; exact hinv.2.1) (by rw [e4]; exact hinv.1) (by rw [e5]; exact hinv.2.2.2.2)
              hshape hdigits hacc' (by rw [e8]; exact he.metadata) (hC.region region) hvd
            have hpl : q.1.plain = T.plain := (ableStep_frame hq).plain
            refine ⟨by rw [g1.out, hpl, ← hacc', e1], .inr ⟨hhead', .inr ⟨by rw [hpl]; omega, g1.late, g1.held, g1.step, g2, g3⟩⟩⟩
      · have hlT : Late T := by
          refine ⟨?_, ?_, by rw [e6]; exact hm.late.pre, ?_, hTaccd hm.late.acc, by rw [e8]; exact hm.late.metadata⟩
          · rw [e6, p2, p1, ← List.append_assoc, hm.late.split]
          · rw [p2]; intro u hu
            rcases List.mem_append.1 hu with hu | hu
            · exact hm.late.nn u hu
            · rw [List.mem_singleton.1 hu]; exact hvd
          · rw [p1]; intro i u hi
            rw [List.getElem?_append] at hi
            split at hi
            · exact hm.late.plain i u hi
            · left
              have := List.mem_of_getElem? hi
              rw [List.mem_singleton.1 this]; exact hvd
        have hhT : Held T := by intro f hf; rw [e4] at hf; exact hm.held f hf
        have hnT : NddOk (metaFor C region) T := by
          rcases hm.ndd with hn | ⟨h1, h2⟩ | hn
          · exact .inl (e7.trans hn)
          · refine .inr (.inl ⟨e2.trans h1, ?_⟩)
            rw [e8, p1]
            refine atStart_find_mono ?_ h2 _
            have := hm.late.metadata
            unfold formatsOk at this
            simp only [Bool.and_eq_true] at this
            show (Re.noAnchor (.alt _ _)) = true
            simp only [Re.noAnchor, Bool.and_eq_true]
            exact ⟨by decide, this.2⟩
          · refine .inr (.inr ?_)
            obtain ⟨w, t, sp, k1, k2, k3, k4, k5, k6, k7, k8, k9⟩ := hn
            exact ⟨w, t ++ [v], sp, by rw [p1, k1, List.append_assoc], k2, k3, e7.trans k4, by rw [e7]; exact k5,
              by rw [e7, p2, p1, ← List.append_assoc, k6], by rw [e6, e7]; exact k7, k8, e8.trans k9⟩
        rcases hcases with ⟨h1, hq⟩ | ⟨h1, hq⟩
        · have hs : Stable (metaFor C region) ∨ T.plain.head? = some 43 := by
            rcases hst with hs | ⟨u, hu, hpu⟩
            · exact .inl hs
            · right
              have hu43 : u = 43 := by
                rcases hpu with rfl | rfl
                · rfl
                · exact absurd hu hhead'
              subst hu43
              have hs0 : s ≠ [] := by rintro rfl; simp at hu; exact hc43 hu
              rw [head_snoc c hs0] at hu
              rw [← hlT.acc, e1]
              cases s with
              | nil => exact absurd rfl hs0
              | cons w s' =>
                simp only [List.head?_cons, Option.some.injEq] at hu
                subst hu
                have : dialOf 43 = some 43 := by decide +kernel
                rw [List.cons_append, dial, List.filterMap_cons_some this]; rfl
          obtain ⟨g1, g2, g3⟩ := unableStep_good hC hq e3 hlT hhT (e2.trans h1) hnT hs
          have hpl : q.1.plain = T.plain := (unableStep_frame hq).plain
          exact ⟨by rw [g1.out, hpl, ← hlT.acc, e1], .inr ⟨hhead', .inr ⟨by rw [hpl, hblen]; have := hm.long; omega, g1.late, g1.held, g1.step, g2, g3⟩⟩⟩
        · have hbig : 3 < blen T.plain := by rw [hblen]; have := hm.long; omega
          have hq' : laterStep C T v = .ok q := by
            unfold ableStep at hq
            rw [if_neg (by omega), if_neg (by omega)] at hq
            exact hq
          have hlong := hd.typed.inv.long h1
          have hexf : T.expecting = true → T.formats = [] := by
            intro he
            rw [e4]
            apply Classical.byContradiction
            intro hne
            rw [e10, (hlong hne).2] at he; cases he
          have htpl : T.formats = [] → T.template = [] := by
            rw [e4, e5]; exact hm.bare h1
          have g1 : Good q := by
            refine laterStep_good hC (nn0 := a.nn) hq' hlT hhT hexf ?_ ?_ hvd htpl
            · intro hne
              rw [e4] at hne
              rw [p2, blen_snoc_digit hvd]
              have := (hlong hne).1; omega
            · intro hne
              rw [e4] at hne
              refine ⟨p2, ?_⟩
              rcases hm.step h1 hne with k | k
              · left; unfold FillN at k ⊢; rw [e5, e11]; exact k
              · right; unfold Exhausted at k ⊢; rw [e5, e11]; exact k
          have hpl : q.1.plain = T.plain := (ableStep_frame hq).plain
          exact ⟨by rw [g1.out, hpl, ← hlT.acc, e1], .inr ⟨hhead', .inr ⟨by rw [hpl]; omega, g1.late, g1.held, g1.step,
            laterStep_bare hq' (fun he => htpl (hexf he)) htpl, laterStep_ndd hC hq' hlT (e2.trans h1) hnT⟩⟩⟩

theorem phoneInput_split {s : Str} {c : Nat} (h : PhoneInput (s ++ [c])) : PhoneInput s ∧ Phoneish (s.length == 0) c := by
  constructor
  · intro i u hi
    exact h i u (by rw [List.getElem?_append_left (List.getElem?_eq_some_iff.1 hi).1]; exact hi)
  · exact h s.length c (by simp)

/-- The invariant in every state reached by typing digits and a leading plus sign. -/
theorem dig_calls {C : Container} (hC : ContOk C) {region : Str} (hw : wideOk (metaFor C region) = true) {ks : List Call} {a : Aytf}
    (h : calls C (new C region) ks = .ok a) (hp : PhoneInput (typed ks))
    (hs : Stable (metaFor C region) ∨ ∃ u, (typed ks).head? = some u ∧ IsPlus u) : Dig C region (typed ks) a := by
  have key : Home C region a ∧ (PhoneInput (typed ks) → (Stable (metaFor C region) ∨ typed ks = [] ∨ ∃ u, (typed ks).head? = some u ∧ IsPlus u) →
      Dig C region (typed ks) a) := by
    refine calls_induct (P := fun s a => Home C region a ∧ (PhoneInput s →
      (Stable (metaFor C region) ∨ s = [] ∨ ∃ u, s.head? = some u ∧ IsPlus u) → Dig C region s a)) ?_ ?_ (s := [])
      ⟨⟨rfl, rfl⟩, fun _ _ => dig_fresh C region⟩ h
    · intro s a ⟨ha, _⟩
      rw [clear_eq_new ha]
      exact ⟨⟨rfl, rfl⟩, fun _ _ => dig_fresh C region⟩
    · intro s a c r q ⟨ha, hd⟩ hc hq
      refine ⟨home_step ha hq, fun hp hs => ?_⟩
      obtain ⟨hp1, hp2⟩ := phoneInput_split hp
      have hs1 : Stable (metaFor C region) ∨ ∃ u, (s ++ [c]).head? = some u ∧ IsPlus u := by
        rcases hs with hs | hs | hs
        · exact .inl hs
        · simp at hs
        · exact .inr hs
      refine dig_step hC hw (hd hp1 ?_) hc hp2 hs1 hq
      rcases hs1 with hs1 | ⟨u, hu, hpu⟩
      · exact .inl hs1
      · right
        by_cases h0 : s = []
        · exact .inl h0
        · rw [head_snoc c h0] at hu; exact .inr ⟨u, hu, hpu⟩
  exact key.2 hp (hs.imp id .inr)

end Verif.Aytf
