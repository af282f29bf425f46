import Verif.Lemmas.Aytf
/-!
# Sequences of calls on an as-you-type formatter
-/
namespace Verif.Aytf
open Verif.Builder (bind_ok)
open Verif.Spec

theorem typedChar_eq (c : Int) : runeOf c = typedChar c := by
  unfold runeOf typedChar
  by_cases h : 0 ≤ c ∧ (c < 0xD800 ∨ (0xDFFF < c ∧ c < 0x110000))
  · rw [if_pos h, if_pos (by omega)]
  · rw [if_neg h, if_neg (by omega)]

theorem typedChar_lt (c : Int) : typedChar c < 0x110000 := by unfold typedChar; split <;> omega

theorem input_ok {C : Container} {a : Aytf} {c : Int} {r : Bool} {p : Aytf × Str} (h : a.input C c r = .ok p) :
    ∃ q, a.inputCore C (typedChar c) r = .ok q ∧ p = ({ q.1 with currentOutput := q.2 }, q.2) := by
  unfold input at h
  obtain ⟨q, h1, h⟩ := bind_ok.1 h
  rw [typedChar_eq] at h1
  exact ⟨q, h1, (Except.ok.inj h).symm⟩

/-- What one call does, for proofs by induction over calls. -/
theorem call_cases {C : Container} {a b : Aytf} {k : Call} (h : call C a k = .ok b) :
    (k = .clear ∧ b = a.clear C) ∨
    ∃ c r q, (k = .input c ∧ r = false ∨ k = .remember c ∧ r = true) ∧ a.inputCore C (typedChar c) r = .ok q ∧
      b = { q.1 with currentOutput := q.2 } := by
  cases k with
  | clear => exact .inl ⟨rfl, (Except.ok.inj h).symm⟩
  | input c =>
    obtain ⟨p, h1, h⟩ := bind_ok.1 h
    obtain ⟨q, h2, rfl⟩ := input_ok h1
    exact .inr ⟨c, false, q, .inl ⟨rfl, rfl⟩, h2, (Except.ok.inj h).symm⟩
  | remember c =>
    obtain ⟨p, h1, h⟩ := bind_ok.1 h
    obtain ⟨q, h2, rfl⟩ := input_ok h1
    exact .inr ⟨c, true, q, .inr ⟨rfl, rfl⟩, h2, (Except.ok.inj h).symm⟩

/-- Induction over a sequence of calls, keeping track of what was typed. -/
theorem calls_induct {C : Container} {P : Str → Aytf → Prop}
    (hclear : ∀ s a, P s a → P [] (a.clear C))
    (hinput : ∀ s a c r q, P s a → c < 0x110000 → a.inputCore C c r = .ok q → P (s ++ [c]) { q.1 with currentOutput := q.2 })
    {ks : List Call} {s : Str} {a b : Aytf} (h0 : P s a) (h : calls C a ks = .ok b) : P (typedFrom s ks) b := by
  induction ks generalizing s a with
  | nil => cases h; exact h0
  | cons k ks ih =>
    obtain ⟨a1, h1, h⟩ := bind_ok.1 h
    rcases call_cases h1 with ⟨rfl, rfl⟩ | ⟨c, r, q, hk, hq, rfl⟩
    · exact ih (hclear s a h0) h
    · have := ih (hinput s a _ r q h0 (typedChar_lt c) hq) h
      rcases hk with ⟨rfl, _⟩ | ⟨rfl, _⟩ <;> exact this

theorem isUniDigit_iff (c : Nat) : isUniDigit c = true ↔ ∃ v, UnicodeDigit c v := by
  unfold isUniDigit UnicodeDigit
  rw [inRanges_iff]
  constructor
  · rintro ⟨r, hr, h1, h2⟩; exact ⟨_, r, hr, h1, h2, rfl⟩
  · rintro ⟨_, r, hr, h1, h2, _⟩; exact ⟨r, hr, h1, h2⟩

theorem plusOne_iff {c : Nat} (h : c < 0x110000) : plusCharsPattern.isMatch [c] = true ↔ IsPlus c := by
  rw [plus_isMatch_iff]
  have : rune c = c := by unfold rune badBase; split <;> omega
  simp only [exists_eq_left, this, plusL, List.mem_cons, List.not_mem_nil, or_false]
  rfl

theorem phoneish_iff {a : Aytf} {c : Nat} {r : Bool} (h : c < 0x110000) :
    (a.noted c r).isDigitOrLeadingPlus c = true ↔ Phoneish (a.accrued.length == 0) c := by
  unfold isDigitOrLeadingPlus Phoneish
  rw [Bool.or_eq_true, isUniDigit_iff, Bool.and_eq_true, plusOne_iff h, noted_rest]
  simp

/-- Invariant over calls: what was typed is kept, formatting is off exactly when a formatting character was typed. -/
structure Typed (s : Str) (a : Aytf) : Prop where
  inv : Inv a
  accrued : a.accrued = s
  phone : a.hasFmt = false → PhoneInput s
  out : a.able = false → a.currentOutput = a.accrued ∨ (a.hasFmt = false ∧ normalizeDiallable a.currentOutput = a.plain)

theorem Inv.output {a : Aytf} (h : Inv a) (o : Str) : Inv { a with currentOutput := o } :=
  ⟨h.fmt, h.off, h.early, h.long, h.same, h.orig, h.rem⟩

theorem phoneInput_snoc {s : Str} {c : Nat} (h : PhoneInput s) (hc : Phoneish (s.length == 0) c) : PhoneInput (s ++ [c]) := by
  intro i u hi
  rw [List.getElem?_append] at hi
  split at hi
  · exact h i u hi
  · rename_i hl
    have h0 : i - s.length = 0 := by
      cases hk : i - s.length with
      | zero => rfl
      | succ n => rw [hk] at hi; simp at hi
    rw [h0] at hi
    simp only [List.getElem?_cons_zero, Option.some.injEq] at hi
    subst hi
    have : i = s.length := by omega
    rw [this]; exact hc

theorem noted_hasFmt (a : Aytf) (c : Nat) (r : Bool) : (a.noted c r).hasFmt = a.hasFmt := by rw [noted_rest]

theorem taken_hasFmt (a : Aytf) (c : Nat) (r : Bool) : (a.taken c r).hasFmt = a.hasFmt := by rw [taken_rest]

theorem inputCore_hasFmt {C : Container} {a : Aytf} {c : Nat} {r : Bool} {p : Aytf × Str} (h : a.inputCore C c r = .ok p)
    (hf : p.1.hasFmt = false) : (a.noted c r).isDigitOrLeadingPlus c = true ∧ a.hasFmt = false := by
  rcases inputCore_cases h with ⟨_, rfl⟩ | ⟨hd, ha, h⟩ | ⟨hd, ha, h⟩
  · cases hf
  · rw [(unableStep_frame h).hasFmt, taken_hasFmt] at hf; exact ⟨hd, hf⟩
  · rw [(ableStep_frame h).hasFmt, taken_hasFmt] at hf; exact ⟨hd, hf⟩

theorem typed_new (C : Container) (r : Str) : Typed [] (new C r) :=
  ⟨inv_new C r, rfl, fun _ i u h => by simp at h, fun h => by cases h⟩

theorem typed_step (C : Container) : (∀ s a, Typed s a → Typed [] (a.clear C)) ∧
    (∀ s a c r q, Typed s a → c < 0x110000 → a.inputCore C c r = .ok q → Typed (s ++ [c]) { q.1 with currentOutput := q.2 }) := by
  constructor
  · intro s a _
    exact ⟨inv_clear C a, rfl, fun _ i u h => by simp at h, fun h => by cases h⟩
  · intro s a c r q ht hc h
    obtain ⟨h1, h2, h3⟩ := inv_input ht.inv h
    refine ⟨h1.output _, by rw [h2, ht.accrued], ?_, h3⟩
    intro hf
    obtain ⟨k1, k2⟩ := inputCore_hasFmt h hf
    exact phoneInput_snoc (ht.phone k2) (ht.accrued ▸ (phoneish_iff hc).1 k1)

/-- The invariant in every state reached from a fresh formatter. -/
theorem typed_calls {C : Container} {r : Str} {ks : List Call} {a : Aytf} (h : calls C (new C r) ks = .ok a) : Typed (typed ks) a :=
  calls_induct (typed_step C).1 (typed_step C).2 (typed_new C r) h

/-- The region of a formatter never changes. -/
structure Home (C : Container) (r : Str) (a : Aytf) : Prop where
  country : a.defaultCountry = r
  metadata : a.defaultMeta = metaFor C r

theorem home_calls {C : Container} {r : Str} {ks : List Call} {a : Aytf} (h : calls C (new C r) ks = .ok a) : Home C r a := by
  refine calls_induct (P := fun _ a => Home C r a) (fun _ _ h => ⟨h.1, h.2⟩) ?_ (s := []) ⟨rfl, rfl⟩ h
  intro s a c rb q ha _ hq
  have hn : (a.noted c rb).defaultCountry = a.defaultCountry ∧ (a.noted c rb).defaultMeta = a.defaultMeta := by
    rw [noted_rest]; exact ⟨rfl, rfl⟩
  have ht : (a.taken c rb).defaultCountry = a.defaultCountry ∧ (a.taken c rb).defaultMeta = a.defaultMeta := by
    rw [taken_rest]; exact ⟨rfl, rfl⟩
  rcases inputCore_cases hq with ⟨_, rfl⟩ | ⟨_, _, hq⟩ | ⟨_, _, hq⟩
  · exact ⟨hn.1.trans ha.1, hn.2.trans ha.2⟩
  · have f := unableStep_frame hq
    exact ⟨f.defaultCountry.trans (ht.1.trans ha.1), f.defaultMeta.trans (ht.2.trans ha.2)⟩
  · have f := ableStep_frame hq
    exact ⟨f.defaultCountry.trans (ht.1.trans ha.1), f.defaultMeta.trans (ht.2.trans ha.2)⟩

/-- `Clear` restores the fresh state exactly. -/
theorem clear_eq_new {C : Container} {r : Str} {a : Aytf} (h : Home C r a) : a.clear C = new C r := by
  have hm : (if a.currentMeta ≠ a.defaultMeta then metaFor C a.defaultCountry else a.currentMeta) = metaFor C r := by
    split
    · rw [h.country]
    · rename_i hne; rw [Classical.not_not.1 hne, h.metadata]
  unfold clear new
  rw [hm, h.country, h.metadata]

theorem calls_append (C : Container) (a : Aytf) (ks ls : List Call) :
    calls C a (ks ++ ls) = (do calls C (← calls C a ks) ls) := by
  induction ks generalizing a with
  | nil => rfl
  | cons k ks ih =>
    show (do calls C (← call C a k) (ks ++ ls)) = _
    cases hk : call C a k with
    | error e => simp [calls, hk, bind, Except.bind]
    | ok b => simp only [calls, hk, bind, Except.bind]; exact ih b

theorem seen_calls {C : Container} {a : Aytf} {ks : List Call} {xs : List (Str × Go Nat)} (h : seen C a ks = .ok xs) :
    ∃ b, calls C a ks = .ok b := by
  induction ks generalizing a xs with
  | nil => exact ⟨a, rfl⟩
  | cons k ks ih =>
    obtain ⟨b, hb, h⟩ := bind_ok.1 h
    obtain ⟨ys, hy, h⟩ := bind_ok.1 h
    obtain ⟨b', hb'⟩ := ih hy
    exact ⟨b', by simp only [calls, hb, bind, Except.bind]; exact hb'⟩

theorem seen_append {C : Container} {a b : Aytf} {ks ls : List Call} {xs : List (Str × Go Nat)} (h : seen C a ks = .ok xs)
    (hb : calls C a ks = .ok b) : seen C a (ks ++ ls) = (do return xs ++ (← seen C b ls)) := by
  induction ks generalizing a xs with
  | nil =>
    cases h; cases hb
    show seen C b ls = _
    cases seen C b ls <;> rfl
  | cons k ks ih =>
    obtain ⟨b1, hb1, h⟩ := bind_ok.1 h
    obtain ⟨ys, hy, h⟩ := bind_ok.1 h
    obtain ⟨b2, hb2, hb⟩ := bind_ok.1 hb
    rw [hb1] at hb2; cases hb2
    have := ih hy hb
    have hx := (Except.ok.inj h).symm
    subst hx
    show (do let b ← call C a k; return (b.currentOutput, b.position) :: (← seen C b (ks ++ ls))) = _
    simp only [hb1, bind, Except.bind, this, pure, Except.pure]
    cases seen C b ls <;> rfl

end Verif.Aytf
