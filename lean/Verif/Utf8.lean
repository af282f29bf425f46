import Verif.Str
/-!
# Bytes and units

The link between a Go string (bytes) and its list of units.  `decode` follows the first-byte table of Go's `unicode/utf8`
(`DecodeRuneInString`), the function behind `for range` and `regexp`.  No byte is lost (`encode_decode`), the length in bytes is `blen`
(`blen_decode`), valid text is read back rune by rune (`decode_encode`), and cutting or joining strings is cutting or joining unit
lists wherever the right-hand side does not begin with a continuation byte (`decode_append`): such is every place where the code of
`/repo` cuts or joins.
-/
namespace Verif

namespace Utf8

/-- A continuation byte. -/
def cont (b : Nat) : Bool := decide (0x80 ≤ b) && decide (b ≤ 0xBF)

/-- The least and greatest second byte after the first byte `b` of a sequence of two to four bytes (`acceptRanges`). -/
def lo (b : Nat) : Nat := if b = 0xE0 then 0xA0 else if b = 0xF0 then 0x90 else 0x80
def hi (b : Nat) : Nat := if b = 0xED then 0x9F else if b = 0xF4 then 0x8F else 0xBF

/-- Whether `c` may follow the first byte `b`. -/
def second (b c : Nat) : Bool := decide (lo b ≤ c) && decide (c ≤ hi b)

theorem second_iff (b c : Nat) : second b c = true ↔ lo b ≤ c ∧ c ≤ hi b := by simp [second]

/-- The unit at the beginning of `b :: bs` and the number of bytes of `bs` that belong to it. -/
def step (b : Nat) (bs : List Nat) : Nat × Nat :=
  if b < 0x80 then (b, 0)
  else if b < 0xC2 ∨ 0xF4 < b then (badBase + b, 0)
  else match bs with
    | [] => (badBase + b, 0)
    | c :: bs =>
      if second b c = false then (badBase + b, 0)
      else if b < 0xE0 then ((b - 0xC0) * 64 + (c - 0x80), 1)
      else match bs with
        | [] => (badBase + b, 0)
        | d :: bs =>
          if cont d = false then (badBase + b, 0)
          else if b < 0xF0 then ((b - 0xE0) * 4096 + (c - 0x80) * 64 + (d - 0x80), 2)
          else match bs with
            | [] => (badBase + b, 0)
            | e :: _ =>
              if cont e = false then (badBase + b, 0)
              else ((b - 0xF0) * 262144 + (c - 0x80) * 4096 + (d - 0x80) * 64 + (e - 0x80), 3)

/-- The units of a byte string. -/
def decode : List Nat → Str
  | [] => []
  | b :: bs => (step b bs).1 :: decode (bs.drop (step b bs).2)
termination_by bs => bs.length
decreasing_by simp [List.length_drop]; omega

/-- The bytes of a unit: UTF-8 of a rune, the byte itself for an invalid byte. -/
def enc (u : Nat) : List Nat :=
  if u < 0x80 then [u]
  else if u < 0x800 then [0xC0 + u / 64, 0x80 + u % 64]
  else if u < 0x10000 then [0xE0 + u / 4096, 0x80 + u / 64 % 64, 0x80 + u % 64]
  else if u < badBase then [0xF0 + u / 262144, 0x80 + u / 4096 % 64, 0x80 + u / 64 % 64, 0x80 + u % 64]
  else [u - badBase]

/-- The bytes of a unit list. -/
def encode (s : Str) : List Nat := s.flatMap enc

/-- A valid rune: a code point that is not a surrogate. -/
def validRune (u : Nat) : Bool := decide (u < 0xD800) || (decide (0xE000 ≤ u) && decide (u < badBase))

theorem step_spec (b : Nat) (bs : List Nat) (hb : b < 256) :
    enc (step b bs).1 = b :: bs.take (step b bs).2 ∧ (step b bs).2 ≤ bs.length ∧
      (validRune (step b bs).1 = true ∨ ((step b bs).1 = badBase + b ∧ (step b bs).2 = 0 ∧ 0x80 ≤ b)) := by
  have bad : 0x80 ≤ b → enc (badBase + b) = b :: bs.take 0 ∧ 0 ≤ bs.length ∧
      (validRune (badBase + b) = true ∨ (badBase + b = badBase + b ∧ 0 = 0 ∧ 0x80 ≤ b)) := by
    intro h
    refine ⟨?_, Nat.zero_le _, Or.inr ⟨rfl, rfl, h⟩⟩
    unfold enc badBase
    rw [if_neg (by omega), if_neg (by omega), if_neg (by omega), if_neg (by omega)]
    simp
  unfold step
  split
  · rename_i h
    refine ⟨?_, Nat.zero_le _, Or.inl ?_⟩
    · simp [enc, h]
    · simp [validRune]; omega
  · rename_i h
    split
    · exact bad (by omega)
    · rename_i h2
      split
      · exact bad (by omega)
      · rename_i c bs
        split
        · exact bad (by omega)
        · rename_i h3
          have h3 : lo b ≤ c ∧ c ≤ hi b := by simpa [second] using h3
          have hlo : 0x80 ≤ lo b := by unfold lo; (repeat' split) <;> omega
          have hhi : hi b ≤ 0xBF := by unfold hi; (repeat' split) <;> omega
          split
          · rename_i h4
            refine ⟨?_, by simp, Or.inl ?_⟩
            · unfold enc
              rw [if_neg (by omega), if_pos (by omega)]
              simp; omega
            · simp [validRune]; omega
          · rename_i h4
            split
            · exact bad (by omega)
            · rename_i d bs
              split
              · exact bad (by omega)
              · rename_i h5
                have h5 : 0x80 ≤ d ∧ d ≤ 0xBF := by simpa [cont] using h5
                split
                · rename_i h6
                  have k : 0x800 ≤ (b - 0xE0) * 4096 + (c - 0x80) * 64 + (d - 0x80) := by
                    by_cases hE : b = 0xE0
                    · subst hE; have : lo 0xE0 = 0xA0 := by decide
                      omega
                    · omega
                  refine ⟨?_, by simp, Or.inl ?_⟩
                  · unfold enc
                    rw [if_neg (by omega), if_neg (by omega), if_pos (by omega)]
                    simp; omega
                  · simp only [validRune, Bool.or_eq_true, Bool.and_eq_true, decide_eq_true_eq]
                    have hB : badBase = 0x110000 := rfl
                    by_cases hE : b = 0xED
                    · subst hE; have : hi 0xED = 0x9F := by decide
                      omega
                    · omega
                · rename_i h6
                  split
                  · exact bad (by omega)
                  · rename_i e bs
                    split
                    · exact bad (by omega)
                    · rename_i h7
                      have h7 : 0x80 ≤ e ∧ e ≤ 0xBF := by simpa [cont] using h7
                      have k : 0x10000 ≤ (b - 0xF0) * 262144 + (c - 0x80) * 4096 + (d - 0x80) * 64 + (e - 0x80) ∧
                          (b - 0xF0) * 262144 + (c - 0x80) * 4096 + (d - 0x80) * 64 + (e - 0x80) < badBase := by
                        unfold badBase
                        by_cases hE : b = 0xF0
                        · subst hE; have : lo 0xF0 = 0x90 := by decide
                          omega
                        · by_cases hF : b = 0xF4
                          · subst hF; have : hi 0xF4 = 0x8F := by decide
                            omega
                          · omega
                      refine ⟨?_, by simp, Or.inl ?_⟩
                      · unfold enc
                        rw [if_neg (by omega), if_neg (by omega), if_neg (by omega), if_pos k.2]
                        simp; omega
                      · simp only [validRune, Bool.or_eq_true, Bool.and_eq_true, decide_eq_true_eq]
                        omega

/-- No byte is lost by looking at a string through its units. -/
theorem encode_decode (bs : List Nat) (h : ∀ b ∈ bs, b < 256) : encode (decode bs) = bs := by
  fun_induction decode bs with
  | case1 => rfl
  | case2 b bs ih =>
    obtain ⟨h1, -, -⟩ := step_spec b bs (h b (by simp))
    rw [encode, List.flatMap_cons, h1]
    have := ih (fun x hx => h x (List.mem_cons_of_mem _ (List.mem_of_mem_drop hx)))
    rw [encode] at this
    rw [this, List.cons_append, List.take_append_drop]

/-- Different strings have different unit lists. -/
theorem decode_inj {a b : List Nat} (ha : ∀ x ∈ a, x < 256) (hb : ∀ x ∈ b, x < 256) (h : decode a = decode b) : a = b := by
  rw [← encode_decode a ha, ← encode_decode b hb, h]

theorem length_enc (u : Nat) : (enc u).length = width u := by
  unfold enc width
  repeat' split
  all_goals rfl

theorem length_encode (s : Str) : (encode s).length = blen s := by
  induction s with
  | nil => rfl
  | cons u s ih => simp [encode, blen, length_enc] at *

/-- `blen` is Go's `len`. -/
theorem blen_decode (bs : List Nat) (h : ∀ b ∈ bs, b < 256) : blen (decode bs) = bs.length := by
  rw [← length_encode, encode_decode bs h]

/-- Every unit of a string is a valid rune or an invalid byte. -/
theorem decode_units (bs : List Nat) (h : ∀ b ∈ bs, b < 256) :
    ∀ u ∈ decode bs, validRune u = true ∨ ∃ b ∈ bs, u = badBase + b ∧ 0x80 ≤ b := by
  fun_induction decode bs with
  | case1 => simp
  | case2 b bs ih =>
    obtain ⟨-, -, h3⟩ := step_spec b bs (h b (by simp))
    intro u hu
    rcases List.mem_cons.1 hu with rfl | hu
    · rcases h3 with h3 | h3
      · exact Or.inl h3
      · exact Or.inr ⟨b, by simp, h3.1, h3.2.2⟩
    · rcases ih (fun x hx => h x (List.mem_cons_of_mem _ (List.mem_of_mem_drop hx))) u hu with k | ⟨c, hc, k⟩
      · exact Or.inl k
      · exact Or.inr ⟨c, List.mem_cons_of_mem _ (List.mem_of_mem_drop hc), k⟩

theorem step_enc (u : Nat) (hu : validRune u = true) (bs : List Nat) :
    ∃ b r, enc u = b :: r ∧ step b (r ++ bs) = (u, r.length) := by
  simp only [validRune, Bool.or_eq_true, Bool.and_eq_true, decide_eq_true_eq] at hu
  have hB : badBase = 0x110000 := rfl
  unfold enc
  split
  · rename_i h; exact ⟨u, [], rfl, by simp [step, h]⟩
  · rename_i h1
    split
    · rename_i h2
      refine ⟨_, _, rfl, ?_⟩
      have e : second (0xC0 + u / 64) (0x80 + u % 64) = true := by
        rw [second_iff]; unfold lo hi
        repeat' split
        all_goals omega
      unfold step
      rw [if_neg (by omega), if_neg (by omega)]
      simp only [List.cons_append, e, Bool.true_eq_false, if_false]
      rw [if_pos (by omega)]
      simp; omega
    · rename_i h2
      split
      · rename_i h3
        refine ⟨_, _, rfl, ?_⟩
        have e : second (0xE0 + u / 4096) (0x80 + u / 64 % 64) = true := by
          rw [second_iff]; unfold lo hi
          repeat' split
          all_goals omega
        have e2 : cont (0x80 + u % 64) = true := by simp [cont]; omega
        unfold step
        rw [if_neg (by omega), if_neg (by omega)]
        simp only [List.cons_append, e, e2, Bool.true_eq_false, if_false]
        rw [if_neg (by omega), if_pos (by omega)]
        simp; omega
      · rename_i h3
        rw [if_pos (by omega)]
        refine ⟨_, _, rfl, ?_⟩
        have e : second (0xF0 + u / 262144) (0x80 + u / 4096 % 64) = true := by
          rw [second_iff]; unfold lo hi
          repeat' split
          all_goals omega
        have e2 : cont (0x80 + u / 64 % 64) = true := by simp [cont]; omega
        have e3 : cont (0x80 + u % 64) = true := by simp [cont]; omega
        unfold step
        rw [if_neg (by omega), if_neg (by omega)]
        simp only [List.cons_append, e, e2, e3, Bool.true_eq_false, if_false]
        rw [if_neg (by omega), if_neg (by omega)]
        simp; omega

theorem decode_enc (u : Nat) (hu : validRune u = true) (bs : List Nat) : decode (enc u ++ bs) = u :: decode bs := by
  obtain ⟨b, r, h1, h2⟩ := step_enc u hu bs
  rw [h1, List.cons_append, decode, h2]
  simp

/-- Valid text in front of any bytes is read rune by rune. -/
theorem decode_valid_append (s : Str) (hs : ∀ u ∈ s, validRune u = true) (bs : List Nat) : decode (encode s ++ bs) = s ++ decode bs := by
  induction s with
  | nil => rfl
  | cons u s ih =>
    have : encode (u :: s) = enc u ++ encode s := rfl
    rw [this, List.append_assoc, decode_enc u (hs u (by simp)), ih (fun v hv => hs v (by simp [hv]))]
    rfl

/-- Valid text is read back rune by rune. -/
theorem decode_encode (s : Str) (hs : ∀ u ∈ s, validRune u = true) : decode (encode s) = s := by
  simpa [decode] using decode_valid_append s hs []

/-- The unit at the beginning does not depend on what follows, if that is no continuation byte. -/
theorem step_append (b : Nat) (a bs : List Nat) (hc : ∀ c ∈ bs.head?, cont c = false) : step b (a ++ bs) = step b a := by
  have hs : ∀ x, ∀ c ∈ bs.head?, second x c = false := by
    intro x c hx
    have h := hc c hx
    have hlo : 0x80 ≤ lo x := by unfold lo; (repeat' split) <;> omega
    have hhi : hi x ≤ 0xBF := by unfold hi; (repeat' split) <;> omega
    simp [cont] at h
    simp [second]
    omega
  rcases a with _ | ⟨c, _ | ⟨d, _ | ⟨e, a⟩⟩⟩
  · rcases bs with _ | ⟨x, bs⟩
    · rfl
    · have := hs b x rfl
      simp [step, this]
  · rcases bs with _ | ⟨x, bs⟩
    · rfl
    · have := hc x rfl
      simp [step, this]
  · rcases bs with _ | ⟨x, bs⟩
    · rfl
    · have := hc x rfl
      simp [step, this]
  · rfl

/-- Joining two strings joins their unit lists, unless the second begins with a continuation byte. -/
theorem decode_append (a bs : List Nat) (ha : ∀ x ∈ a, x < 256) (hc : ∀ c ∈ bs.head?, cont c = false) : decode (a ++ bs) = decode a ++ decode bs := by
  fun_induction decode a with
  | case1 => rfl
  | case2 b a ih =>
    rw [List.cons_append, decode, step_append b a bs hc, List.cons_append]
    have hl := (step_spec b a (ha b (by simp))).2.1
    rw [List.drop_append_of_le_length hl, ih (fun x hx => ha x (List.mem_cons_of_mem _ (List.mem_of_mem_drop hx)))]

/-- The same in the other direction: the bytes of a joined unit list. -/
theorem encode_append (a b : Str) : encode (a ++ b) = encode a ++ encode b := by simp [encode]

/-- "é€😀" and a stray byte. -/
example : decode [0xC3, 0xA9, 0xE2, 0x82, 0xAC, 0xF0, 0x9F, 0x98, 0x80, 0xFF, 0x31] = [0xE9, 0x20AC, 0x1F600, badBase + 0xFF, 0x31] := by
  simp [decode, step, second, lo, hi, cont]

/-- A joint where the hypothesis of `decode_append` fails: the halves of "é". -/
example : decode ([0xC3] ++ [0xA9]) ≠ decode [0xC3] ++ decode [0xA9] := by
  simp [decode, step, second, lo, hi, badBase]

end Utf8

end Verif
