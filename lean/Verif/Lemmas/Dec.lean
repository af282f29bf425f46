import Verif.Spec.Basic
/-!
# Lemmas on decimal representations
-/
namespace Verif

theorem isDig_iff (u : Nat) : isDig u = true ↔ Spec.IsDigit u := by
  simp [isDig, Spec.IsDigit]

theorem decFuel_eq (f : Nat) : ∀ g n, n < f → n < g → decFuel f n = decFuel g n := by
  induction f with
  | zero => intro g n h; omega
  | succ f ih =>
    intro g n h1 h2
    cases g with
    | zero => omega
    | succ g =>
      simp only [decFuel]
      split
      · rfl
      · rw [ih g (n / 10) (by omega) (by omega)]

theorem dec_lt {n : Nat} (h : n < 10) : dec n = [48 + n] := by simp [dec, decFuel, h]

theorem dec_ge {n : Nat} (h : 10 ≤ n) : dec n = dec (n / 10) ++ [48 + n % 10] := by
  have : ¬ n < 10 := by omega
  have h2 : dec n = decFuel n (n / 10) ++ [48 + n % 10] := by
    show decFuel (n + 1) n = _
    simp [decFuel, this]
  rw [h2, decFuel_eq n (n / 10 + 1) (n / 10) (by omega) (by omega)]; rfl

theorem dec_induct {P : Nat → Prop} (h1 : ∀ n, n < 10 → P n) (h2 : ∀ n, 10 ≤ n → P (n / 10) → P n) (n : Nat) : P n := by
  induction n using Nat.strongRecOn with
  | _ n ih =>
    by_cases h : n < 10
    · exact h1 n h
    · exact h2 n (by omega) (ih _ (by omega))

theorem digitChar_toNat : ∀ n, n < 10 → n.digitChar.toNat = 48 + n := by decide

theorem dec_eq_decimal (n : Nat) : dec n = Spec.decimal n := by
  rw [Spec.decimal, Nat.toList_repr]
  induction n using dec_induct with
  | h1 n h => rw [dec_lt h, Nat.toDigits_of_lt_base h]; simp [digitChar_toNat n h]
  | h2 n h ih =>
    rw [dec_ge h, Nat.toDigits_of_base_le (by omega) h, ih]
    simp [digitChar_toNat (n % 10) (by omega)]

theorem dec_ne_nil (n : Nat) : dec n ≠ [] := by
  by_cases h : n < 10
  · simp [dec_lt h]
  · simp [dec_ge (Nat.le_of_not_lt h)]

theorem dec_digits (n : Nat) : ∀ u ∈ dec n, isDig u = true := by
  induction n using dec_induct with
  | h1 n h => simp [dec_lt h, isDig]; omega
  | h2 n h ih =>
    rw [dec_ge h]; intro u hu
    simp only [List.mem_append, List.mem_singleton] at hu
    rcases hu with hu | hu
    · exact ih u hu
    · subst hu; simp [isDig]; omega

theorem head?_append' (a b : Str) (h : a ≠ []) : (a ++ b).head? = a.head? := by
  cases a with
  | nil => exact absurd rfl h
  | cons x a => rfl

theorem dec_head (n : Nat) (hn : n ≠ 0) : (dec n).head? ≠ some 48 := by
  induction n using dec_induct with
  | h1 n h => simp [dec_lt h]; omega
  | h2 n h ih =>
    rw [dec_ge h, head?_append' _ _ (dec_ne_nil _)]
    exact ih (by omega)

@[simp] theorem digVal_nil : digVal [] = 0 := rfl

theorem digVal_snoc (s : Str) (u : Nat) : digVal (s ++ [u]) = digVal s * 10 + (u - 48) := by
  simp [digVal]

theorem digVal_dec (n : Nat) : digVal (dec n) = n := by
  induction n using dec_induct with
  | h1 n h => rw [dec_lt h]; simp [digVal]
  | h2 n h ih => rw [dec_ge h, digVal_snoc, ih]; omega

theorem foldl_digVal (s : Str) (a : Nat) :
    s.foldl (fun a u => a * 10 + (u - 48)) a = a * 10 ^ s.length + digVal s := by
  induction s generalizing a with
  | nil => simp
  | cons u s ih =>
    simp only [List.foldl_cons, List.length_cons, digVal]
    rw [ih, ih (0 * 10 + (u - 48))]
    rw [Nat.pow_succ, Nat.add_mul, Nat.mul_assoc, Nat.mul_comm 10, Nat.zero_mul, Nat.zero_add, Nat.add_assoc]

theorem digVal_cons (u : Nat) (s : Str) : digVal (u :: s) = (u - 48) * 10 ^ s.length + digVal s := by
  conv => lhs; rw [digVal]
  rw [List.foldl_cons, foldl_digVal]; simp

theorem digVal_append (a b : Str) : digVal (a ++ b) = digVal a * 10 ^ b.length + digVal b := by
  conv => lhs; rw [digVal]
  rw [List.foldl_append, foldl_digVal]; rfl

theorem digVal_lt (s : Str) (h : ∀ u ∈ s, isDig u = true) : digVal s < 10 ^ s.length := by
  induction s with
  | nil => simp
  | cons u s ih =>
    rw [digVal_cons, List.length_cons, Nat.pow_succ]
    have h1 := ih (fun v hv => h v (by simp [hv]))
    have h2 : u - 48 ≤ 9 := by have := h u (by simp); simp [isDig] at this; omega
    have := Nat.mul_le_mul_right (10 ^ s.length) h2
    omega

theorem digVal_zeros (k : Nat) (s : Str) : digVal (List.replicate k 48 ++ s) = digVal s := by
  induction k with
  | zero => simp
  | succ k ih => rw [List.replicate_succ, List.cons_append, digVal_cons]; simp [ih]

theorem snoc_cases (s : Str) : s = [] ∨ ∃ t u, s = t ++ [u] := by
  rcases List.eq_nil_or_concat s with h | ⟨t, u, h⟩
  · exact .inl h
  · exact .inr ⟨t, u, by simpa [List.concat_eq_append] using h⟩

/-- A digit string without superfluous leading zero is the decimal representation of its value. -/
theorem dec_digVal (s : Str) (h : ∀ u ∈ s, isDig u = true) (hne : s ≠ []) (hz : s.length = 1 ∨ s.head? ≠ some 48) :
    dec (digVal s) = s := by
  generalize hn : s.length = n
  induction n using Nat.strongRecOn generalizing s with
  | _ n ih =>
    rcases snoc_cases s with h0 | ⟨t, u, rfl⟩
    · exact absurd h0 hne
    · have hu : isDig u = true := h u (by simp)
      simp [isDig] at hu
      by_cases ht : t = []
      · subst ht
        simp [digVal]
        rw [dec_lt (by omega)]; simp; omega
      · have hz' : t.head? ≠ some 48 := by
          rcases hz with h1 | h1
          · exact absurd (by simpa using h1) ht
          · rwa [head?_append' _ _ ht] at h1
        have hih := ih t.length (by simp at hn; omega) t (fun v hv => h v (by simp [hv])) ht (.inr hz') rfl
        have hpos : digVal t ≠ 0 := by
          intro h0; rw [h0] at hih
          rw [← hih] at hz'; exact hz' rfl
        rw [digVal_snoc, dec_ge (by omega)]
        rw [show (digVal t * 10 + (u - 48)) / 10 = digVal t by omega,
          show (digVal t * 10 + (u - 48)) % 10 = u - 48 by omega, hih]
        rw [show 48 + (u - 48) = u by omega]

theorem length_dec_le {n k : Nat} (hk : 0 < k) : (dec n).length ≤ k ↔ n < 10 ^ k := by
  rw [dec_eq_decimal, Spec.decimal, List.length_map, Nat.toList_repr]
  exact Nat.length_toDigits_le_iff (by omega) hk

theorem dec_inj {a b : Nat} (h : dec a = dec b) : a = b := by
  rw [← digVal_dec a, ← digVal_dec b, h]

end Verif
