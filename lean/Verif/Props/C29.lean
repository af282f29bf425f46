import Verif.Props.C25
import Verif.Props.C26
/-!
# C29: TruncateTooLongNumber returns a valid prefix or changes nothing
-/
namespace Verif.Spec

/-- The number with its last `k` digits of the national number dropped. -/
def dropDigits (n : PhoneNumber) (k : Nat) : PhoneNumber :=
  if k = 0 then n else { n with nationalNumber := some (n.nationalNumber.getD 0 / 10 ^ k) }

end Verif.Spec

namespace Verif
open Spec

theorem div_pow_succ (a k : Nat) : a / 10 ^ k / 10 = a / 10 ^ (k + 1) := by
  rw [Nat.div_div_eq_div_mul, Nat.pow_succ]

/-- The loop, started at `k ≥ 1` dropped digits. -/
theorem truncateLoop_spec (C : Container) (n : PhoneNumber) (f k : Nat) (hk : k ≠ 0) (hf : n.nn / 10 ^ k < f) (o : Option Nat)
    (h : truncateLoop C n f (n.nn / 10 ^ k) = .ok o) :
    match o with
    | some v => ∃ j, k ≤ j ∧ v = n.nn / 10 ^ j ∧ isValidNumber C (dropDigits n j) = .ok true ∧
        ∀ i, k ≤ i → i < j → isValidNumber C (dropDigits n i) = .ok false
    | none => ∃ j, k < j ∧ (∀ i, k ≤ i → i < j → isValidNumber C (dropDigits n i) = .ok false) ∧
        (possibleWithReason C (dropDigits n j) = .ok .tooShort ∨ n.nn / 10 ^ j = 0) := by
  induction f generalizing k with
  | zero => exact absurd hf (Nat.not_lt_zero _)
  | succ f ih =>
    have hd : ∀ j, j ≠ 0 → ({ n with nationalNumber := some (n.nn / 10 ^ j) } : PhoneNumber) = dropDigits n j := by
      intro j hj; simp [dropDigits, hj, PhoneNumber.nn]
    simp only [truncateLoop, div_pow_succ, hd k hk, hd (k + 1) (by omega), bind, Except.bind, pure, Except.pure] at h
    cases hv : isValidNumber C (dropDigits n k) with
    | error p => simp [hv] at h
    | ok v =>
      simp only [hv] at h
      cases v with
      | true =>
        simp only [if_true] at h; cases h
        exact ⟨k, Nat.le_refl _, rfl, hv, fun i h1 h2 => by omega⟩
      | false =>
        simp only [Bool.false_eq_true, if_false] at h
        cases hp : possibleWithReason C (dropDigits n (k + 1)) with
        | error p => simp [hp] at h
        | ok r =>
          simp only [hp] at h
          have step : ∀ {j : Nat}, (∀ i, k + 1 ≤ i → i < j → isValidNumber C (dropDigits n i) = .ok false) →
              ∀ i, k ≤ i → i < j → isValidNumber C (dropDigits n i) = .ok false := by
            intro j hj i h1 h2
            by_cases e : i = k
            · rw [e]; exact hv
            · exact hj i (by omega) h2
          by_cases hc : r = .tooShort ∨ n.nn / 10 ^ (k + 1) = 0
          · rw [if_pos hc] at h; cases h
            exact ⟨k + 1, by omega, step (fun i h1 h2 => by omega), hc.imp (fun e => by rw [hp, e]) id⟩
          · rw [if_neg hc] at h
            have hlt : n.nn / 10 ^ (k + 1) < f := by
              have h0 : n.nn / 10 ^ (k + 1) ≠ 0 := fun e => hc (.inr e)
              rw [← div_pow_succ] at h0 ⊢
              omega
            have := ih (k + 1) (by omega) hlt h
            cases o with
            | some v =>
              obtain ⟨j, h1, h2, h3, h4⟩ := this
              exact ⟨j, by omega, h2, h3, step h4⟩
            | none =>
              obtain ⟨j, h1, h2, h3⟩ := this
              exact ⟨j, by omega, step h2, h3⟩

end Verif

namespace Verif.Props
open Spec

/-- A true result is the longest valid prefix: dropping fewer digits gives no valid number. -/
theorem C29_true (C : Container) (n n' : PhoneNumber) (h : truncateTooLong C n = .ok (true, n')) :
    ∃ k, n' = dropDigits n k ∧ isValidNumber C n' = .ok true ∧ ∀ j < k, isValidNumber C (dropDigits n j) = .ok false := by
  have hd : ∀ j, j ≠ 0 → ({ n with nationalNumber := some (n.nn / 10 ^ j) } : PhoneNumber) = dropDigits n j := by
    intro j hj; simp [dropDigits, hj, PhoneNumber.nn]
  simp only [truncateTooLong, bind, Except.bind, pure, Except.pure] at h
  cases hv : isValidNumber C n with
  | error p => simp [hv] at h
  | ok v =>
    simp only [hv] at h
    cases v with
    | true => simp only [if_true] at h; cases h; exact ⟨0, rfl, hv, fun j hj => by omega⟩
    | false =>
      simp only [Bool.false_eq_true, if_false] at h
      cases hp : possibleWithReason C { n with nationalNumber := some (n.nn / 10) } with
      | error p => simp [hp] at h
      | ok r =>
        simp only [hp] at h
        split at h
        · cases h
        · have e1 : n.nn / 10 = n.nn / 10 ^ 1 := by simp
          cases hl : truncateLoop C n (n.nn / 10 + 1) (n.nn / 10) with
          | error p => simp [hl] at h
          | ok o =>
            simp only [hl] at h
            rw [e1] at hl
            have := truncateLoop_spec C n _ 1 (by omega) (by omega) o hl
            cases o with
            | none => cases h
            | some v =>
              obtain ⟨j, h1, h2, h3, h4⟩ := this
              simp only [Except.ok.injEq, Prod.mk.injEq, true_and] at h
              subst h2
              rw [hd j (by omega)] at h
              refine ⟨j, h.symm, by rw [← h]; exact h3, fun i hi => ?_⟩
              by_cases e : i = 0
              · subst e; simpa [dropDigits] using hv
              · exact h4 i (by omega) hi

/-- A false result leaves the number alone.  It is given at the first prefix that is too short or has no non-zero digit, and no
longer prefix is valid. -/
theorem C29_false (C : Container) (n n' : PhoneNumber) (h : truncateTooLong C n = .ok (false, n')) :
    n' = n ∧ ∃ k, 0 < k ∧ (∀ j < k, isValidNumber C (dropDigits n j) = .ok false) ∧
      (possibleWithReason C (dropDigits n k) = .ok .tooShort ∨ n.nationalNumber.getD 0 / 10 ^ k = 0) := by
  have hd : ∀ j, j ≠ 0 → ({ n with nationalNumber := some (n.nn / 10 ^ j) } : PhoneNumber) = dropDigits n j := by
    intro j hj; simp [dropDigits, hj, PhoneNumber.nn]
  have e1 : n.nn / 10 = n.nn / 10 ^ 1 := by simp
  simp only [truncateTooLong, bind, Except.bind, pure, Except.pure] at h
  cases hv : isValidNumber C n with
  | error p => simp [hv] at h
  | ok v =>
    simp only [hv] at h
    cases v with
    | true => simp only [if_true] at h; cases h
    | false =>
      simp only [Bool.false_eq_true, if_false] at h
      cases hp : possibleWithReason C { n with nationalNumber := some (n.nn / 10) } with
      | error p => simp [hp] at h
      | ok r =>
        simp only [hp] at h
        split at h
        · rename_i hc
          cases h
          rw [e1, hd 1 (by omega)] at hp
          rw [e1] at hc
          refine ⟨rfl, 1, by omega, fun j hj => ?_, hc.imp (fun e => by rw [hp, e]) id⟩
          have : j = 0 := by omega
          subst this; simpa [dropDigits] using hv
        · cases hl : truncateLoop C n (n.nn / 10 + 1) (n.nn / 10) with
          | error p => simp [hl] at h
          | ok o =>
            simp only [hl] at h
            rw [e1] at hl
            have := truncateLoop_spec C n _ 1 (by omega) (by omega) o hl
            cases o with
            | some v => cases h
            | none =>
              obtain ⟨j, h1, h2, h3⟩ := this
              simp only [Except.ok.injEq, Prod.mk.injEq, true_and] at h
              refine ⟨h.symm, j, by omega, fun i hi => ?_, h3⟩
              by_cases e : i = 0
              · subst e; simpa [dropDigits] using hv
              · exact h2 i (by omega) hi

/-- The function never panics on the shipped metadata. -/
theorem C29_total (n : PhoneNumber) : ∃ b n', truncateTooLong Data.container n = .ok (b, n') := by
  have hv : ∀ n, ∃ v, isValidNumber Data.container n = .ok v := fun n => by
    obtain ⟨v, t, h, -⟩ := C26_shipped n; exact ⟨v, h⟩
  have hp : ∀ n, ∃ r, possibleWithReason Data.container n = .ok r := by
    intro n
    by_cases hcc : Data.container.hasCC n.cc = true
    · obtain ⟨m, hm, -⟩ := main_meta built_shipped Data.wf_tables hcc
      obtain ⟨r, hr, -⟩ := C24_length m (List.all_eq_true.1 Data.wf_lengthTables m (Container.metaFor_mem hm)) (nsnOf n) .unknown
      simp only [possibleWithReason, hcc, Bool.not_true, Bool.false_eq_true, if_false, hm, hr]
      split
      · split
        · exact ⟨_, rfl⟩
        · split <;> exact ⟨_, rfl⟩
      · exact ⟨_, rfl⟩
    · exact ⟨_, (C24_unsupported _ n .unknown (by simpa using hcc)).2⟩
  have hl : ∀ f nn, ∃ o, truncateLoop Data.container n f nn = .ok o := by
    intro f
    induction f with
    | zero => intro nn; exact ⟨none, rfl⟩
    | succ f ih =>
      intro nn
      obtain ⟨v, h1⟩ := hv { n with nationalNumber := some nn }
      obtain ⟨r, h2⟩ := hp { n with nationalNumber := some (nn / 10) }
      simp only [truncateLoop, h1, h2, bind, Except.bind, pure, Except.pure]
      cases v
      · simp only [Bool.false_eq_true, if_false]
        split
        · exact ⟨_, rfl⟩
        · exact ih _
      · exact ⟨_, rfl⟩
  obtain ⟨v, h1⟩ := hv n
  obtain ⟨r, h2⟩ := hp { n with nationalNumber := some (n.nn / 10) }
  obtain ⟨o, h3⟩ := hl (n.nn / 10 + 1) (n.nn / 10)
  simp only [truncateTooLong, h1, h2, h3, bind, Except.bind, pure, Except.pure]
  cases v
  · simp only [Bool.false_eq_true, if_false]
    split
    · exact ⟨_, _, rfl⟩
    · cases o <;> exact ⟨_, _, rfl⟩
  · exact ⟨_, _, rfl⟩

/-- A finding: a false result does not mean that no prefix is valid.  The 7-digit Canadian number +1 310 1234 is valid, but from
9 digits the search stops at 8 digits, which is too short for the main region (US). -/
theorem C29_incomplete :
    truncateTooLong Data.container { countryCode := some 1, nationalNumber := some 310123456 } =
      .ok (false, { countryCode := some 1, nationalNumber := some 310123456 }) ∧
    isValidNumber Data.container { countryCode := some 1, nationalNumber := some 3101234 } = .ok true := by
  constructor <;> kernel_rfl

example : truncateTooLong Data.container { countryCode := some 1, nationalNumber := some 65025300001 } =
    .ok (true, { countryCode := some 1, nationalNumber := some 6502530000 }) := by kernel_rfl
example : truncateTooLong Data.container { countryCode := some 1, nationalNumber := some 1234 } =
    .ok (false, { countryCode := some 1, nationalNumber := some 1234 }) := by kernel_rfl

end Verif.Props
