import Verif.Lemmas.FormatDigits
import Verif.Lemmas.Template
import Verif.Lemmas.Tables
import Verif.Lemmas.Valid
import Verif.Model.Parse
/-!
# Formatting does not produce the empty string
-/
namespace Verif
open Spec

theorem expandLoop_lits (x : Match) (s : Str) (f : Nat) (t : Str) (u : Nat) (h : u ∈ expandLoop ⟨0, 0, []⟩ [] f t) :
    u ∈ expandLoop x s f t := by
  have hv : ∀ name, templateVar ⟨0, 0, []⟩ [] name = [] := by
    intro name
    unfold templateVar
    split
    · unfold Match.group
      split
      · simp [slice]
      · rfl
    · rfl
  fun_induction expandLoop x s f t <;> (try simp +zetaDelta only at *) <;> unfold expandLoop at h <;> grind

theorem replaceAll_ne_nil {r : Re} {s t : Str} (hm : r.isMatch s = true) (ht : templateLiterals t ≠ []) : r.replaceAll s t ≠ [] := by
  unfold Re.isMatch Re.find at hm
  obtain ⟨x, hx⟩ := Option.isSome_iff_exists.1 hm
  unfold Re.replaceAll
  rw [show s.length + 2 = (s.length + 1) + 1 from rfl, replaceLoop, if_neg (by omega)]
  simp only [List.drop_zero, hx]
  have hc : x.stop > 0 ∨ x.start = 0 := by
    obtain ⟨a, w, e, -, h2, h3, -, -⟩ := findFrom_sound hx
    omega
  rw [if_pos hc]
  have : expand x s t ≠ [] := by
    unfold templateLiterals expand at ht
    obtain ⟨u, hu⟩ := List.exists_mem_of_ne_nil _ ht
    exact List.ne_nil_of_mem (expandLoop_lits x s _ t u hu)
  simp [this]

theorem isMatch_of_acc {r : Re} {s : Str} (h : r.Acc 0 s []) : r.isMatch s = true :=
  (isMatch_iff r s).2 ⟨[], s, [], by simp, h⟩

theorem templateNonEmpty_ne {f : NumberFormat} {t s : Str} (ht : templateNonEmpty f t = true) (hs : ∀ u ∈ s, isDig u = true) (hne : s ≠ [])
    (ha : f.pattern.re.Acc 0 s []) : f.pattern.re.replaceAll s t ≠ [] := by
  simp only [templateNonEmpty, Bool.or_eq_true, decide_eq_true_eq] at ht
  rcases ht with ht | ht
  · exact replaceAll_ne_nil (isMatch_of_acc ha) ht
  · intro h0
    have := replaceAll_inOrder { f with format := t } ht s hs ha
    simp only at this
    rw [h0] at this
    exact hne this.symm

theorem nsnOf_ne_nil (n : PhoneNumber) : nsnOf n ≠ [] := by
  rw [Props.nsnOf_eq]; simp [dec_ne_nil]

/-- The national format of a chosen rule, without carrier, is not empty. -/
theorem natPattern_ne {m : Metadata} (hm : natFormatsOk m = true) {s : Str} {p : NumberFormat} (hp : p ∈ m.formats)
    (hs : ∀ u ∈ s, isDig u = true) (hne : s ≠ []) (ha : p.pattern.re.Acc 0 s []) : formatNsnUsingPattern s p .national [] ≠ [] := by
  have h := List.all_eq_true.1 hm p hp
  simp only [Bool.and_eq_true, Bool.or_eq_true, decide_eq_true_eq] at h
  unfold formatNsnUsingPattern
  simp only [ne_eq, not_true, false_and, and_false, if_false, reduceCtorEq, true_and]
  split
  · rename_i hr
    exact templateNonEmpty_ne (h.2.resolve_left hr) hs hne ha
  · exact templateNonEmpty_ne h.1 hs hne ha

theorem appendExtension_ne {n : PhoneNumber} {m : Option Metadata} {f : Fmt} {s : Str} (h : s ≠ []) : appendExtension n m f s ≠ [] := by
  unfold appendExtension
  split
  · exact h
  · simp [h]

theorem format_national_ne {C : Container} (hf : C.allMeta.all natFormatsOk = true) (n : PhoneNumber) : format C n .national ≠ [] := by
  unfold format
  split
  · rename_i h; exact h.2
  · unfold formatCore
    rw [if_neg (by simp)]
    split
    · exact nsnOf_ne_nil n
    · simp only [prefixWithCC]
      apply appendExtension_ne
      unfold formatNsn
      simp only
      split
      · exact nsnOf_ne_nil n
      · rename_i p hp
        obtain ⟨h1, h2⟩ := chooseFormat_acc _ _ _ hp
        simp only [or_true, if_true] at h1
        cases hm : C.metaFor n.cc (C.mainRegion n.cc) with
        | none => rw [hm] at h1; cases h1
        | some m =>
          rw [hm] at h1
          exact natPattern_ne (List.all_eq_true.1 hf m (Container.metaFor_mem hm)) h1 (nsnOf_isDig n) (nsnOf_ne_nil n) h2

theorem format_international_eq {C : Container} {n : PhoneNumber} (hcc : C.hasCC n.cc = true) :
    (n.nn = 0 ∧ n.raw ≠ [] ∧ format C n .international = n.raw) ∨ ∃ t, format C n .international = 43 :: (decInt n.cc ++ 32 :: t) := by
  unfold format
  split
  · rename_i h; exact .inl ⟨h.1, h.2, rfl⟩
  · right
    simp only [formatCore, reduceCtorEq, if_false, hcc, Bool.not_true, Bool.false_eq_true, prefixWithCC]
    exact ⟨_, rfl⟩

theorem format_international_ne {C : Container} {n : PhoneNumber} (hcc : C.hasCC n.cc = true) : format C n .international ≠ [] := by
  rcases format_international_eq (n := n) hcc with h | ⟨t, h⟩
  · rw [h.2.2]; exact h.2.1
  · rw [h]; simp

theorem formatOutOfCountry_ne {C : Container} (hf : C.allMeta.all natFormatsOk = true) {n : PhoneNumber} (hcc : C.hasCC n.cc = true)
    (r : Str) : formatOutOfCountry C n r ≠ [] := by
  unfold formatOutOfCountry
  split
  · exact format_international_ne hcc
  · split
    · exact nsnOf_ne_nil n
    · split
      · simp
      · split
        · exact format_national_ne hf n
        · have key : ∀ p b : Str, (if p ≠ [] then p ++ 32 :: (decInt n.cc ++ 32 :: b) else prefixWithCC n.cc .international b) ≠ [] := by
            intro p b
            split <;> simp [prefixWithCC]
          exact key _ _

end Verif
