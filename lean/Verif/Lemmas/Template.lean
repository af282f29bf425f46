import Verif.Spec.WellFormed
import Verif.Regex.Lang
/-!
# Where the characters of an expanded template come from
-/
namespace Verif

theorem mem_slice {s : Str} {a b u : Nat} (h : u ∈ slice s a b) : u ∈ s := List.mem_of_mem_drop (List.mem_of_mem_take h)

theorem mem_group {x : Match} {s : Str} {n u : Nat} (h : u ∈ x.group s n) : u ∈ s := by
  unfold Match.group at h
  split at h
  · exact mem_slice h
  · cases h

theorem mem_templateVar {x : Match} {s name : Str} {u : Nat} (h : u ∈ templateVar x s name) : u ∈ s := by
  unfold templateVar at h
  split at h
  · exact mem_group h
  · cases h

theorem expandLoop_mem (x : Match) (s : Str) (f : Nat) (t : Str) (u : Nat) (h : u ∈ expandLoop x s f t) :
    u ∈ s ∨ u ∈ expandLoop ⟨0, 0, []⟩ [] f t := by
  fun_induction expandLoop x s f t <;> (try simp +zetaDelta only at *) <;> unfold expandLoop <;> grind [mem_templateVar]

theorem replaceLoop_mem (r : Re) (s : Str) (repl : Match → Str) (f a b u : Nat) (h : u ∈ replaceLoop r s repl f a b) :
    u ∈ s ∨ ∃ x, u ∈ repl x := by
  fun_induction replaceLoop r s repl f a b <;> grind [mem_slice, List.mem_of_mem_drop]

theorem replaceAll_mem {r : Re} {s t : Str} {u : Nat} (h : u ∈ r.replaceAll s t) : u ∈ s ∨ u ∈ Spec.templateLiterals t := by
  rcases replaceLoop_mem r s _ _ _ _ u h with h | ⟨x, h⟩
  · exact .inl h
  · exact expandLoop_mem x s _ t u h

end Verif
