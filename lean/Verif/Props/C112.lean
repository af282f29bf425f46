import Verif.Props.C48
import Verif.Props.C49
import Verif.Lemmas.Ends
/-!
# C112: shared tables keep no call waiting

The compiled regular expressions and the prefix tables of the languages are shared by all goroutines and guarded by locks.  However far
an execution has come, all calls under way can end without any help from new calls; and no schedule can keep the goroutines busy for
ever, because every call pays for a fixed number of steps.
-/
namespace Verif
open Spec

namespace RegexCache
variable {ρ : Type}

/-- How many steps a goroutine still has to take. -/
def Pc.left : Pc ρ → Nat
  | .idle => 0
  | .enter _ => 8
  | .reading _ => 7
  | .read _ _ => 6
  | .checked _ _ => 5
  | .compiled _ _ => 4
  | .writing _ _ => 3
  | .wrote _ _ => 2
  | .leaving _ _ => 1

def St.left (s : St ρ) : Nat := (s.threads.map Pc.left).sum

theorem left_step {compile : Str → Option ρ} {s s' : St ρ} {e : Option (Nat × Op Str (Option ρ))} (hs : Step compile s e s') :
    (e = none ∧ s' = { s with threads := s.threads ++ [.idle] } ∧ s'.left = s.left) ∨
      (∃ t p, e = some (t, .call p) ∧ s.threads[t]? = some .idle ∧ s' = s.go t (.enter p) ∧ s'.left = s.left + 8) ∨
      s'.left < s.left := by
  cases hs with
  | spawn => exact .inl ⟨rfl, rfl, by simp [St.left, Pc.left]⟩
  | call _ t p h =>
    refine .inr (.inl ⟨t, p, rfl, h, rfl, ?_⟩)
    have := weight_set Pc.left (pc' := .enter p) h
    simpa [St.left, St.go, Pc.left] using this
  | rlock _ t p h _ => exact .inr (.inr (weight_lt _ h (by simp [Pc.left])))
  | read _ t p h => exact .inr (.inr (weight_lt _ h (by simp [Pc.left])))
  | runlock _ t p v h => exact .inr (.inr (weight_lt _ h (by simp [Pc.left])))
  | found _ t p r h => exact .inr (.inr (weight_lt _ h (by simp [Pc.left])))
  | compile _ t p r h _ => exact .inr (.inr (weight_lt _ h (by simp [Pc.left])))
  | panic _ t p h _ => exact .inr (.inr (weight_lt _ h (by simp [Pc.left])))
  | lock _ t p r h _ _ => exact .inr (.inr (weight_lt _ h (by simp [Pc.left])))
  | write _ t p r h => exact .inr (.inr (weight_lt _ h (by simp [Pc.left])))
  | unlock _ t p r h => exact .inr (.inr (weight_lt _ h (by simp [Pc.left])))
  | ret _ t p r h => exact .inr (.inr (weight_lt _ h (by simp [Pc.left])))

theorem progress {compile : Str → Option ρ} {s : St ρ} (h : CanMove compile s) :
    ∃ e s', Step compile s e s' ∧ s'.left < s.left ∧ ∀ u a, e ≠ some (u, .call a) := by
  obtain ⟨u, pc, pc', e, s', hu, hb, hs, hu', hp, hset⟩ := h
  rcases left_step hs with ⟨_, rfl, _⟩ | ⟨t, p, rfl, ht, rfl, _⟩ | hl
  · have := congrArg List.length hset; simp at this
  · have hne : u ≠ t := by rintro rfl; rw [hu] at ht; exact hb (Option.some.inj ht)
    have h1 := congrArg (fun l => l[t]?) hset
    simp only [St.go, List.getElem?_set_ne hne] at h1
    rw [List.getElem?_set_self (lt_of_get ht), ht] at h1
    cases h1
  · refine ⟨e, s', hs, hl, ?_⟩
    rintro v a rfl
    cases hs with
    | call _ t p h =>
      have := weight_set Pc.left (pc' := .enter a) h
      simp only [St.left, St.go, Pc.left] at hl this
      omega

end RegexCache

namespace PrefixLoader
variable {η μ : Type}

/-- How many steps a goroutine still has to take. -/
def Pc.left : Pc η μ → Nat
  | .idle => 0
  | .enter _ => 8
  | .locked _ => 7
  | .missed _ => 6
  | .data _ _ => 5
  | .storing _ _ => 4
  | .stored _ => 3
  | .unlocking _ _ => 2
  | .leaving _ _ => 1

def St.left (s : St η μ) : Nat := (s.threads.map Pc.left).sum

theorem left_step {file : Str → Option Bytes} {load : Bytes → Except η μ} {s s' : St η μ} {e : Option (Nat × Op Str (Res η μ))}
    (hs : Step file load s e s') :
    (e = none ∧ s' = { s with threads := s.threads ++ [.idle] } ∧ s'.left = s.left) ∨
      (∃ t l, e = some (t, .call l) ∧ s.threads[t]? = some .idle ∧ s' = s.go t (.enter l) ∧ s'.left = s.left + 8) ∨
      s'.left < s.left := by
  cases hs with
  | spawn => exact .inl ⟨rfl, rfl, by simp [St.left, Pc.left]⟩
  | call _ t l h =>
    refine .inr (.inl ⟨t, l, rfl, h, rfl, ?_⟩)
    have := weight_set Pc.left (pc' := .enter l) h
    simpa [St.left, St.go, Pc.left] using this
  | lock _ t l h _ => exact .inr (.inr (weight_lt _ h (by simp [Pc.left])))
  | hit _ t l v h _ => exact .inr (.inr (weight_lt _ h (by simp [Pc.left])))
  | miss _ t l h _ => exact .inr (.inr (weight_lt _ h (by simp [Pc.left])))
  | readFile _ t l h => exact .inr (.inr (weight_lt _ h (by simp [Pc.left])))
  | readFails _ t l h => exact .inr (.inr (weight_lt _ h (by simp [Pc.left])))
  | load _ t l d m h _ => exact .inr (.inr (weight_lt _ h (by simp [Pc.left])))
  | loadFails _ t l d e h _ => exact .inr (.inr (weight_lt _ h (by simp [Pc.left])))
  | noData _ t l h => exact .inr (.inr (weight_lt _ h (by simp [Pc.left])))
  | store _ t l m h => exact .inr (.inr (weight_lt _ h (by simp [Pc.left])))
  | reread _ t l h => exact .inr (.inr (weight_lt _ h (by simp [Pc.left])))
  | unlock _ t l r h => exact .inr (.inr (weight_lt _ h (by simp [Pc.left])))
  | ret _ t l r h => exact .inr (.inr (weight_lt _ h (by simp [Pc.left])))

theorem progress {file : Str → Option Bytes} {load : Bytes → Except η μ} {s : St η μ} (h : CanMove file load s) :
    ∃ e s', Step file load s e s' ∧ s'.left < s.left ∧ ∀ u a, e ≠ some (u, .call a) := by
  obtain ⟨u, pc, pc', e, s', hu, hb, hs, hu', hp, hset⟩ := h
  rcases left_step hs with ⟨_, rfl, _⟩ | ⟨t, p, rfl, ht, rfl, _⟩ | hl
  · have := congrArg List.length hset; simp at this
  · have hne : u ≠ t := by rintro rfl; rw [hu] at ht; exact hb (Option.some.inj ht)
    have h1 := congrArg (fun l => l[t]?) hset
    simp only [St.go, List.getElem?_set_ne hne] at h1
    rw [List.getElem?_set_self (lt_of_get ht), ht] at h1
    cases h1
  · refine ⟨e, s', hs, hl, ?_⟩
    rintro v a rfl
    cases hs with
    | call _ t p h =>
      have := weight_set Pc.left (pc' := .enter a) h
      simp only [St.left, St.go, Pc.left] at hl this
      omega

end PrefixLoader

namespace Props

/-- Regular expressions: every execution can be continued, without new calls, until every call has its result: the compiled pattern, or
the panic if the pattern does not compile. -/
theorem C112_regex_ends {ρ : Type} (compile : Str → Option ρ) (tr : List (Nat × Op Str (Option ρ))) (s : RegexCache.St ρ)
    (h : Run (RegexCache.Step compile) RegexCache.init tr s) :
    ∃ tr' s', Run (RegexCache.Step compile) RegexCache.init (tr ++ tr') s' ∧ callsMade tr' = 0 ∧
      ∀ t, Answers (fun p r => r = compile p) (ofThread t (tr ++ tr')) none := by
  obtain ⟨tr', s', hr, h0, hi⟩ := run_ends (step := RegexCache.Step compile) (init := RegexCache.init) RegexCache.St.left
    (fun s => ∀ (t : Nat) (pc : RegexCache.Pc ρ), s.threads[t]? = some pc → pc = .idle)
    (fun tr s h hn => by
      obtain ⟨t, hn⟩ := Classical.not_forall.1 hn
      obtain ⟨pc, hn⟩ := Classical.not_forall.1 hn
      obtain ⟨ht, hn⟩ := Classical.not_imp.1 hn
      exact RegexCache.progress (C48_no_deadlock compile tr s h t pc ht hn)) _ tr s h (Nat.le_refl _)
  refine ⟨tr', s', hr, h0, fun t => ?_⟩
  by_cases ht : t < s'.threads.length
  · have h1 := (RegexCache.inv_run hr).answers t _ (List.getElem?_eq_getElem ht)
    rw [hi t _ (List.getElem?_eq_getElem ht)] at h1
    exact h1
  · rw [(RegexCache.inv_run hr).fresh t (by omega)]; exact .none

/-- … and no schedule is endless: there is a count to which a call adds eight, a new goroutine nothing, and from which every other step
takes something away. -/
theorem C112_regex_bounded {ρ : Type} (compile : Str → Option ρ) :
    ∃ left : RegexCache.St ρ → Nat, ∀ s e s', RegexCache.Step compile s e s' →
      (e = none ∧ s' = { s with threads := s.threads ++ [.idle] } ∧ left s' = left s) ∨
      (∃ t p, e = some (t, .call p) ∧ left s' = left s + 8) ∨ left s' < left s := by
  refine ⟨RegexCache.St.left, fun s e s' hs => ?_⟩
  rcases RegexCache.left_step hs with h | ⟨t, p, he, _, _, hl⟩ | h
  · exact .inl h
  · exact .inr (.inl ⟨t, p, he, hl⟩)
  · exact .inr (.inr h)

/-- Prefix tables: every execution can be continued, without new calls, until every call has its result: that of a direct load of the
file, or the failure of the file system. -/
theorem C112_prefixes_ends {η μ : Type} (file : Str → Option Bytes) (load : Bytes → Except η μ)
    (tr : List (Nat × Op Str (PrefixLoader.Res η μ))) (s : PrefixLoader.St η μ)
    (h : Run (PrefixLoader.Step file load) PrefixLoader.init tr s) :
    ∃ tr' s', Run (PrefixLoader.Step file load) PrefixLoader.init (tr ++ tr') s' ∧ callsMade tr' = 0 ∧
      ∀ t, Answers (PrefixLoader.Allowed file load) (ofThread t (tr ++ tr')) none := by
  obtain ⟨tr', s', hr, h0, hi⟩ := run_ends (step := PrefixLoader.Step file load) (init := PrefixLoader.init) PrefixLoader.St.left
    (fun s => ∀ (t : Nat) (pc : PrefixLoader.Pc η μ), s.threads[t]? = some pc → pc = .idle)
    (fun tr s h hn => by
      obtain ⟨t, hn⟩ := Classical.not_forall.1 hn
      obtain ⟨pc, hn⟩ := Classical.not_forall.1 hn
      obtain ⟨ht, hn⟩ := Classical.not_imp.1 hn
      exact PrefixLoader.progress (C49_no_deadlock file load tr s h t pc ht hn)) _ tr s h (Nat.le_refl _)
  refine ⟨tr', s', hr, h0, fun t => ?_⟩
  by_cases ht : t < s'.threads.length
  · have h1 := (PrefixLoader.inv_run hr).answers t _ (List.getElem?_eq_getElem ht)
    rw [hi t _ (List.getElem?_eq_getElem ht)] at h1
    exact h1
  · rw [(PrefixLoader.inv_run hr).fresh t (by omega)]; exact .none

/-- … and no schedule is endless. -/
theorem C112_prefixes_bounded {η μ : Type} (file : Str → Option Bytes) (load : Bytes → Except η μ) :
    ∃ left : PrefixLoader.St η μ → Nat, ∀ s e s', PrefixLoader.Step file load s e s' →
      (e = none ∧ s' = { s with threads := s.threads ++ [.idle] } ∧ left s' = left s) ∨
      (∃ t l, e = some (t, .call l) ∧ left s' = left s + 8) ∨ left s' < left s := by
  refine ⟨PrefixLoader.St.left, fun s e s' hs => ?_⟩
  rcases PrefixLoader.left_step hs with h | ⟨t, p, he, _, _, hl⟩ | h
  · exact .inl h
  · exact .inr (.inl ⟨t, p, he, hl⟩)
  · exact .inr (.inr h)

/-- A concrete execution in which one goroutine holds the lock and another waits for it: both calls can end, with the same entry. -/
example : ∃ (tr : List (Nat × Op Str (PrefixLoader.Res Unit Nat))) (s : PrefixLoader.St Unit Nat),
    Run (PrefixLoader.Step (fun _ => some [7]) (fun d => .ok d.length)) PrefixLoader.init tr s ∧ callsMade tr = 2 ∧
      ended (fun _ => true) tr = 0 ∧ s.locked = true ∧
      ∃ tr' s', Run (PrefixLoader.Step (fun _ => some [7]) (fun d => .ok d.length)) PrefixLoader.init (tr ++ tr') s' ∧ callsMade tr' = 0 := by
  have h := Run.start (step := PrefixLoader.Step (η := Unit) (μ := Nat) (fun _ => some [7]) (fun d => .ok d.length))
    (init := PrefixLoader.init)
  have h := h.silent (.spawn _)
  have h := h.silent (.spawn _)
  have h := h.event (.call _ 0 [101] rfl)
  have h := h.event (.call _ 1 [101] rfl)
  have h := h.silent (.lock _ 0 [101] rfl rfl)
  obtain ⟨tr', s', h1, h2, _⟩ := C112_prefixes_ends _ _ _ _ h
  exact ⟨_, _, h, rfl, rfl, rfl, tr', s', h1, h2⟩

end Props
end Verif
