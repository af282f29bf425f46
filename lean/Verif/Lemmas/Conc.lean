import Verif.Spec.Conc
/-!
# Lemmas about executions
-/
namespace Verif
open Spec

theorem ofThread_append_self {α β : Type} (t : Nat) (tr : List (Nat × Op α β)) (o : Op α β) :
    ofThread t (tr ++ [(t, o)]) = ofThread t tr ++ [o] := by simp [ofThread, List.filterMap_append]

theorem ofThread_append_ne {α β : Type} {t u : Nat} (h : u ≠ t) (tr : List (Nat × Op α β)) (o : Op α β) :
    ofThread t (tr ++ [(u, o)]) = ofThread t tr := by simp [ofThread, List.filterMap_append, h]

/-- The threads of a machine: the call each one is in.  `pend` gives the argument of the current call. -/
theorem answers_step {α β π : Type} (pend : π → Option α) (allowed : α → β → Prop) {ts : List π}
    {tr : List (Nat × Op α β)} (h : ∀ t pc, ts[t]? = some pc → Answers allowed (ofThread t tr) (pend pc))
    {t : Nat} {pc pc' : π} (hpc : ts[t]? = some pc) (hp : pend pc' = pend pc) :
    ∀ u q, (ts.set t pc')[u]? = some q → Answers allowed (ofThread u tr) (pend q) := by
  intro u q hq
  rw [List.getElem?_set] at hq
  split at hq
  · rename_i hu; subst hu
    split at hq
    · obtain rfl := Option.some.inj hq; rw [hp]; exact h _ _ hpc
    · cases hq
  · exact h _ _ hq

theorem answers_call {α β π : Type} (pend : π → Option α) (allowed : α → β → Prop) {ts : List π}
    {tr : List (Nat × Op α β)} (h : ∀ t pc, ts[t]? = some pc → Answers allowed (ofThread t tr) (pend pc))
    {t : Nat} {pc pc' : π} (hpc : ts[t]? = some pc) (hn : pend pc = none) (a : α) (hp : pend pc' = some a) :
    ∀ u q, (ts.set t pc')[u]? = some q → Answers allowed (ofThread u (tr ++ [(t, .call a)])) (pend q) := by
  intro u q hq
  rw [List.getElem?_set] at hq
  split at hq
  · rename_i hu; subst hu
    split at hq
    · obtain rfl := Option.some.inj hq
      rw [hp, ofThread_append_self]
      have := h _ _ hpc
      rw [hn] at this
      exact .call a this
    · cases hq
  · rename_i hu
    rw [ofThread_append_ne hu]; exact h _ _ hq

theorem answers_ret {α β π : Type} (pend : π → Option α) (allowed : α → β → Prop) {ts : List π}
    {tr : List (Nat × Op α β)} (h : ∀ t pc, ts[t]? = some pc → Answers allowed (ofThread t tr) (pend pc))
    {t : Nat} {pc pc' : π} (hpc : ts[t]? = some pc) (a : α) (b : β) (hn : pend pc = some a) (hp : pend pc' = none)
    (hok : allowed a b) :
    ∀ u q, (ts.set t pc')[u]? = some q → Answers allowed (ofThread u (tr ++ [(t, .ret b)])) (pend q) := by
  intro u q hq
  rw [List.getElem?_set] at hq
  split at hq
  · rename_i hu; subst hu
    split at hq
    · obtain rfl := Option.some.inj hq
      rw [hp, ofThread_append_self]
      have := h _ _ hpc
      rw [hn] at this
      exact .ret b this hok
    · cases hq
  · rename_i hu
    rw [ofThread_append_ne hu]; exact h _ _ hq

/-- Number of threads satisfying `p` after one thread moves. -/
theorem countP_move {π : Type} (p : π → Bool) {ts : List π} {t : Nat} {pc pc' : π} (hpc : ts[t]? = some pc) :
    (ts.set t pc').countP p + (if p pc then 1 else 0) = ts.countP p + (if p pc' then 1 else 0) := by
  obtain ⟨h, rfl⟩ := List.getElem?_eq_some_iff.1 hpc
  rw [List.countP_set h]
  have : (if p ts[t] = true then 1 else 0) ≤ ts.countP p := by
    split
    · rename_i hp
      exact List.countP_pos_iff.2 ⟨_, List.getElem_mem h, hp⟩
    · omega
  omega

theorem countP_pos_get {π : Type} {p : π → Bool} {ts : List π} (h : 0 < ts.countP p) :
    ∃ (t : Nat) (pc : π), ts[t]? = some pc ∧ p pc = true := by
  obtain ⟨pc, hm, hp⟩ := List.countP_pos_iff.1 h
  obtain ⟨t, ht⟩ := List.getElem?_of_mem hm
  exact ⟨t, pc, ht, hp⟩

theorem countP_pos_of_get {π : Type} {p : π → Bool} {ts : List π} {t : Nat} {pc : π} (h : ts[t]? = some pc)
    (hp : p pc = true) : 0 < ts.countP p :=
  List.countP_pos_iff.2 ⟨pc, List.mem_of_getElem? h, hp⟩

/-- Two different threads satisfying `p` make the count at least two. -/
theorem countP_two {π : Type} {p : π → Bool} {ts : List π} {t u : Nat} {pc pd : π} (h : ts[t]? = some pc)
    (hu : ts[u]? = some pd) (hne : t ≠ u) (hp : p pc = true) (hq : p pd = true) : 2 ≤ ts.countP p := by
  have h1 := countP_move p (pc' := pc) h
  induction ts generalizing t u with
  | nil => simp at h
  | cons x r ih =>
    cases t with
    | zero =>
      cases u with
      | zero => exact absurd rfl hne
      | succ u =>
        simp only [List.getElem?_cons_zero, Option.some.injEq] at h; subst h
        simp only [List.getElem?_cons_succ] at hu
        rw [List.countP_cons_of_pos hp]
        have := countP_pos_of_get hu hq; omega
    | succ t =>
      cases u with
      | zero =>
        simp only [List.getElem?_cons_zero, Option.some.injEq] at hu; subst hu
        simp only [List.getElem?_cons_succ] at h
        rw [List.countP_cons_of_pos hq]
        have := countP_pos_of_get h hp; omega
      | succ u =>
        simp only [List.getElem?_cons_succ] at h hu
        have := ih h hu (by omega) (countP_move p h)
        rw [List.countP_cons]; omega

theorem lt_of_get {π : Type} {ts : List π} {t : Nat} {pc : π} (h : ts[t]? = some pc) : t < ts.length :=
  (List.getElem?_eq_some_iff.1 h).1

theorem fresh_event {α β : Type} {n : Nat} {tr : List (Nat × Op α β)} (h : ∀ t, n ≤ t → ofThread t tr = []) {t : Nat} (ht : t < n) (o : Op α β) :
    ∀ u, n ≤ u → ofThread u (tr ++ [(t, o)]) = [] := by
  intro u hu; rw [ofThread_append_ne (by omega)]; exact h u hu

/-- A property of all threads after one of them moves. -/
theorem forall_set {π : Type} {P : π → Prop} {ts : List π} (h : ∀ (t : Nat) (pc : π), ts[t]? = some pc → P pc) {t : Nat} {pc' : π}
    (h' : P pc') : ∀ (u : Nat) (pc : π), (ts.set t pc')[u]? = some pc → P pc := by
  intro u pc hu
  rw [List.getElem?_set] at hu
  split at hu
  · split at hu
    · obtain rfl := Option.some.inj hu; exact h'
    · cases hu
  · exact h _ _ hu

/-- … or a new one is added. -/
theorem forall_append {π : Type} {P : π → Prop} {ts : List π} (h : ∀ (t : Nat) (pc : π), ts[t]? = some pc → P pc) {pc' : π}
    (h' : P pc') : ∀ (u : Nat) (pc : π), (ts ++ [pc'])[u]? = some pc → P pc := by
  intro u pc hu
  rcases List.mem_append.1 (List.mem_of_getElem? hu) with h1 | h1
  · obtain ⟨i, hi⟩ := List.getElem?_of_mem h1
    exact h i pc hi
  · obtain rfl := List.mem_singleton.1 h1; exact h'

theorem answers_spawn {α β π : Type} (pend : π → Option α) (allowed : α → β → Prop) {ts : List π}
    {tr : List (Nat × Op α β)} (h : ∀ (t : Nat) (pc : π), ts[t]? = some pc → Answers allowed (ofThread t tr) (pend pc))
    (hf : ∀ t, ts.length ≤ t → ofThread t tr = []) {pc' : π} (hn : pend pc' = none) :
    ∀ (u : Nat) (q : π), (ts ++ [pc'])[u]? = some q → Answers allowed (ofThread u tr) (pend q) := by
  intro u q hq
  rw [List.getElem?_append] at hq
  split at hq
  · exact h _ _ hq
  · rename_i hl
    obtain rfl : q = pc' := by have := List.mem_of_getElem? hq; simpa using this
    rw [hf u (by omega), hn]; exact .none

end Verif
