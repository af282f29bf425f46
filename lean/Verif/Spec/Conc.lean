/-!
# Concurrent executions

An execution is a sequence of atomic steps of any number of goroutines, in any order.  A step may be observable: a goroutine
calls a function or gets its result.
-/
namespace Verif.Spec

/-- What a goroutine does that can be observed: call the function with an argument, or get a result. -/
inductive Op (α β : Type) where
  | call (a : α)
  | ret (b : β)

/-- A step relation: state before, observable effect of some goroutine (`none` for an internal step), state after. -/
abbrev Steps (σ α β : Type) := σ → Option (Nat × Op α β) → σ → Prop

/-- The executions from an initial state: the observable events so far and the state reached. -/
inductive Run {σ α β : Type} (step : Steps σ α β) (init : σ) : List (Nat × Op α β) → σ → Prop where
  | start : Run step init [] init
  | silent {tr s s'} : Run step init tr s → step s none s' → Run step init tr s'
  | event {tr s e s'} : Run step init tr s → step s (some e) s' → Run step init (tr ++ [e]) s'

/-- The events of one goroutine. -/
def ofThread {α β : Type} (t : Nat) (tr : List (Nat × Op α β)) : List (Op α β) :=
  tr.filterMap (fun e => if e.1 = t then some e.2 else none)

/-- The events of a goroutine are calls, each followed by its result, and the result is one that is allowed for the argument.
The last argument is the call still waiting for its result, if any. -/
inductive Answers {α β : Type} (allowed : α → β → Prop) : List (Op α β) → Option α → Prop where
  | none : Answers allowed [] none
  | call {l} (a : α) : Answers allowed l none → Answers allowed (l ++ [.call a]) (some a)
  | ret {l} {a : α} (b : β) : Answers allowed l (some a) → allowed a b → Answers allowed (l ++ [.ret b]) none

end Verif.Spec
