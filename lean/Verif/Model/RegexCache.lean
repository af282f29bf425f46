import Verif.Model.Container
import Verif.Spec.Conc
/-!
# The regular expression cache (internal/regexcache/regexcache.go)

The machine has one atomic step for each lock operation, for each access to the map, for the compilation and for the call and the
return.  `compile` is `regexp.Compile`: `none` stands for an invalid pattern.  Two compilations of one pattern give equal values
here (in Go: different pointers to equal, immutable values).  A goroutine whose call panics may go on (the panic may be recovered);
an execution in which the panic ends the process is a prefix of one in which it does not.

`sync.RWMutex` is modelled by its specification: a reader waits while a writer holds the lock, a writer waits while anybody holds
it.  The preference given to waiting writers only removes executions.
-/
namespace Verif
open Spec
namespace RegexCache

/-- Where a goroutine is inside `For` (internal/regexcache/regexcache.go 35-42), `read` (21-26) and `write` (28-32). -/
inductive Pc (ρ : Type) where
  /-- not in a call -/
  | idle
  /-- 22: before `mu.RLock()` -/
  | enter (p : Str)
  /-- 23: before the read of the map -/
  | reading (p : Str)
  /-- 24: before `mu.RUnlock()` -/
  | read (p : Str) (v : Option ρ)
  /-- 37: `found` is known -/
  | checked (p : Str) (v : Option ρ)
  /-- 29: before `mu.Lock()` -/
  | compiled (p : Str) (r : ρ)
  /-- 30: before the write to the map -/
  | writing (p : Str) (r : ρ)
  /-- 31: before `mu.Unlock()` -/
  | wrote (p : Str) (r : ρ)
  /-- 41: before the return -/
  | leaving (p : Str) (r : ρ)

/-- The shared variables (internal/regexcache/regexcache.go 13-19) and the goroutines. -/
structure St (ρ : Type) where
  cache : List (Str × ρ)
  readers : Nat
  writer : Bool
  threads : List (Pc ρ)

/-- A program state before any goroutine runs. -/
def init {ρ : Type} : St ρ := ⟨[], 0, false, []⟩

/-- Move of goroutine `t`. -/
def St.go {ρ : Type} (s : St ρ) (t : Nat) (pc : Pc ρ) : St ρ := { s with threads := s.threads.set t pc }

/-- The atomic steps.  The result of a call is the regular expression, `none` for a panic. -/
inductive Step {ρ : Type} (compile : Str → Option ρ) : Steps (St ρ) Str (Option ρ) where
  /-- a new goroutine -/
  | spawn (s) : Step compile s none { s with threads := s.threads ++ [.idle] }
  /-- 35: `For(p)` is called -/
  | call (s t p) : s.threads[t]? = some .idle → Step compile s (some (t, .call p)) (s.go t (.enter p))
  /-- 22: `mu.RLock()` -/
  | rlock (s t p) : s.threads[t]? = some (.enter p) → s.writer = false →
      Step compile s none { s.go t (.reading p) with readers := s.readers + 1 }
  /-- 23: `v, ok := cache[pattern]` -/
  | read (s t p) : s.threads[t]? = some (.reading p) → Step compile s none (s.go t (.read p (mapGet s.cache p)))
  /-- 24: `mu.RUnlock()` -/
  | runlock (s t p v) : s.threads[t]? = some (.read p v) →
      Step compile s none { s.go t (.checked p v) with readers := s.readers - 1 }
  /-- 37, 41: found -/
  | found (s t p r) : s.threads[t]? = some (.checked p (some r)) → Step compile s none (s.go t (.leaving p r))
  /-- 38: `regexp.MustCompile(pattern)` succeeds -/
  | compile (s t p r) : s.threads[t]? = some (.checked p none) → compile p = some r →
      Step compile s none (s.go t (.compiled p r))
  /-- 38: `regexp.MustCompile(pattern)` panics -/
  | panic (s t p) : s.threads[t]? = some (.checked p none) → compile p = none →
      Step compile s (some (t, .ret none)) (s.go t .idle)
  /-- 29: `mu.Lock()` -/
  | lock (s t p r) : s.threads[t]? = some (.compiled p r) → s.writer = false → s.readers = 0 →
      Step compile s none { s.go t (.writing p r) with writer := true }
  /-- 30: `cache[pattern] = value` -/
  | write (s t p r) : s.threads[t]? = some (.writing p r) →
      Step compile s none { s.go t (.wrote p r) with cache := mapSet s.cache p r }
  /-- 31: `mu.Unlock()` -/
  | unlock (s t p r) : s.threads[t]? = some (.wrote p r) →
      Step compile s none { s.go t (.leaving p r) with writer := false }
  /-- 41: the return -/
  | ret (s t p r) : s.threads[t]? = some (.leaving p r) → Step compile s (some (t, .ret (some r))) (s.go t .idle)

end RegexCache
end Verif
