import Verif.Model.Mapper
import Verif.Spec.Conc
/-!
# Tables loaded once on first use (`sync.Once`)

timezone/timezone.go 60-66 (`timezoneOnce`) and alternateformats.go 44-47 (`alternateFormatsOnce`).  The loading function is a
sequence of `updates` of the shared table, each an atomic step, so that a half-filled table exists in between; `read` is what the
caller does with the table after `Do` returned.  `sync.Once` is modelled as it is implemented: a flag tested without the lock, a lock,
a second test, and the flag set after the function has returned.

Not modelled here: a loading function that panics (alternateformats.go 27, 35, for data that does not decode; the shipped data does) and
the cause of a failure that only the first caller of timezone.go 61 sees; both are in `Verif/Model/OnceFail.lean`.
-/
namespace Verif
open Spec
namespace Once

/-- Where a goroutine is. -/
inductive Pc (σ α β : Type) where
  | idle
  /-- before the test of the flag without the lock -/
  | enter (a : α)
  /-- before taking the lock -/
  | slow (a : α)
  /-- before the test with the lock -/
  | locked (a : α)
  /-- inside the loading function, with these updates to go -/
  | running (a : α) (us : List (σ → σ))
  /-- before the lock is released -/
  | unlocking (a : α)
  /-- `Do` has returned -/
  | ready (a : α)
  /-- before the return -/
  | leaving (a : α) (b : β)

structure St (σ α β : Type) where
  table : σ
  done : Bool
  locked : Bool
  threads : List (Pc σ α β)

def init {σ α β : Type} (table : σ) : St σ α β := ⟨table, false, false, []⟩

/-- Move of goroutine `t`. -/
def St.go {σ α β : Type} (s : St σ α β) (t : Nat) (pc : Pc σ α β) : St σ α β := { s with threads := s.threads.set t pc }

/-- The atomic steps. -/
inductive Step {σ α β : Type} (updates : List (σ → σ)) (read : α → σ → β) : Steps (St σ α β) α β where
  | spawn (s) : Step updates read s none { s with threads := s.threads ++ [.idle] }
  | call (s t a) : s.threads[t]? = some .idle → Step updates read s (some (t, .call a)) (s.go t (.enter a))
  | fast (s t a) : s.threads[t]? = some (.enter a) → s.done = true → Step updates read s none (s.go t (.ready a))
  | slow (s t a) : s.threads[t]? = some (.enter a) → s.done = false → Step updates read s none (s.go t (.slow a))
  | lock (s t a) : s.threads[t]? = some (.slow a) → s.locked = false →
      Step updates read s none { s.go t (.locked a) with locked := true }
  | skip (s t a) : s.threads[t]? = some (.locked a) → s.done = true → Step updates read s none (s.go t (.unlocking a))
  | start (s t a) : s.threads[t]? = some (.locked a) → s.done = false → Step updates read s none (s.go t (.running a updates))
  | update (s t a u us) : s.threads[t]? = some (.running a (u :: us)) →
      Step updates read s none { s.go t (.running a us) with table := u s.table }
  | finish (s t a) : s.threads[t]? = some (.running a []) →
      Step updates read s none { s.go t (.unlocking a) with done := true }
  | unlock (s t a) : s.threads[t]? = some (.unlocking a) →
      Step updates read s none { s.go t (.ready a) with locked := false }
  | read (s t a) : s.threads[t]? = some (.ready a) → Step updates read s none (s.go t (.leaving a (read a s.table)))
  | ret (s t a b) : s.threads[t]? = some (.leaving a b) → Step updates read s (some (t, .ret b)) (s.go t .idle)

end Once

/-- timezone/timezone.go 62-64: the function run by `timezoneOnce`; `file` is the embedded data after decompression. -/
def timezoneUpdates (dc : Int → Nat) (file : Bytes) : List (Option (Loaded (List Bytes)) → Option (Loaded (List Bytes))) :=
  [fun _ => match loadIntArrayMap dc file with | .ok m => some m | .error _ => none]

/-- alternateformats.go 24-40: the loop of `loadAlternateFormatsMetadata` over the decoded collection. -/
def alternateUpdates (coll : List Metadata) : List (List (Int × Metadata) → List (Int × Metadata)) :=
  coll.map (fun m acc => mapSet acc m.countryCode m)

end Verif
