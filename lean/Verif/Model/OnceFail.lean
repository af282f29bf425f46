import Verif.Model.Once
import Verif.Model.Wire
/-!
# Tables loaded once, and what a failed load leaves behind

timezone/timezone.go 60-68 and alternateformats.go 24-47.  As in `Verif/Model/Once.lean` the loading function is a sequence of updates
of the shared table and `sync.Once` is modelled as it is implemented: a flag tested without the lock, a lock, a second test, and
deferred functions that set the flag and release the lock.  Deferred functions also run when the loading function panics, so the steps
are the same then.  What is added here is that the call in which the loading function ran knows about it: it gets the panic
(alternateformats.go 27, 35), or has the cause of the failure in a variable of its own (timezone.go 61, 63).
-/
namespace Verif
open Spec
namespace OnceFail

/-- Where a goroutine is.  `ran` says that the loading function was run by this call. -/
inductive Pc (σ α β : Type) where
  | idle
  /-- before the test of the flag without the lock -/
  | enter (a : α)
  /-- before taking the lock -/
  | slow (a : α)
  /-- before the test with the lock -/
  | locked (a : α)
  /-- inside the loading function, with these updates to go before it returns or panics -/
  | running (a : α) (us : List (σ → σ))
  /-- before the lock is released -/
  | unlocking (a : α) (ran : Bool)
  /-- `Do` has returned or is passing on the panic -/
  | ready (a : α) (ran : Bool)
  /-- before the call ends -/
  | leaving (a : α) (ran : Bool) (b : β)

structure St (σ α β : Type) where
  table : σ
  done : Bool
  locked : Bool
  threads : List (Pc σ α β)

def init {σ α β : Type} (table : σ) : St σ α β := ⟨table, false, false, []⟩

/-- Move of goroutine `t`. -/
def St.go {σ α β : Type} (s : St σ α β) (t : Nat) (pc : Pc σ α β) : St σ α β := { s with threads := s.threads.set t pc }

/-- The atomic steps.  `outcome a ran table` is how a call with argument `a` ends. -/
inductive Step {σ α β : Type} (updates : List (σ → σ)) (outcome : α → Bool → σ → β) : Steps (St σ α β) α β where
  | spawn (s) : Step updates outcome s none { s with threads := s.threads ++ [.idle] }
  | call (s t a) : s.threads[t]? = some .idle → Step updates outcome s (some (t, .call a)) (s.go t (.enter a))
  | fast (s t a) : s.threads[t]? = some (.enter a) → s.done = true → Step updates outcome s none (s.go t (.ready a false))
  | slow (s t a) : s.threads[t]? = some (.enter a) → s.done = false → Step updates outcome s none (s.go t (.slow a))
  | lock (s t a) : s.threads[t]? = some (.slow a) → s.locked = false →
      Step updates outcome s none { s.go t (.locked a) with locked := true }
  | skip (s t a) : s.threads[t]? = some (.locked a) → s.done = true → Step updates outcome s none (s.go t (.unlocking a false))
  | start (s t a) : s.threads[t]? = some (.locked a) → s.done = false → Step updates outcome s none (s.go t (.running a updates))
  | update (s t a u us) : s.threads[t]? = some (.running a (u :: us)) →
      Step updates outcome s none { s.go t (.running a us) with table := u s.table }
  | finish (s t a) : s.threads[t]? = some (.running a []) →
      Step updates outcome s none { s.go t (.unlocking a true) with done := true }
  | unlock (s t a ran) : s.threads[t]? = some (.unlocking a ran) →
      Step updates outcome s none { s.go t (.ready a ran) with locked := false }
  | read (s t a ran) : s.threads[t]? = some (.ready a ran) →
      Step updates outcome s none (s.go t (.leaving a ran (outcome a ran s.table)))
  | ret (s t a ran b) : s.threads[t]? = some (.leaving a ran b) → Step updates outcome s (some (t, .ret b)) (s.go t .idle)

end OnceFail

/-- How a time zone lookup ends: with the error of timezone.go 67, which tells the cause or has none (`<nil>`), or with the answer of
the rest of the function. -/
inductive ZonesResult where
  | notLoaded (cause : Option LoadErr)
  | answer (zones : Option (List Bytes))

/-- timezone/timezone.go 60-86: `lookupTimeZones` after `Do`: `err` is set only in the call that ran the loading function. -/
def zonesOutcome (dc : Int → Nat) (file : Bytes) (number : Str) (ran : Bool) (tz : Option (Loaded (List Bytes))) : ZonesResult :=
  match tz with
  | none => .notLoaded (if ran then (match loadIntArrayMap dc file with | .ok _ => none | .error e => some e) else none)
  | some m => .answer (lookupTimeZones (some m) number)

/-- How a lookup of alternate formats ends. -/
inductive AltResult where
  | panics
  | entry (m : Option Wire.PbMetadata)

/-- alternateformats.go 24-40: the changes that `loadAlternateFormatsMetadata` makes before it returns or panics; `file` is the
embedded data after decompression, `none` if it does not decompress. -/
def altUpdates (file : Option Bytes) : List (List (Int × Wire.PbMetadata) → List (Int × Wire.PbMetadata)) :=
  match file with
  | none => []
  | some raw => if raw = [] then [] else match Wire.unmarshalCollection raw with
    | none => []
    | some coll => coll.map (fun m acc => mapSet acc (m.countryCode.getD 0) m)

/-- alternateformats.go 25-36: whether `loadAlternateFormatsMetadata` panics. -/
def altPanics (file : Option Bytes) : Bool :=
  match file with
  | none => true
  | some raw => if raw = [] then false else (Wire.unmarshalCollection raw).isNone

/-- alternateformats.go 45-48: `getAlternateFormatsForCountryCallingCode`. -/
def altOutcome (file : Option Bytes) (cc : Int) (ran : Bool) (table : List (Int × Wire.PbMetadata)) : AltResult :=
  if ran && altPanics file then .panics else .entry (mapGet table cc)

end Verif
