import Verif.Model.Serialize
import Verif.Spec.Conc
/-!
# Lazy loading of prefix maps (internal/prefixmapper/prefixmapper.go, `lazyLoadPrefixes`)

One atomic step for each lock operation, each access to the map, the reading of the file, the decoding, the call and the return.
`file l` is what the file system holds for language `l` (`none`: no such file); it does not change.  A read may also fail for
another reason, at any time.  `load` is `serialize.LoadPrefixMap`.
-/
namespace Verif
open Spec
namespace PrefixLoader

/-- Why a call fails. -/
inductive Err (η : Type) where
  /-- `ReadFile` failed, but not with `fs.ErrNotExist` -/
  | io
  /-- `LoadPrefixMap` failed -/
  | load (e : η)

/-- The results of `lazyLoadPrefixes`: the map (`none` is nil: no data for the language) or an error. -/
abbrev Res (η μ : Type) := Except (Err η) (Option μ)

/-- Where a goroutine is inside `lazyLoadPrefixes` (internal/prefixmapper/prefixmapper.go 38-65). -/
inductive Pc (η μ : Type) where
  | idle
  /-- 39: before `m.mu.Lock()` -/
  | enter (l : Str)
  /-- 43: before the read of the map -/
  | locked (l : Str)
  /-- 49: before `ReadFile` -/
  | missed (l : Str)
  /-- 54: after `ReadFile`; `none` if there is no such file -/
  | data (l : Str) (d : Option Bytes)
  /-- 59, 61: before the write to the map -/
  | storing (l : Str) (m : Option μ)
  /-- 64: before the second read of the map -/
  | stored (l : Str)
  /-- 40: before the deferred `m.mu.Unlock()` -/
  | unlocking (l : Str) (r : Res η μ)
  /-- before the return -/
  | leaving (l : Str) (r : Res η μ)

/-- The shared variables (internal/prefixmapper/prefixmapper.go 22-27) and the goroutines. -/
structure St (η μ : Type) where
  cache : List (Str × Option μ)
  locked : Bool
  threads : List (Pc η μ)

/-- internal/prefixmapper/prefixmapper.go 30-36: `New`. -/
def init {η μ : Type} : St η μ := ⟨[], false, []⟩

/-- Move of goroutine `t`. -/
def St.go {η μ : Type} (s : St η μ) (t : Nat) (pc : Pc η μ) : St η μ := { s with threads := s.threads.set t pc }

/-- The atomic steps. -/
inductive Step {η μ : Type} (file : Str → Option Bytes) (load : Bytes → Except η μ) : Steps (St η μ) Str (Res η μ) where
  /-- a new goroutine -/
  | spawn (s) : Step file load s none { s with threads := s.threads ++ [.idle] }
  /-- the function is called -/
  | call (s t l) : s.threads[t]? = some .idle → Step file load s (some (t, .call l)) (s.go t (.enter l))
  /-- 39: `m.mu.Lock()` -/
  | lock (s t l) : s.threads[t]? = some (.enter l) → s.locked = false →
      Step file load s none { s.go t (.locked l) with locked := true }
  /-- 43-46: `prefixes, ok := m.langMap[language]`, found -/
  | hit (s t l v) : s.threads[t]? = some (.locked l) → mapGet s.cache l = some v →
      Step file load s none (s.go t (.unlocking l (.ok v)))
  /-- 43-44: not found -/
  | miss (s t l) : s.threads[t]? = some (.locked l) → mapGet s.cache l = none → Step file load s none (s.go t (.missed l))
  /-- 49: `ReadFile` gives the data, or `fs.ErrNotExist` -/
  | readFile (s t l) : s.threads[t]? = some (.missed l) → Step file load s none (s.go t (.data l (file l)))
  /-- 49-52: `ReadFile` fails with another error -/
  | readFails (s t l) : s.threads[t]? = some (.missed l) → Step file load s none (s.go t (.unlocking l (.error .io)))
  /-- 54-55: `LoadPrefixMap` succeeds -/
  | load (s t l d m) : s.threads[t]? = some (.data l (some d)) → load d = .ok m → Step file load s none (s.go t (.storing l (some m)))
  /-- 55-58: `LoadPrefixMap` fails -/
  | loadFails (s t l d e) : s.threads[t]? = some (.data l (some d)) → load d = .error e →
      Step file load s none (s.go t (.unlocking l (.error (.load e))))
  /-- 60: there is no data -/
  | noData (s t l) : s.threads[t]? = some (.data l none) → Step file load s none (s.go t (.storing l none))
  /-- 59, 61: `m.langMap[language] = …` -/
  | store (s t l m) : s.threads[t]? = some (.storing l m) →
      Step file load s none { s.go t (.stored l) with cache := mapSet s.cache l m }
  /-- 64: `m.langMap[language]` (a missing key would give nil) -/
  | reread (s t l) : s.threads[t]? = some (.stored l) →
      Step file load s none (s.go t (.unlocking l (.ok (mapGet s.cache l).join)))
  /-- 40: `m.mu.Unlock()` -/
  | unlock (s t l r) : s.threads[t]? = some (.unlocking l r) →
      Step file load s none { s.go t (.leaving l r) with locked := false }
  /-- the return -/
  | ret (s t l r) : s.threads[t]? = some (.leaving l r) → Step file load s (some (t, .ret r)) (s.go t .idle)

end PrefixLoader
end Verif
