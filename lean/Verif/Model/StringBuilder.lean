import Verif.Model.Types
import Verif.Spec.StringBuilder
/-!
# String builders and the memory they share (internal/stringbuilder/stringbuilder.go)

Elsewhere in the model a builder is the text in it.  Here builders are what they are in Go, slices of byte arrays in a heap, so that
memory that is shared can be seen: `ResetWith` is called with slices of the builder's own memory (phonenumberutil.go 2487, 2505, 2563
and 2937), and a slice can be extended into memory behind its length.

Bytes are natural numbers.  Arrays are never freed.  The capacity of a new array is what `grow` says, any function, but at least what is
needed (the Go runtime's choice is not specified).
-/
namespace Verif
namespace SB
open Spec.Buffer

/-- The arrays that were allocated. -/
abbrev Heap := List (List Nat)

/-- A Go slice of bytes: an array, an offset in it, the length and the capacity.  The nil slice has capacity 0. -/
structure Slice where
  arr : Nat
  off : Nat
  len : Nat
  cap : Nat
deriving DecidableEq, Repr

/-- The nil slice. -/
def Slice.nil : Slice := ⟨0, 0, 0, 0⟩

/-- The bytes of a slice. -/
def read (h : Heap) (s : Slice) : List Nat := ((h.getD s.arr []).drop s.off).take s.len

/-- `copy` of bytes into an array (memmove: the bytes were read before). -/
def store (h : Heap) (arr pos : Nat) (p : List Nat) : Heap :=
  h.set arr ((h.getD arr []).take pos ++ p ++ (h.getD arr []).drop (pos + p.length))

/-- A new array with these bytes and room for `cap`. -/
def alloc (h : Heap) (p : List Nat) (cap : Nat) : Heap × Slice :=
  (h ++ [p ++ List.replicate (cap - p.length) 0], ⟨h.length, 0, p.length, max cap p.length⟩)

/-- Go `append(s, p...)`: in place when the capacity suffices, else in a new array. -/
def append (grow : Nat → Nat → Nat) (h : Heap) (s : Slice) (p : List Nat) : Heap × Slice :=
  if s.len + p.length ≤ s.cap then (store h s.arr (s.off + s.len) p, { s with len := s.len + p.length })
  else alloc h (read h s ++ p) (grow s.cap (s.len + p.length))

/-- Go `slices.Insert(s, i, p...)` for a valid `i`: as documented, in place when the capacity suffices.  With nothing to insert the slice
is returned as it is. -/
def insertAt (grow : Nat → Nat → Nat) (h : Heap) (s : Slice) (i : Nat) (p : List Nat) : Heap × Slice :=
  let new := (read h s).take i ++ p ++ (read h s).drop i
  if p = [] then (h, s)
  else if s.len + p.length ≤ s.cap then (store h s.arr s.off new, { s with len := s.len + p.length })
  else alloc h new (grow s.cap (s.len + p.length))

/-- Go `s[:n]`: panics unless `n` is within the capacity (not the length). -/
def Slice.upTo (s : Slice) (n : Int) : Go Slice :=
  if 0 ≤ n ∧ n ≤ s.cap then .ok { s with len := n.toNat } else .error .index

/-- Go `s[n:]`: panics unless `n` is within the length. -/
def Slice.from (s : Slice) (n : Int) : Go Slice :=
  if 0 ≤ n ∧ n ≤ s.len then .ok ⟨s.arr, s.off + n.toNat, s.len - n.toNat, s.cap - n.toNat⟩ else .error .index

/-- Go `s[a:b]`: panics unless `a` is at most `b`, and `b` within the capacity. -/
def Slice.range (s : Slice) (a b : Int) : Go Slice :=
  if 0 ≤ a ∧ a ≤ b ∧ b ≤ s.cap then .ok ⟨s.arr, s.off + a.toNat, (b - a).toNat, s.cap - a.toNat⟩ else .error .index

/-- The program's builders and the heap.  stringbuilder.go 23-25: a `Builder` is its slice `buf`. -/
structure State where
  heap : Heap
  bufs : List Slice

/-- The bytes of a source, read at the time of the call. -/
def State.get (st : State) : Src → Go (List Nat)
  | .lit p => .ok p
  | .bytes k a b => do
    let s ← (st.bufs.getD k .nil).range a b
    return read st.heap s

/-- `b.buf = s` for the builder `k`. -/
def State.put (st : State) (k : Nat) (r : Heap × Slice) : State := ⟨r.1, st.bufs.set k r.2⟩

/-- stringbuilder.go 28-140, the calls that change something.  `true` is the error `ErrInvalidIndex`.  The rune written by `WriteRune`
(stringbuilder.go 71-75) is a `write` of its UTF-8 encoding. -/
def step (grow : Nat → Nat → Nat) (st : State) : Op → Go (State × Bool)
  | .newNil => .ok (⟨st.heap, st.bufs ++ [.nil]⟩, false)
  | .newString p => let r := alloc st.heap p (grow 0 p.length); .ok (⟨r.1, st.bufs ++ [r.2]⟩, false)
  | .write k p => do
    let p ← st.get p
    return (st.put k (append grow st.heap (st.bufs.getD k .nil) p), false)
  | .writeByte k c => .ok (st.put k (append grow st.heap (st.bufs.getD k .nil) [c]), false)
  | .insert k i p => do
    let p ← st.get p
    let s := st.bufs.getD k .nil
    if i < 0 ∨ i > s.len then return (st, true)
    return (st.put k (insertAt grow st.heap s i.toNat p), false)
  | .reset k => do
    let s ← (st.bufs.getD k .nil).upTo 0
    return (st.put k (st.heap, s), false)
  | .resetWith k p => do
    let p ← st.get p
    let s ← (st.bufs.getD k .nil).upTo 0
    return (st.put k (append grow st.heap s p), false)
  | .setLength k n => do
    let s := st.bufs.getD k .nil
    if n ≤ s.len then
      let s' ← s.upTo n
      return (st.put k (st.heap, s'), false)
    else
      -- the loop appends one byte at a time
      let r := (List.range (n.toNat - s.len)).foldl (fun r _ => append grow r.1 r.2 [0]) (st.heap, s)
      return (st.put k r, false)
  | .delete k start stop => do
    let s := st.bufs.getD k .nil
    let front ← s.upTo start
    let back ← s.from stop
    return (st.put k (append grow st.heap front (read st.heap back)), false)

/-- The calls one after the other. -/
def run (grow : Nat → Nat → Nat) (st : State) : List Op → Go (State × List Bool)
  | [] => .ok (st, [])
  | o :: os => do
    let (st, e) ← step grow st o
    let (st, es) ← run grow st os
    return (st, e :: es)

/-- stringbuilder.go 42-47: `String` of the builder `k`. -/
def State.string (st : State) (k : Nat) : List Nat := read st.heap (st.bufs.getD k .nil)

/-- stringbuilder.go 34: `Len`. -/
def State.len (st : State) (k : Nat) : Nat := (st.bufs.getD k .nil).len

/-- stringbuilder.go 94-99: `ByteAt`; `none` is `ErrInvalidIndex`. -/
def State.byteAt (st : State) (k : Nat) (i : Int) : Option Nat :=
  let s := st.bufs.getD k .nil
  if i < 0 ∨ i ≥ s.len then none else some ((read st.heap s).getD i.toNat 0)

/-- stringbuilder.go 123: `CharAt`. -/
def State.charAt (st : State) (k : Nat) (i : Int) : Go Nat :=
  let s := st.bufs.getD k .nil
  if 0 ≤ i ∧ i < s.len then .ok ((read st.heap s).getD i.toNat 0) else .error .index

/-- stringbuilder.go 144-146: `Substring`. -/
def State.substring (st : State) (k : Nat) (a b : Int) : Go (List Nat) := do
  let s ← (st.bufs.getD k .nil).range a b
  return read st.heap s

/-- The place of the last occurrence of `q`, for `bytes.LastIndex`: the largest `i` at which `q` stands. -/
def lastIndex (s q : List Nat) : Int :=
  match ((List.range (s.length + 1)).reverse.find? fun i => q.isPrefixOf (s.drop i) && decide (i + q.length ≤ s.length)) with
  | some i => i
  | none => -1

/-- stringbuilder.go 150-152: `LastIndexOf`. -/
def State.lastIndexOf (st : State) (k : Nat) (q : List Nat) : Int := lastIndex (st.string k) q

end SB
end Verif
