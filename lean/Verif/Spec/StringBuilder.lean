/-!
# Specification: text buffers

A program with several buffers.  Each call names the buffer it changes; what is written is a literal or a part of one of the buffers,
possibly the same.
-/
namespace Verif.Spec.Buffer

/-- What is written: the bytes of a string, or the part of the buffer `k` from `a` to `b` (`Bytes()[a:b]`). -/
inductive Src where
  | lit (p : List Nat)
  | bytes (k : Nat) (a b : Int)

/-- The calls that change something. -/
inductive Op where
  /-- stringbuilder.go 28: `New(nil)` -/
  | newNil
  /-- stringbuilder.go 31: `NewString`; also `New` of bytes made for it -/
  | newString (p : List Nat)
  /-- stringbuilder.go 51-60: `Write`, `WriteString` -/
  | write (k : Nat) (p : Src)
  /-- stringbuilder.go 64-67: `WriteByte` -/
  | writeByte (k : Nat) (c : Nat)
  /-- stringbuilder.go 79-91: `Insert`, `InsertString` -/
  | insert (k : Nat) (i : Int) (p : Src)
  /-- stringbuilder.go 102: `Reset` -/
  | reset (k : Nat)
  /-- stringbuilder.go 105-114: `ResetWith`, `ResetWithString` -/
  | resetWith (k : Nat) (p : Src)
  /-- stringbuilder.go 127-135: `SetLength` -/
  | setLength (k : Nat) (n : Int)
  /-- stringbuilder.go 138-140: `Delete` -/
  | delete (k : Nat) (start stop : Int)


/-- The part of a text from `a` to `b`, if there is one. -/
def part (t : List Nat) (a b : Int) : Option (List Nat) :=
  if 0 ≤ a ∧ a ≤ b ∧ b ≤ t.length then some ((t.drop a.toNat).take (b - a).toNat) else none

/-- What is written. -/
def source (ts : List (List Nat)) : Src → Option (List Nat)
  | .lit p => some p
  | .bytes k a b => (ts[k]?).bind (part · a b)

/-- The texts after a call, and whether it reported an invalid index.  `none` if there is no such buffer or an index is outside the text
(other than for `insert`, which reports it). -/
def after (ts : List (List Nat)) : Op → Option (List (List Nat) × Bool)
  | .newNil => some (ts ++ [[]], false)
  | .newString p => some (ts ++ [p], false)
  | .write k p => do return (ts.set k ((← ts[k]?) ++ (← source ts p)), false)
  | .writeByte k c => do return (ts.set k ((← ts[k]?) ++ [c]), false)
  | .insert k i p => do
    let t ← ts[k]?
    let p ← source ts p
    if 0 ≤ i ∧ i ≤ t.length then return (ts.set k (t.take i.toNat ++ p ++ t.drop i.toNat), false) else return (ts, true)
  | .reset k => do
    let _ ← ts[k]?
    return (ts.set k [], false)
  | .resetWith k p => do
    let _ ← ts[k]?
    return (ts.set k (← source ts p), false)
  | .setLength k n => do
    let t ← ts[k]?
    if 0 ≤ n then return (ts.set k (t.take n.toNat ++ List.replicate (n.toNat - t.length) 0), false) else none
  | .delete k start stop => do
    let t ← ts[k]?
    if 0 ≤ start ∧ start ≤ stop ∧ stop ≤ t.length then return (ts.set k (t.take start.toNat ++ t.drop stop.toNat), false) else none

/-- The calls one after the other. -/
def afterAll (ts : List (List Nat)) : List Op → Option (List (List Nat) × List Bool)
  | [] => some (ts, [])
  | o :: os => do
    let (ts, e) ← after ts o
    let (ts, es) ← afterAll ts os
    return (ts, e :: es)

end Verif.Spec.Buffer
