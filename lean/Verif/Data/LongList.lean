import Verif.Data.Decode
/-!
# Lists of many thousand bytes
-/
namespace Verif
open Lean

namespace Decode

/-- The parts of a list, `k` elements each. -/
def partsOf (k : Nat) (a : Array Nat) : Array (List Nat) := Id.run do
  let mut out := #[]
  for i in [0:(a.size + k - 1) / k] do
    out := out.push (a.extract (i * k) (i * k + k)).toList
  return out

/-- The bytes of a text of hexadecimal digits. -/
def hexArray (s : String) : Array Nat := Id.run do
  let mut out := #[]
  let mut half : Option Nat := none
  for c in s.toList do
    match half with
    | none => half := some (hexDigit c)
    | some h =>
      out := out.push (h * 16 + hexDigit c)
      half := none
  return out

/-- Adds the list, in parts of 400 elements each ending in the next one, the last one in `last`. -/
def addLong (n : Name) (a : Array Nat) (last : Expr) : CoreM Unit := do
  let ty := mkApp (mkConst ``List [0]) natT
  let ps := partsOf 400 a
  let mut tail := last
  for j in [0:ps.size] do
    let i := ps.size - 1 - j
    let nm := if i = 0 then n else n ++ Name.mkSimple s!"p{i}"
    addDef nm ty (ps[i]!.foldr (fun b acc => mkApp3 (mkConst ``List.cons [0]) natT (mkRawNatLit b) acc) tail)
    tail := mkConst nm

end Decode

open Elab Command in
/-- `long_list name "…"`: the bytes of a file given in hexadecimal. -/
elab "long_list " ns:ident s:str : command => liftTermElabM do
  Decode.addLong ((← getCurrNamespace) ++ ns.getId) (Decode.hexArray s.getString) (mkApp (mkConst ``List.nil [0]) Decode.natT)

open Elab Command in
/-- `long_list name before rest "…"`: these bytes and then those of `rest`. -/
elab "long_list " ns:ident " before " r:ident s:str : command => liftTermElabM do
  Decode.addLong ((← getCurrNamespace) ++ ns.getId) (Decode.hexArray s.getString) (mkConst (← realizeGlobalConstNoOverload r))

end Verif
