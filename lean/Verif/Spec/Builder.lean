import Verif.Model.Builder
import Verif.Spec.Basic
import Verif.Spec.WellFormed
/-!
# Specification of the metadata builder
-/
namespace Verif.Spec
open Verif.Builder

/-! ## Country codes -/

/-- The entries of a collection with country code `cc`, in the order of the collection. -/
def entriesOf (coll : List Metadata) (cc : Int) : List Metadata := coll.filter fun m => decide (m.countryCode = cc)

/-! ## Texts that list lengths -/

/-- An item of a list of lengths: a number `7`, or a range `[3-5]`. -/
inductive LenItem where
  | one (n : Nat)
  | range (lo hi : Nat)
  deriving DecidableEq

/-- How an item is written. -/
def LenItem.text : LenItem → Str
  | .one n => decimal n
  | .range lo hi => str!"[" ++ decimal lo ++ str!"-" ++ decimal hi ++ str!"]"

/-- The numbers that an item stands for. -/
def LenItem.Covers : LenItem → Int → Prop
  | .one n, x => x = n
  | .range lo hi, x => (lo : Int) ≤ x ∧ x ≤ hi

/-- Numbers are in the range of `int32`; a range has at least three elements. -/
def LenItem.Ok : LenItem → Prop
  | .one n => n < 2 ^ 31
  | .range lo hi => lo + 2 ≤ hi ∧ hi < 2 ^ 31

/-- Numbers are in the range of `int32`. -/
def LenItem.Sized : LenItem → Prop
  | .one n => n < 2 ^ 31
  | .range lo hi => lo < 2 ^ 31 ∧ hi < 2 ^ 31

/-- Items separated by commas. -/
def lenText : List LenItem → Str
  | [] => []
  | [i] => i.text
  | i :: is => i.text ++ str!"," ++ lenText is

/-- A possible-lengths element is written as the syntax asks: `nat` are the items of its national lengths (at least one), `loc` those of
its local-only lengths. -/
def Written (e : PossibleLengthE) (nat loc : List LenItem) : Prop :=
  nat ≠ [] ∧ (∀ i ∈ nat ++ loc, i.Ok) ∧ e.national = lenText nat ∧ e.localOnly = lenText loc

/-- The description element `d` lists `x` as a national length. -/
def National (d : Option DescE) (x : Int) : Prop :=
  ∃ el e nat loc, d = some el ∧ el.lengths = some e ∧ Written e nat loc ∧ ∃ i ∈ nat, i.Covers x

/-- The description element `d` lists `x` as a local-only length. -/
def LocalOnly (d : Option DescE) (x : Int) : Prop :=
  ∃ el e nat loc, d = some el ∧ el.lengths = some e ∧ Written e nat loc ∧ ∃ i ∈ loc, i.Covers x

/-- The lengths of the description element `d`, if it has any, are written as the syntax asks. -/
def WellWritten (d : Option DescE) : Prop := ∀ el e, d = some el → el.lengths = some e → ∃ nat loc, Written e nat loc

/-! ## Territories -/

/-- The description elements of a territory, apart from the general one, with the descriptions built from them. -/
def descPairs (short : Bool) (t : TerritoryE) (m : Metadata) : List (Option DescE × Option Desc) :=
  if short then
    [(t.standardRate, m.standardRate), (t.shortCode, m.shortCode), (t.carrierSpecific, m.carrierSpecific), (t.emergency, m.emergency),
     (t.tollFree, m.tollFree), (t.premium, m.premium), (t.smsServices, m.smsServices)]
  else
    [(t.fixedLine, m.fixedLine), (t.mobile, m.mobile), (t.sharedCost, m.sharedCost), (t.voip, m.voip), (t.personal, m.personal),
     (t.pager, m.pager), (t.uan, m.uan), (t.voicemail, m.voicemail), (t.noInternational, m.noInternational), (t.tollFree, m.tollFree),
     (t.premium, m.premium)]

/-- The description elements whose lengths count for the general description: the short code for short numbers, and otherwise all but
"no international dialling" and the SMS services. -/
def generalSources (short : Bool) (t : TerritoryE) : List (Option DescE) :=
  if short then [t.shortCode]
  else [t.fixedLine, t.mobile, t.pager, t.tollFree, t.premium, t.sharedCost, t.personal, t.voip, t.uan, t.voicemail, t.standardRate,
    t.shortCode, t.emergency, t.carrierSpecific]

/-- The lengths that apply to a description: its own or, if it has none, those of the general description. -/
def effectiveLengths (g d : Desc) : List Int := if d.lengths = [] then g.lengths else d.lengths

end Verif.Spec
