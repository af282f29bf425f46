import Verif.Model.Wire
/-!
# What serialisation may rely on
-/
namespace Verif.Spec
open Wire

/-- The text of a Go string: what its bytes read as. -/
def GoString (s : Str) : Prop := ∃ bs : Bytes, (∀ b ∈ bs, b < 256) ∧ s = Utf8.decode bs

/-- An order in which the records of a message may be written: records are only moved past records of other fields. -/
def WriteOrder (order : List Field → List Field) : Prop :=
  ∀ fs k, (order fs).filter (fun f => f.num == k) = fs.filter fun f => f.num == k

/-- A phone number as Go can hold it: the numbers are in the range of their types and the texts are strings. -/
structure GoNumber (n : PhoneNumber) : Prop where
  countryCode : ∀ i, n.countryCode = some i → -2 ^ 31 ≤ i ∧ i < 2 ^ 31
  nationalNumber : ∀ v, n.nationalNumber = some v → v < 2 ^ 64
  numberOfLeadingZeros : ∀ i, n.numberOfLeadingZeros = some i → -2 ^ 31 ≤ i ∧ i < 2 ^ 31
  extension : ∀ s, n.extension = some s → GoString s
  rawInput : ∀ s, n.rawInput = some s → GoString s
  preferredCarrier : ∀ s, n.preferredCarrier = some s → GoString s

/-- The descriptions of an entry. -/
def descriptions (m : PbMetadata) : List PbDesc :=
  [m.general, m.fixedLine, m.mobile, m.tollFree, m.premium, m.sharedCost, m.personal, m.voip, m.pager, m.noInternational, m.uan,
    m.emergency, m.voicemail, m.shortCode, m.standardRate, m.carrierSpecific, m.smsServices].filterMap id

/-- An entry as Go can hold it. -/
def GoMetadata (m : PbMetadata) : Prop :=
  (∀ i, m.countryCode = some i → -2 ^ 31 ≤ i ∧ i < 2 ^ 31) ∧
  ∀ d ∈ descriptions m, ∀ i ∈ d.lengths ++ d.localLengths, -2 ^ 31 ≤ i ∧ i < 2 ^ 31

/-- The bytes of the texts of a number. -/
def textBytes (n : PhoneNumber) : Nat := blen (n.extension.getD []) + blen (n.rawInput.getD []) + blen (n.preferredCarrier.getD [])

end Verif.Spec
