import Verif.Model.Serialize
import Verif.Model.Types
import Verif.Utf8
import Verif.Regex.Parser
/-!
# Protobuf messages on the wire

The library keeps its metadata as protobuf messages: `cmd/buildmetadata` writes them with `proto.Marshal`, `metadata/source.go`,
`shortnumberinfo.go` and `alternateformats.go` read them with `proto.Unmarshal`.  Both functions are those of the protobuf runtime;
the model follows the wire format (records of a tag and a value) and takes the numbers and kinds of the fields from the
tags in the generated files of `/repo`.
-/
namespace Verif
namespace Wire

/-- The value of a record: wire types 0 (varint), 1 (eight bytes), 2 (length and bytes) and 5 (four bytes).  Groups (3 and 4) are not
modelled: `parse` rejects them, the runtime skips them in unknown fields. -/
inductive Val where
  | varint (v : Nat)
  | fixed64 (b : Bytes)
  | bytes (b : Bytes)
  | fixed32 (b : Bytes)
  deriving DecidableEq, Repr

/-- A record: the number of the field and the value. -/
structure Field where
  num : Nat
  val : Val
  deriving DecidableEq, Repr

/-- The wire type. -/
def Val.type : Val → Nat
  | .varint _ => 0
  | .fixed64 _ => 1
  | .bytes _ => 2
  | .fixed32 _ => 5

/-- The bytes of a value. -/
def Val.write : Val → Bytes
  | .varint v => uvarint v
  | .fixed64 b => b
  | .bytes b => uvarint b.length ++ b
  | .fixed32 b => b

/-- The bytes of a record. -/
def Field.write (f : Field) : Bytes := uvarint (f.num * 8 + f.val.type) ++ f.val.write

/-- The bytes of a message. -/
def write (fs : List Field) : Bytes := fs.flatMap Field.write

/-- A varint of at most `k` bytes; with ten bytes the last one may only hold one bit. -/
def varintFrom : Nat → Bytes → Option (Nat × Bytes)
  | 0, _ => none
  | _ + 1, [] => none
  | k + 1, b :: bs =>
    if b < 128 then (if k = 0 ∧ 1 < b then none else some (b, bs))
    else match varintFrom k bs with
      | some (v, r) => some (b - 128 + 128 * v, r)
      | none => none

/-- `protowire.ConsumeVarint`. -/
def varint (bs : Bytes) : Option (Nat × Bytes) := varintFrom 10 bs

/-- The first `n` bytes and the others. -/
def cut : Nat → Bytes → Option (Bytes × Bytes)
  | 0, bs => some ([], bs)
  | _ + 1, [] => none
  | n + 1, b :: bs =>
    match cut n bs with
    | some (x, y) => some (b :: x, y)
    | none => none

/-- The value of a record of the given wire type. -/
def value (type : Nat) (bs : Bytes) : Option (Val × Bytes) :=
  match type with
  | 0 => (varint bs).map fun x => (.varint x.1, x.2)
  | 1 => (cut 8 bs).map fun x => (.fixed64 x.1, x.2)
  | 2 => (varint bs).bind fun x => (cut x.1 x.2).map fun y => (.bytes y.1, y.2)
  | 5 => (cut 4 bs).map fun x => (.fixed32 x.1, x.2)
  | _ => none

/-- One record.  Field numbers are at least 1 and below 2^29. -/
def record (bs : Bytes) : Option (Field × Bytes) :=
  (varint bs).bind fun t =>
    if t.1 / 8 = 0 ∨ 2 ^ 29 ≤ t.1 / 8 then none
    else (value (t.1 % 8) t.2).map fun x => (⟨t.1 / 8, x.1⟩, x.2)

/-- The records of a message; every record has at least one byte, so `n` is at most their number. -/
def parseFrom : Nat → Bytes → Option (List Field)
  | _, [] => some []
  | 0, _ :: _ => none
  | n + 1, b :: bs => (record (b :: bs)).bind fun x => (parseFrom n x.2).map (x.1 :: ·)

/-- The records of a message. -/
def parse (bs : Bytes) : Option (List Field) := parseFrom bs.length bs

/-- The values of the field `k` that are bytes (strings and messages); records of another wire type are unknown fields. -/
def byteValues (k : Nat) (fs : List Field) : List Bytes :=
  fs.filterMap fun f => match f.val with
    | .bytes b => if f.num = k then some b else none
    | _ => none

/-- The values of the field `k` that are varints. -/
def varintValues (k : Nat) (fs : List Field) : List Nat :=
  fs.filterMap fun f => match f.val with
    | .varint v => if f.num = k then some v else none
    | _ => none

/-- Varints one after another. -/
def varintsFrom : Nat → Bytes → Option (List Nat)
  | _, [] => some []
  | 0, _ :: _ => none
  | n + 1, b :: bs => (varint (b :: bs)).bind fun x => (varintsFrom n x.2).map (x.1 :: ·)

/-- The values of the repeated field `k` of varints; a record of bytes holds several ("packed"). -/
def repeatedValues (k : Nat) : List Field → Option (List Nat)
  | [] => some []
  | f :: fs =>
    (repeatedValues k fs).bind fun rest =>
      if f.num = k then
        match f.val with
        | .varint v => some (v :: rest)
        | .bytes b => (varintsFrom b.length b).map (· ++ rest)
        | _ => some rest
      else some rest

/-- A varint as an `int32`. -/
def toInt32 (v : Nat) : Int := if v % 2 ^ 32 < 2 ^ 31 then (v % 2 ^ 32 : Nat) else (v % 2 ^ 32 : Nat) - 2 ^ 32

/-- An `int32` as a varint: negative values are extended to 64 bits. -/
def ofInt32 (i : Int) : Nat := if i < 0 then (i + 2 ^ 64).toNat else i.toNat

/-- An optional string: the last value counts. -/
def getBytes (k : Nat) (fs : List Field) : Option Bytes := (byteValues k fs).getLast?

/-- An optional `int32`. -/
def getInt (k : Nat) (fs : List Field) : Option Int := (varintValues k fs).getLast?.map toInt32

/-- An optional `bool`. -/
def getBool (k : Nat) (fs : List Field) : Option Bool := (varintValues k fs).getLast?.map (· != 0)

/-- An optional message: several records are merged, which is reading their bytes one after another. -/
def getMessage {α : Type} (k : Nat) (read : List Field → Option α) (fs : List Field) : Option (Option α) :=
  match byteValues k fs with
  | [] => some none
  | p :: ps => ((p :: ps).mapM parse).bind fun gs => (read gs.flatten).map some

/-- A repeated message. -/
def getMessages {α : Type} (k : Nat) (read : List Field → Option α) (fs : List Field) : Option (List α) :=
  (byteValues k fs).mapM fun p => (parse p).bind read

/-- The record of an optional string. -/
def putBytes (k : Nat) (v : Option Bytes) : List Field := v.toList.map fun b => ⟨k, .bytes b⟩

/-- The record of an optional `int32`. -/
def putInt (k : Nat) (v : Option Int) : List Field := v.toList.map fun i => ⟨k, .varint (ofInt32 i)⟩

/-- The record of an optional `bool`. -/
def putBool (k : Nat) (v : Option Bool) : List Field := v.toList.map fun b => ⟨k, .varint (if b then 1 else 0)⟩

/-- metadata/phonemetadata.pb.go 44-107: message `NumberFormat`; strings are bytes, `none` is an unset field. -/
structure PbFormat where
  pattern : Option Bytes := none
  format : Option Bytes := none
  leadingDigits : List Bytes := []
  npRule : Option Bytes := none
  npOptional : Option Bool := none
  ccRule : Option Bytes := none
  deriving DecidableEq, Repr

/-- metadata/phonemetadata.pb.go 183-222: message `PhoneNumberDesc`. -/
structure PbDesc where
  pattern : Option Bytes := none
  lengths : List Int := []
  localLengths : List Int := []
  ex : Option Bytes := none
  deriving DecidableEq, Repr

/-- metadata/phonemetadata.pb.go 291-431: message `PhoneMetadata`. -/
structure PbMetadata where
  general : Option PbDesc := none
  fixedLine : Option PbDesc := none
  mobile : Option PbDesc := none
  tollFree : Option PbDesc := none
  premium : Option PbDesc := none
  sharedCost : Option PbDesc := none
  personal : Option PbDesc := none
  voip : Option PbDesc := none
  id : Option Bytes := none
  countryCode : Option Int := none
  internationalPrefix : Option Bytes := none
  nationalPrefix : Option Bytes := none
  preferredExtnPrefix : Option Bytes := none
  npParsing : Option Bytes := none
  npTransform : Option Bytes := none
  preferredInternationalPrefix : Option Bytes := none
  sameMobileFixed : Option Bool := none
  formats : List PbFormat := []
  intlFormats : List PbFormat := []
  pager : Option PbDesc := none
  mainCountry : Option Bool := none
  leadingDigits : Option Bytes := none
  noInternational : Option PbDesc := none
  uan : Option PbDesc := none
  leadingZeroPossible : Option Bool := none
  emergency : Option PbDesc := none
  voicemail : Option PbDesc := none
  shortCode : Option PbDesc := none
  standardRate : Option PbDesc := none
  carrierSpecific : Option PbDesc := none
  mobilePortable : Option Bool := none
  smsServices : Option PbDesc := none
  deriving DecidableEq, Repr

/-- phonenumber.pb.go 129-192: message `PhoneNumber`, with strings as bytes and the number of the enumeration constant. -/
structure PbNumber where
  countryCode : Option Int := none
  nationalNumber : Option Nat := none
  extension : Option Bytes := none
  italianLeadingZero : Option Bool := none
  rawInput : Option Bytes := none
  countryCodeSource : Option Int := none
  preferredCarrier : Option Bytes := none
  numberOfLeadingZeros : Option Int := none
  deriving DecidableEq, Repr

/-- A required field is set. -/
def need {α : Type} (v : Option α) : Option Unit := v.map fun _ => ()

/-- metadata/phonemetadata.pb.go 51-104: reading a `NumberFormat`; `pattern` and `format` are required. -/
def readFormat (fs : List Field) : Option PbFormat :=
  if (getBytes 1 fs).isSome ∧ (getBytes 2 fs).isSome then
    some { pattern := getBytes 1 fs, format := getBytes 2 fs, leadingDigits := byteValues 3 fs, npRule := getBytes 4 fs,
           ccRule := getBytes 5 fs, npOptional := getBool 6 fs }
  else none

/-- metadata/phonemetadata.pb.go 193-219: reading a `PhoneNumberDesc`. -/
def readDesc (fs : List Field) : Option PbDesc :=
  (repeatedValues 9 fs).bind fun l => (repeatedValues 10 fs).map fun ll =>
    { pattern := getBytes 2 fs, lengths := l.map toInt32, localLengths := ll.map toInt32, ex := getBytes 6 fs }

/-- metadata/phonemetadata.pb.go 293-428: reading a `PhoneMetadata`; `id` is required. -/
def readMetadata (fs : List Field) : Option PbMetadata := do
  let general ← getMessage 1 readDesc fs
  let fixedLine ← getMessage 2 readDesc fs
  let mobile ← getMessage 3 readDesc fs
  let tollFree ← getMessage 4 readDesc fs
  let premium ← getMessage 5 readDesc fs
  let sharedCost ← getMessage 6 readDesc fs
  let personal ← getMessage 7 readDesc fs
  let voip ← getMessage 8 readDesc fs
  let formats ← getMessages 19 readFormat fs
  let intlFormats ← getMessages 20 readFormat fs
  let pager ← getMessage 21 readDesc fs
  let noInternational ← getMessage 24 readDesc fs
  let uan ← getMessage 25 readDesc fs
  let emergency ← getMessage 27 readDesc fs
  let voicemail ← getMessage 28 readDesc fs
  let shortCode ← getMessage 29 readDesc fs
  let standardRate ← getMessage 30 readDesc fs
  let carrierSpecific ← getMessage 31 readDesc fs
  let smsServices ← getMessage 33 readDesc fs
  need (getBytes 9 fs)
  return { general, fixedLine, mobile, tollFree, premium, sharedCost, personal, voip, id := getBytes 9 fs,
           countryCode := getInt 10 fs, internationalPrefix := getBytes 11 fs, nationalPrefix := getBytes 12 fs,
           preferredExtnPrefix := getBytes 13 fs, npParsing := getBytes 15 fs, npTransform := getBytes 16 fs,
           preferredInternationalPrefix := getBytes 17 fs, sameMobileFixed := getBool 18 fs, formats, intlFormats, pager,
           mainCountry := getBool 22 fs, leadingDigits := getBytes 23 fs, noInternational, uan,
           leadingZeroPossible := getBool 26 fs, emergency, voicemail, shortCode, standardRate, carrierSpecific,
           mobilePortable := getBool 32 fs, smsServices }

/-- metadata/phonemetadata.pb.go 697: reading a `PhoneMetadataCollection`. -/
def readCollection (fs : List Field) : Option (List PbMetadata) := getMessages 1 readMetadata fs

/-- metadata/source.go 219, shortnumberinfo.go 48, alternateformats.go 34: `proto.Unmarshal` of a collection. -/
def unmarshalCollection (bs : Bytes) : Option (List PbMetadata) := (parse bs).bind readCollection

/-- phonenumber.pb.go 133-189: reading a `PhoneNumber`; the first two fields are required.  Numbers that are no constants of the
enumeration are unknown fields. -/
def readNumber (fs : List Field) : Option PbNumber :=
  if (getInt 1 fs).isSome ∧ ((varintValues 2 fs).getLast?).isSome then
    some { countryCode := getInt 1 fs, nationalNumber := (varintValues 2 fs).getLast?, extension := getBytes 3 fs,
           italianLeadingZero := getBool 4 fs, rawInput := getBytes 5 fs,
           countryCodeSource := (((varintValues 6 fs).map toInt32).filter fun v => [0, 1, 5, 10, 20].contains v).getLast?,
           preferredCarrier := getBytes 7 fs, numberOfLeadingZeros := getInt 8 fs }
  else none

/-- `proto.Unmarshal` of a `PhoneNumber`. -/
def unmarshalNumber (bs : Bytes) : Option PbNumber := (parse bs).bind readNumber

/-- The records of a `NumberFormat`. -/
def formatFields (f : PbFormat) : List Field :=
  putBytes 1 f.pattern ++ putBytes 2 f.format ++ f.leadingDigits.map (fun b => ⟨3, .bytes b⟩) ++ putBytes 4 f.npRule ++
    putBytes 5 f.ccRule ++ putBool 6 f.npOptional

/-- The records of a `PhoneNumberDesc`. -/
def descFields (d : PbDesc) : List Field :=
  putBytes 2 d.pattern ++ putBytes 6 d.ex ++ d.lengths.map (fun i => ⟨9, .varint (ofInt32 i)⟩) ++
    d.localLengths.map (fun i => ⟨10, .varint (ofInt32 i)⟩)

/-- The record of an optional description; `order` is the order in which the runtime writes records. -/
def putDesc (order : List Field → List Field) (k : Nat) (d : Option PbDesc) : List Field :=
  d.toList.map fun d => ⟨k, .bytes (write (order (descFields d)))⟩

/-- The records of formats. -/
def putFormats (order : List Field → List Field) (k : Nat) (fs : List PbFormat) : List Field :=
  fs.map fun f => ⟨k, .bytes (write (order (formatFields f)))⟩

/-- The records of a `PhoneMetadata`. -/
def metadataFields (order : List Field → List Field) (m : PbMetadata) : List Field :=
  putDesc order 1 m.general ++ putDesc order 2 m.fixedLine ++ putDesc order 3 m.mobile ++ putDesc order 4 m.tollFree ++
    putDesc order 5 m.premium ++ putDesc order 6 m.sharedCost ++ putDesc order 7 m.personal ++ putDesc order 8 m.voip ++
    putBytes 9 m.id ++ putInt 10 m.countryCode ++ putBytes 11 m.internationalPrefix ++ putBytes 12 m.nationalPrefix ++
    putBytes 13 m.preferredExtnPrefix ++ putBytes 15 m.npParsing ++ putBytes 16 m.npTransform ++
    putBytes 17 m.preferredInternationalPrefix ++ putBool 18 m.sameMobileFixed ++ putFormats order 19 m.formats ++
    putFormats order 20 m.intlFormats ++ putDesc order 21 m.pager ++ putBool 22 m.mainCountry ++ putBytes 23 m.leadingDigits ++
    putDesc order 24 m.noInternational ++ putDesc order 25 m.uan ++ putBool 26 m.leadingZeroPossible ++
    putDesc order 27 m.emergency ++ putDesc order 28 m.voicemail ++ putDesc order 29 m.shortCode ++
    putDesc order 30 m.standardRate ++ putDesc order 31 m.carrierSpecific ++ putBool 32 m.mobilePortable ++
    putDesc order 33 m.smsServices

/-- `proto.Marshal` of a collection, without the check of required fields (`complete`). -/
def marshalCollection (order : List Field → List Field) (c : List PbMetadata) : Bytes :=
  write (order (c.map fun m => ⟨1, .bytes (write (order (metadataFields order m)))⟩))

/-- The required fields are set: otherwise `proto.Marshal` reports an error. -/
def complete (c : List PbMetadata) : Bool :=
  c.all fun m => m.id.isSome && (m.formats ++ m.intlFormats).all fun f => f.pattern.isSome && f.format.isSome

/-- The records of a `PhoneNumber`. -/
def numberFields (n : PbNumber) : List Field :=
  putInt 1 n.countryCode ++ n.nationalNumber.toList.map (fun v => ⟨2, .varint v⟩) ++ putBytes 3 n.extension ++
    putBool 4 n.italianLeadingZero ++ putBytes 5 n.rawInput ++ putInt 6 n.countryCodeSource ++ putBytes 7 n.preferredCarrier ++
    putInt 8 n.numberOfLeadingZeros

/-- `proto.Marshal` of a `PhoneNumber`. -/
def marshalNumber (order : List Field → List Field) (n : PbNumber) : Bytes := write (order (numberFields n))

/-- phonenumber.pb.go 44-68: the numbers of the constants of the enumeration. -/
def sourceNumber : CCSource → Int
  | .unspecified => 0
  | .withPlusSign => 1
  | .withIdd => 5
  | .withoutPlusSign => 10
  | .defaultCountry => 20

/-- The constant with the given number. -/
def sourceOf (i : Int) : CCSource :=
  if i = 1 then .withPlusSign else if i = 5 then .withIdd else if i = 10 then .withoutPlusSign else if i = 20 then .defaultCountry
  else .unspecified

/-- The message with texts as bytes. -/
def ofNumber (n : PhoneNumber) : PbNumber :=
  { countryCode := n.countryCode, nationalNumber := n.nationalNumber, extension := n.extension.map Utf8.encode,
    italianLeadingZero := n.italianLeadingZero, rawInput := n.rawInput.map Utf8.encode,
    countryCodeSource := n.countryCodeSource.map sourceNumber, preferredCarrier := n.preferredCarrier.map Utf8.encode,
    numberOfLeadingZeros := n.numberOfLeadingZeros }

/-- The message with texts as units. -/
def toNumber (n : PbNumber) : PhoneNumber :=
  { countryCode := n.countryCode, nationalNumber := n.nationalNumber, extension := n.extension.map Utf8.decode,
    italianLeadingZero := n.italianLeadingZero, rawInput := n.rawInput.map Utf8.decode,
    countryCodeSource := n.countryCodeSource.map sourceOf, preferredCarrier := n.preferredCarrier.map Utf8.decode,
    numberOfLeadingZeros := n.numberOfLeadingZeros }

/-- `proto.Marshal` of a phone number: an error (`none`) if a required field is not set. -/
def protoMarshal (order : List Field → List Field) (n : PhoneNumber) : Option Bytes :=
  if n.countryCode.isSome ∧ n.nationalNumber.isSome then some (marshalNumber order (ofNumber n)) else none

/-- `proto.Unmarshal` into a fresh phone number; `none` is an error. -/
def protoUnmarshal (bs : Bytes) : Option PhoneNumber := (unmarshalNumber bs).map toNumber

/-- cmd/buildmetadata/main.go 190, 213: `proto.Marshal` of a collection: an error if a required field is not set. -/
def protoMarshalCollection (order : List Field → List Field) (c : List PbMetadata) : Option Bytes :=
  if complete c then some (marshalCollection order c) else none

/-! ## Metadata with compiled patterns -/

/-- A pattern with its tree; `none` if it does not compile (`regexcache.For` would panic when it is used). -/
def toPat (dec : Bytes → Str) (b : Bytes) : Option Pat := (parseRe (dec b)).map fun r => ⟨dec b, r⟩

section
variable (pat : Bytes → Option Pat) (dec : Bytes → Str)

/-- A `NumberFormat` as the functions of the model use it: getters give zero values for unset fields. -/
def toFormat (f : PbFormat) : Option NumberFormat := do
  let pattern ← pat (f.pattern.getD [])
  let leadingDigits ← f.leadingDigits.mapM pat
  return { pattern, format := dec (f.format.getD []), leadingDigits, npRule := dec (f.npRule.getD []),
           npOptional := f.npOptional.getD false, ccRule := dec (f.ccRule.getD []) }

/-- A `PhoneNumberDesc`. -/
def toDesc (d : PbDesc) : Option Desc := do
  let pattern ← match d.pattern with
    | some b => (pat b).map some
    | none => some none
  return { pattern, lengths := d.lengths, localLengths := d.localLengths, ex := dec (d.ex.getD []) }

/-- An optional description. -/
def toDesc? : Option PbDesc → Option (Option Desc)
  | some d => (toDesc pat dec d).map some
  | none => some none

/-- A `PhoneMetadata` as the functions of the model use it; `leading_zero_possible` is not used by the library. -/
def toMetadataWith (m : PbMetadata) : Option Metadata := do
  let internationalPrefix ← pat (m.internationalPrefix.getD [])
  let npParsing ← pat (m.npParsing.getD [])
  let leadingDigits ← pat (m.leadingDigits.getD [])
  let formats ← m.formats.mapM (toFormat pat dec)
  let intlFormats ← m.intlFormats.mapM (toFormat pat dec)
  let general ← toDesc? pat dec m.general
  let fixedLine ← toDesc? pat dec m.fixedLine
  let mobile ← toDesc? pat dec m.mobile
  let tollFree ← toDesc? pat dec m.tollFree
  let premium ← toDesc? pat dec m.premium
  let sharedCost ← toDesc? pat dec m.sharedCost
  let personal ← toDesc? pat dec m.personal
  let voip ← toDesc? pat dec m.voip
  let pager ← toDesc? pat dec m.pager
  let uan ← toDesc? pat dec m.uan
  let emergency ← toDesc? pat dec m.emergency
  let voicemail ← toDesc? pat dec m.voicemail
  let shortCode ← toDesc? pat dec m.shortCode
  let standardRate ← toDesc? pat dec m.standardRate
  let carrierSpecific ← toDesc? pat dec m.carrierSpecific
  let smsServices ← toDesc? pat dec m.smsServices
  let noInternational ← toDesc? pat dec m.noInternational
  return { id := dec (m.id.getD []), countryCode := m.countryCode.getD 0, internationalPrefix,
           preferredInternationalPrefix := dec (m.preferredInternationalPrefix.getD []), nationalPrefix := dec (m.nationalPrefix.getD []),
           preferredExtnPrefix := dec (m.preferredExtnPrefix.getD []), npParsing, npTransform := dec (m.npTransform.getD []),
           sameMobileFixed := m.sameMobileFixed.getD false, formats, intlFormats, mainCountry := m.mainCountry.getD false,
           leadingDigits, mobilePortable := m.mobilePortable.getD false, general, fixedLine, mobile, tollFree, premium, sharedCost,
           personal, voip, pager, uan, emergency, voicemail, shortCode, standardRate, carrierSpecific, smsServices, noInternational }

end

/-- The metadata with the patterns compiled. -/
def toMetadata (dec : Bytes → Str) (m : PbMetadata) : Option Metadata := toMetadataWith (toPat dec) dec m

end Wire
end Verif
