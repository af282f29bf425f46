import Verif.Model.Builder
import Verif.Model.Embedded
/-!
# The files written by the build command (cmd/buildmetadata/main.go)

The files are given uncompressed: `generateBinFile` (480-487) compresses them with gzip, which is not modelled.  Reading the sources and
writing the files to disk are not modelled either.
-/
namespace Verif
namespace Builder
open Wire

/-- internal/metadatabuilder/metadatabuilder.go 25-30: `sp`. -/
def sp (s : Str) : Option Bytes := if s = [] then none else some (Utf8.encode s)

/-- internal/metadatabuilder/metadatabuilder.go 165-172, 208-218 and 252-270: the `NumberFormat` message of a built format.  Simplification: an
explicit `false` of `nationalPrefixOptionalWhenFormatting` is not told from an unset one. -/
def formatMessage (f : NumberFormat) : PbFormat :=
  { pattern := sp f.pattern.src, format := sp f.format, leadingDigits := f.leadingDigits.map (fun p => Utf8.encode p.src),
    npRule := sp f.npRule, npOptional := if f.npOptional then some true else none, ccRule := sp f.ccRule }

/-- internal/metadatabuilder/metadatabuilder.go 431-462: the `PhoneNumberDesc` message of a built description. -/
def descMessage (d : Desc) : PbDesc :=
  { pattern := d.pattern.map (fun p => Utf8.encode p.src), lengths := d.lengths, localLengths := d.localLengths, ex := sp d.ex }

/-- internal/metadatabuilder/metadatabuilder.go 126-164, 564-604 and 63-81: the `PhoneMetadata` message of a built territory.  For alternate
formats an empty id is set. -/
def metadataMessage (alternate : Bool) (m : Metadata) : PbMetadata :=
  { general := m.general.map descMessage, fixedLine := m.fixedLine.map descMessage, mobile := m.mobile.map descMessage,
    tollFree := m.tollFree.map descMessage, premium := m.premium.map descMessage, sharedCost := m.sharedCost.map descMessage,
    personal := m.personal.map descMessage, voip := m.voip.map descMessage, pager := m.pager.map descMessage,
    uan := m.uan.map descMessage, emergency := m.emergency.map descMessage, voicemail := m.voicemail.map descMessage,
    shortCode := m.shortCode.map descMessage, standardRate := m.standardRate.map descMessage,
    carrierSpecific := m.carrierSpecific.map descMessage, smsServices := m.smsServices.map descMessage,
    noInternational := m.noInternational.map descMessage,
    id := if alternate ∧ m.id = [] then some [] else sp m.id,
    countryCode := if m.countryCode = 0 then none else some m.countryCode,
    internationalPrefix := sp m.internationalPrefix.src, nationalPrefix := sp m.nationalPrefix,
    preferredExtnPrefix := sp m.preferredExtnPrefix, npParsing := sp m.npParsing.src, npTransform := sp m.npTransform,
    preferredInternationalPrefix := sp m.preferredInternationalPrefix,
    sameMobileFixed := if m.sameMobileFixed then some true else none,
    formats := m.formats.map formatMessage, intlFormats := m.intlFormats.map formatMessage,
    mainCountry := if m.mainCountry then some true else none, leadingDigits := sp m.leadingDigits.src,
    mobilePortable := if m.mobilePortable then some true else none }

/-- cmd/buildmetadata/main.go 179-200 and 202-223: `buildNumberMetadata` and `buildAlternateFormatsMetadata` from the decoded XML to the
uncompressed content of the file.  `.error` is a panic of the builder, `none` the error of `proto.Marshal`.  The collection is
returned for `buildRegionMetadata`.  `order` is the order in which records are written (see `protoMarshalCollection`). -/
def metadataFile (compile : Str → Option Re) (o : Order) (order : List Field → List Field) (short alternate : Bool)
    (ts : List TerritoryE) : Go (Option (List Metadata × Bytes)) := do
  let coll ← buildCollection compile o short alternate 0 ts
  return (protoMarshalCollection order (coll.map (metadataMessage alternate))).map fun bs => (coll, bs)

/-- cmd/buildmetadata/main.go 225-239: `buildRegionMetadata` up to the compression.  `m` is the map of `BuildCountryCodeToRegionMap`, listed
in the order in which `renderMap` visits it. -/
def regionFile (m : List (Int × List Str)) : Go Bytes := renderMap (m.map fun e => (e.1, e.2.map Utf8.encode))

end Builder
end Verif
