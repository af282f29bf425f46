import Verif.Model.Builder
import Verif.Utf8
/-!
# Specification: what the build command reads
-/
namespace Verif.Spec
open Builder

/-- A text without invalid bytes (the XML decoder accepts no others). -/
def ValidText (s : Str) : Prop := ∀ u ∈ s, Utf8.validRune u = true

/-- The texts of a format element. -/
def formatTexts (e : FormatE) : List Str := [e.format, e.npRule, e.ccRule, e.pattern] ++ e.leadingDigits ++ e.intl

/-- The description elements of a territory. -/
def descElements (t : TerritoryE) : List (Option DescE) :=
  [t.general, t.noInternational, t.fixedLine, t.mobile, t.pager, t.tollFree, t.premium, t.sharedCost, t.personal, t.voip, t.uan,
    t.voicemail, t.standardRate, t.shortCode, t.emergency, t.carrierSpecific, t.smsServices]

/-- The texts of a territory element. -/
def territoryTexts (t : TerritoryE) : List Str :=
  [t.id, t.leadingDigits, t.nationalPrefix, t.internationalPrefix, t.preferredInternationalPrefix, t.npRule, t.npParsing,
    t.npTransform, t.preferredExtnPrefix, t.ccRule] ++ t.formats.flatMap formatTexts ++
    ((descElements t).filterMap id).flatMap fun d => [d.pattern, d.ex]

/-- A territory as `xml.Unmarshal` can make it: its texts are valid and its country code is an `int32`. -/
structure XmlTerritory (t : TerritoryE) : Prop where
  texts : ∀ s ∈ territoryTexts t, ValidText s
  countryCode : -2 ^ 31 ≤ t.countryCode ∧ t.countryCode < 2 ^ 31

/-- `m` lists the entries of the Go map `f`, each key once: an order in which a `range` loop may visit it. -/
def Listing {κ ν : Type} [DecidableEq κ] (m f : List (κ × ν)) : Prop := (m.map (·.1)).Nodup ∧ ∀ k, mapGet m k = mapGet f k

/-- What the format of the region file allows: country codes are not negative, no region id has a newline or more than 250
characters, there are at most 4000 territories, and at most 255 with the same country code. -/
structure RegionsFit (ts : List TerritoryE) : Prop where
  codes : ∀ t ∈ ts, 0 ≤ t.countryCode
  newline : ∀ t ∈ ts, 10 ∉ t.id
  short : ∀ t ∈ ts, t.id.length ≤ 250
  count : ts.length ≤ 4000
  shared : ∀ cc, (ts.filter fun t => t.countryCode == cc).length ≤ 255

end Verif.Spec
