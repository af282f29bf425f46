import Verif.Model.Parse
import Verif.Model.Serialize
/-!
# Lookups in prefix maps: `internal/prefixmapper`, `carrier`, `geocoding`, `timezone`
-/
namespace Verif

/-- strconv `Atoi`: an optional sign and at least one ASCII digit, within 64 bits; `none` is an error. -/
def atoi (s : Str) : Option Int :=
  let (neg, ds) := match s with
    | 43 :: t => (false, t)
    | 45 :: t => (true, t)
    | t => (false, t)
  if ds = [] ∨ !ds.all isDig then none
  else
    let n := digVal ds
    if neg then (if n ≤ 2 ^ 63 then some (-n : Int) else none)
    else if n < 2 ^ 63 then some (n : Int) else none

/-- `s[0:i]` for a byte index `i`; `none` if this cuts a character in two (`Atoi` rejects the piece in that case). -/
def bytePrefix : Str → Nat → Option Str
  | _, 0 => some []
  | [], _ + 1 => some []
  | u :: t, i + 1 => if width u ≤ i + 1 then (bytePrefix t (i + 1 - width u)).map (u :: ·) else none

/-- `strconv.Atoi(s[0:i])`. -/
def atoiPrefix (s : Str) (i : Nat) : Option Int := (bytePrefix s i).bind atoi

/-- internal/prefixmapper/prefixmapper.go 83-91: the loop of `ValueForNumber`; `none` is the error of `Atoi`. -/
def valueLoop (m : List (Int × Bytes)) (e164 : Str) : Nat → Option (Bytes × Int)
  | 0 => some ([], 0)
  | i + 1 =>
    if i + 1 ≤ 1 then some ([], 0)
    else match atoiPrefix e164 (i + 1) with
      | none => none
      | some index => match mapGet m index with
        | some v => some (v, index)
        | none => valueLoop m e164 i

/-- internal/prefixmapper/prefixmapper.go 71-93: `ValueForNumber` once the prefixes are loaded (`none`: the language has no
data). -/
def valueForNumber (prefixes : Option (List (Int × Bytes))) (maxLength : Nat) (e164 : Str) : Option (Bytes × Int) :=
  match prefixes with
  | none => some ([], 0)
  | some m => valueLoop m e164 (min maxLength (blen e164))

/-! ## Carrier -/

/-- carrier/carrier.go 19-23: `GetNameForValidNumber`, with the prefixes of the language. -/
def carrierForValid (C : Container) (prefixes : Option (List (Int × Bytes))) (n : PhoneNumber) : Option Bytes :=
  (valueForNumber prefixes 10 (format C n .e164)).map (·.1)

/-- carrier/carrier.go 48-52: `isMobile`. -/
def isMobileType (t : NumType) : Bool := t = .mobile || t = .fixedLineOrMobile || t = .pager

/-- carrier/carrier.go 28-33: `GetNameForNumber`. -/
def carrierForNumber (C : Container) (prefixes : Option (List (Int × Bytes))) (n : PhoneNumber) : Go (Option Bytes) := do
  if isMobileType (← numberType C n) then return carrierForValid C prefixes n else return some []

/-- carrier/carrier.go 39-44: `GetSafeDisplayName`. -/
def carrierSafe (C : Container) (prefixes : Option (List (Int × Bytes))) (n : PhoneNumber) : Go (Option Bytes) := do
  if C.isMobilePortable (← regionForNumber C n) then return some [] else carrierForNumber C prefixes n

/-! ## Geocoding -/

/-- geocoding/geocoding.go 122-135: `regionDisplayName`; `disp` is the name given by golang.org/x/text, not modelled. -/
def regionDisplayName (disp : Str → Bytes) (r : Str) : Bytes :=
  if r = [] ∨ r = unknownRegion ∨ r = nonGeoRegion then [] else disp r

/-- geocoding/geocoding.go 107-117: the loop of `countryNameForNumber`; `none` means valid for two regions. -/
def regionWhereValid (C : Container) (n : PhoneNumber) : List Str → Str → Go (Option Str)
  | [], acc => .ok (some acc)
  | r :: rs, acc => do
    if ← isValidForRegion C n r then
      if acc ≠ unknownRegion then return none else regionWhereValid C n rs r
    else regionWhereValid C n rs acc

/-- geocoding/geocoding.go 101-118: `countryNameForNumber`. -/
def countryName (C : Container) (disp : Str → Bytes) (n : PhoneNumber) : Go Bytes :=
  match C.regionsOf n.cc with
  | [r] => .ok (regionDisplayName disp r)
  | rs => do
    match ← regionWhereValid C n rs unknownRegion with
    | none => return []
    | some r => return regionDisplayName disp r

/-- geocoding/geocoding.go 23-35: the number that is looked up. -/
def geoLookupNumber (C : Container) (n : PhoneNumber) : Go PhoneNumber :=
  let token := countryMobileToken n.cc
  let nsn := nsnOf n
  if token ≠ [] ∧ hasPrefix nsn token then do
    match ← parse C (nsn.drop token.length) (C.mainRegion n.cc) with
    | (none, copied) => return copied
    | (some _, _) => return n
  else .ok n

/-- geocoding/geocoding.go 22-46: `GetDescriptionForValidNumber`; the inner `none` is an error. -/
def descriptionForValid (C : Container) (disp : Str → Bytes) (prefixes : Option (List (Int × Bytes))) (n : PhoneNumber) :
    Go (Option Bytes) := do
  let lookup ← geoLookupNumber C n
  match valueForNumber prefixes 10 (format C lookup .e164) with
  | none => return none
  | some (v, _) => if v ≠ [] then return some v else return some (← countryName C disp n)

/-- geocoding/geocoding.go 58-70: `GetDescriptionForValidNumberForUserRegion`. -/
def descriptionForValidForUser (C : Container) (disp : Str → Bytes) (prefixes : Option (List (Int × Bytes))) (n : PhoneNumber)
    (user : Str) : Go (Option Bytes) := do
  let r ← regionForNumber C n
  if user = r then descriptionForValid C disp prefixes n else return some (regionDisplayName disp r)

/-- geocoding/geocoding.go 76-84: `GetDescriptionForNumber`. -/
def descriptionForNumber (C : Container) (disp : Str → Bytes) (prefixes : Option (List (Int × Bytes))) (n : PhoneNumber) :
    Go (Option Bytes) := do
  let t ← numberType C n
  if t = .unknown then return some []
  else if !isGeographicalForType t n.cc then return some (← countryName C disp n)
  else descriptionForValid C disp prefixes n

/-- geocoding/geocoding.go 88-96: `GetDescriptionForNumberForUserRegion`. -/
def descriptionForNumberForUser (C : Container) (disp : Str → Bytes) (prefixes : Option (List (Int × Bytes))) (n : PhoneNumber)
    (user : Str) : Go (Option Bytes) := do
  let t ← numberType C n
  if t = .unknown then return some []
  else if !isGeographicalForType t n.cc then return some (← countryName C disp n)
  else descriptionForValidForUser C disp prefixes n user

/-! ## Time zones -/

/-- timezone/timezone.go 22: `Unknown`. -/
def unknownZone : Bytes := str!"Etc/Unknown"

/-- timezone/timezone.go 75-85: the loop of `lookupTimeZones`; `none` is the error of `Atoi`. -/
def zonesLoop (m : List (Int × List Bytes)) (number : Str) : Nat → Option (List Bytes)
  | 0 => some [unknownZone]
  | i + 1 => match atoiPrefix number (i + 1) with
    | none => none
    | some index => match mapGet m index with
      | some zs => some zs
      | none => zonesLoop m number i

/-- timezone/timezone.go 60-86: `lookupTimeZones`.  `tz` is the map loaded once by `timezoneOnce`, `none` if loading failed. -/
def lookupTimeZones (tz : Option (Loaded (List Bytes))) (number : Str) : Option (List Bytes) :=
  match tz with
  | none => none
  | some tz =>
    let number := number.dropWhile (· == 43)
    zonesLoop tz.map number (min (blen number) tz.maxLength)

/-- timezone/timezone.go 45-48: `GetTimeZonesForGeographicalNumber`. -/
def timeZonesForGeographical (C : Container) (tz : Option (Loaded (List Bytes))) (n : PhoneNumber) : Option (List Bytes) :=
  lookupTimeZones tz (format C n .e164)

/-- timezone/timezone.go 33-41: `GetTimeZonesForNumber`; 52-54: `countryLevelTimeZonesForNumber`. -/
def timeZonesForNumber (C : Container) (tz : Option (Loaded (List Bytes))) (n : PhoneNumber) : Go (Option (List Bytes)) := do
  let t ← numberType C n
  if t = .unknown then return some [unknownZone]
  else if !isGeographicalForType t n.cc then return lookupTimeZones tz (decInt n.cc)
  else return timeZonesForGeographical C tz n

end Verif
