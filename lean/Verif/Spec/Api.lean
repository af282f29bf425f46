import Verif.Model.Example
import Verif.Model.PhoneParser
import Verif.Model.Mapper
import Verif.Model.Matcher
import Verif.Model.Aytf
import Verif.Model.ShortNumber
import Verif.Spec.Aytf
/-!
# The calls a program can make

One constructor for each exported function whose model can panic, with the arguments of the function. Functions whose models are
plain functions (`Format` and most of the formatting functions, `GetRegionCodesForCountryCode` and the other questions about regions,
the validity questions about short numbers) cannot panic in the model and are left out.

Numbers are arbitrary values of the message type, not only those parsing returns. The contents of the prefix files, the display names
of regions and the orders of map iterations are arbitrary too.
-/
namespace Verif.Spec

/-- A call with its arguments. -/
inductive Request where
  /-- `Parse`, `ParseToNumber` (with the message that is filled in) -/
  | parse (text region : Str) (into : PhoneNumber)
  /-- `ParseAndKeepRawInput`, `ParseAndKeepRawInputToNumber` -/
  | parseKeepRaw (text region : Str) (into : PhoneNumber)
  | numberType (n : PhoneNumber)
  | regionOf (n : PhoneNumber)
  | isValid (n : PhoneNumber)
  | isValidIn (n : PhoneNumber) (region : Str)
  | isPossible (n : PhoneNumber)
  | possibleReason (n : PhoneNumber)
  | isPossibleForType (n : PhoneNumber) (t : NumType)
  | possibleForTypeReason (n : PhoneNumber) (t : NumType)
  | isPossibleText (text region : Str)
  | truncate (n : PhoneNumber)
  | dialledFromAbroad (n : PhoneNumber)
  | isGeographical (n : PhoneNumber)
  | lengthOfAreaCode (n : PhoneNumber)
  | lengthOfDestinationCode (n : PhoneNumber)
  | formatForMobile (n : PhoneNumber) (region : Str) (withFormatting : Bool)
  | formatInOriginal (n : PhoneNumber) (region : Str)
  | matchOne (n : PhoneNumber) (text : Str)
  | matchTexts (text1 text2 : Str)
  | example_ (region : Str)
  | exampleOfTypeIn (region : Str) (t : NumType)
  | exampleOfType (regions : List Str) (codes : List Int) (t : NumType)
  | exampleNonGeographical (cc : Int)
  | invalidExample (region : Str)
  /-- `FindNumbers`, `FindNumbersWithLeniency`, iterated to the end -/
  | find (alternate : List Metadata) (text region : Str) (leniency : Leniency) (maxTries : Int)
  /-- a formatter made for a region, any calls on it, and then the remembered position -/
  | typing (region : Str) (history : List Call)
  | carrier (prefixes : Option (List (Int × Bytes))) (n : PhoneNumber)
  | carrierSafe (prefixes : Option (List (Int × Bytes))) (n : PhoneNumber)
  | descriptionOfValid (names : Str → Bytes) (prefixes : Option (List (Int × Bytes))) (n : PhoneNumber)
  | descriptionOfValidFor (names : Str → Bytes) (prefixes : Option (List (Int × Bytes))) (n : PhoneNumber) (user : Str)
  | description (names : Str → Bytes) (prefixes : Option (List (Int × Bytes))) (n : PhoneNumber)
  | descriptionFor (names : Str → Bytes) (prefixes : Option (List (Int × Bytes))) (n : PhoneNumber) (user : Str)
  | timeZones (zones : Option (Loaded (List Bytes))) (n : PhoneNumber)
  | possibleShort (n : PhoneNumber)
  | possibleShortIn (n : PhoneNumber) (region : Str)
  | expectedCost (n : PhoneNumber)
  | expectedCostIn (n : PhoneNumber) (region : Str)
  /-- the command `phoneparser` -/
  | command (args : List Str)

/-- The result of a call is dropped. -/
def quiet {α : Type} (x : Go α) : Go Unit := do
  let _ ← x
  return ()

/-- The call is made on a container and a table of short numbers; what it returns is dropped, a panic is kept. -/
def Request.run (C : Container) (S : ShortMap) : Request → Go Unit
  | .parse s r n => quiet (parseToNumber C s r n)
  | .parseKeepRaw s r n => quiet (parseKeepRawToNumber C s r n)
  | .numberType n => quiet (Verif.numberType C n)
  | .regionOf n => quiet (regionForNumber C n)
  | .isValid n => quiet (isValidNumber C n)
  | .isValidIn n r => quiet (isValidForRegion C n r)
  | .isPossible n => quiet (isPossibleNumber C n)
  | .possibleReason n => quiet (possibleWithReason C n)
  | .isPossibleForType n t => quiet (Verif.isPossibleForType C n t)
  | .possibleForTypeReason n t => quiet (possibleForTypeWithReason C n t)
  | .isPossibleText s r => quiet (isPossibleFromRegion C s r)
  | .truncate n => quiet (truncateTooLong C n)
  | .dialledFromAbroad n => quiet (canBeInternationallyDialled C n)
  | .isGeographical n => quiet (Verif.isGeographical C n)
  | .lengthOfAreaCode n => quiet (Verif.lengthOfAreaCode C n)
  | .lengthOfDestinationCode n => quiet (lengthOfNdc C n)
  | .formatForMobile n r b => quiet (Verif.formatForMobile C n r b)
  | .formatInOriginal n r => quiet (Verif.formatInOriginal C n r)
  | .matchOne n s => quiet (numberMatchOne C n s)
  | .matchTexts s t => quiet (numberMatchStrings C s t)
  | .example_ r => quiet (exampleNumber C r)
  | .exampleOfTypeIn r t => quiet (exampleForTypeInRegion C r t)
  | .exampleOfType rs cs t => quiet (exampleForType C rs cs t)
  | .exampleNonGeographical cc => quiet (exampleForNonGeo C cc)
  | .invalidExample r => quiet (Verif.invalidExample C r)
  | .find alt s r l k => quiet (Finder.findNumbers ⟨C, alt, s, r, l⟩ k)
  | .typing r h => do
    let a ← calls C (Aytf.new C r) h
    quiet a.position
  | .carrier p n => quiet (carrierForNumber C p n)
  | .carrierSafe p n => quiet (Verif.carrierSafe C p n)
  | .descriptionOfValid d p n => quiet (descriptionForValid C d p n)
  | .descriptionOfValidFor d p n u => quiet (descriptionForValidForUser C d p n u)
  | .description d p n => quiet (descriptionForNumber C d p n)
  | .descriptionFor d p n u => quiet (descriptionForNumberForUser C d p n u)
  | .timeZones z n => quiet (timeZonesForNumber C z n)
  | .possibleShort n => quiet (isPossibleShort C S n)
  | .possibleShortIn n r => quiet (isPossibleShortForRegion C S n r)
  | .expectedCost n => quiet (Verif.expectedCost C S n)
  | .expectedCostIn n r => quiet (expectedCostForRegion C S n r)
  | .command args => quiet (phoneparser C args)

end Verif.Spec
