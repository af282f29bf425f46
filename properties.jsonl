{"id": "C01", "title": "NormalizeDigitsOnly keeps exactly the digits", "statement": "NormalizeDigitsOnly(s) is a string of ASCII digits that contains, in order, the decimal value of every Unicode decimal digit of s and nothing else; hence it is idempotent, it distributes over concatenation of valid UTF-8 strings, and it never panics.", "quantifier": "every Go string s, including invalid UTF-8", "why_tests_cant": "The input is any byte string and any of the several hundred Nd code points; tests only use a handful of scripts.", "anchors": ["phonenumberutil.go: NormalizeDigitsOnly, normalizeDigits", "internal/character/character.go: Digit"]}
{"id": "C02", "title": "NormalizeDiallableCharsOnly keeps exactly the diallable characters", "statement": "NormalizeDiallableCharsOnly(s) is the subsequence of s made of the ASCII characters 0-9, '+', '*' and '#', in order; everything else is dropped and nothing is altered.", "quantifier": "every Go string s", "why_tests_cant": "All Unicode input, including case-folding code points, is quantified over.", "anchors": ["phonenumberutil.go: NormalizeDiallableCharsOnly, normalizeHelper"]}
{"id": "C03", "title": "ConvertAlphaCharactersInNumber changes letters only", "statement": "ConvertAlphaCharactersInNumber(s) has as many characters as s; each character that upper-cases to an ASCII letter is replaced by its keypad digit and every other character of valid UTF-8 input is kept. Applying it twice equals applying it once.", "quantifier": "every Go string s", "why_tests_cant": "Unbounded strings and all Unicode code points (e.g. U+0131, U+017F upper-case to ASCII letters).", "anchors": ["phonenumberutil.go: ConvertAlphaCharactersInNumber, normalizeHelper"]}
{"id": "C04", "title": "GetNationalSignificantNumber is total and has a fixed shape", "statement": "For every PhoneNumber, GetNationalSignificantNumber returns (without panicking) k zeros followed by the decimal representation of the national number, where k is 0 unless the Italian-leading-zero flag is set with a positive count, and never exceeds 17 whatever count the message carries. Its length is at most 37.", "quantifier": "every PhoneNumber message, including hostile field values", "why_tests_cant": "The proto can carry any 32-bit count and any 64-bit number; only a proof covers the clamp for all of them.", "anchors": ["phonenumberutil.go: GetNationalSignificantNumber"]}
{"id": "C05", "title": "Storing a national significant number loses no digit", "statement": "If a digit string of length 2 to 17 is stored in a PhoneNumber the way parsing does it (leading-zero flag and count, 64-bit national number), then GetNationalSignificantNumber gives back exactly that string.", "quantifier": "every ASCII digit string of length 2..17", "why_tests_cant": "10^17 inputs, and the interesting ones are runs of leading zeros of every length.", "anchors": ["phonenumberutil.go: setItalianLeadingZerosForPhoneNumber, parseHelper, GetNationalSignificantNumber"]}
{"id": "C06", "title": "Parsing never panics and fails only with the documented errors", "statement": "For every string and every region string, Parse / ParseAndKeepRawInput either returns a number or one of the documented errors (not a number, invalid country code, too short NSN, too short after IDD, too long); it never panics.", "quantifier": "every input string (any bytes), every region string, every well-formed metadata and the shipped metadata", "why_tests_cant": "Panic freedom over all byte strings cannot be tested exhaustively; fuzzing only samples.", "anchors": ["phonenumberutil.go: Parse, ParseAndKeepRawInput, parseHelper"]}
{"id": "C07", "title": "Keeping the raw input does not change the parsed number", "statement": "Parse(s,r) succeeds exactly when ParseAndKeepRawInput(s,r) does, with the same error otherwise, and both results agree on country code, national number, extension and leading-zero fields; the raw-keeping variant additionally records exactly s as raw input.", "quantifier": "every input string, every region, every metadata", "why_tests_cant": "A two-run relation over all inputs.", "anchors": ["phonenumberutil.go: Parse, ParseAndKeepRawInput, parseHelper"]}
{"id": "C08", "title": "A parsed number carries a supported country code and a bounded NSN", "statement": "If Parse(s,r) succeeds then the country code of the result is one of the supported calling codes, and the national significant number has between 2 and 17 digits (all ASCII).", "quantifier": "every input string and region, every well-formed metadata", "why_tests_cant": "Quantifies over every accepted input.", "anchors": ["phonenumberutil.go: Parse, parseHelper, maybeExtractCountryCode", "metadata/source.go: NewContainer"]}
{"id": "C09", "title": "A number that parses without a region parses the same with any region", "statement": "If s parses with the unknown region \"ZZ\" then s parses, with an equal result, with every default region.", "quantifier": "every input string and every region", "why_tests_cant": "Relates two runs for all inputs and regions; the international path must ignore the default region.", "anchors": ["phonenumberutil.go: Parse, parseHelper, maybeExtractCountryCode"]}
{"id": "C10", "title": "E164 output parses back to the same number", "statement": "Format(n,E164) parsed with any default region yields a number with the same country code and national significant number as n, for numbers n whose NSN is left alone by national-prefix stripping; in particular for every valid number except Belarusian ones beginning with 8 and Japanese ones beginning with 003768, whose beginning is taken for a national prefix.", "quantifier": "every PhoneNumber with supported country code and NSN of 2..17 digits meeting the stated stripping condition; every valid number outside the two exceptions", "why_tests_cant": "Round trip over an unbounded set of numbers and over all regions.", "anchors": ["phonenumberutil.go: Format, Parse, extractCountryCode, maybeStripNationalPrefixAndCarrierCode"]}
{"id": "C11", "title": "Re-using a PhoneNumber with ParseToNumber leaves no stale data", "statement": "After a successful ParseToNumber(s,r,n), the message n equals the message a fresh Parse(s,r) would produce, whatever n held before.", "quantifier": "every prior content of the message, every input string and region", "why_tests_cant": "The claim ranges over histories of the reused message.", "anchors": ["phonenumberutil.go: ParseToNumber, ParseAndKeepRawInputToNumber, parseHelper, setItalianLeadingZerosForPhoneNumber"]}
{"id": "C12", "title": "Extensions recognised by parsing are 1 to 20 decimal digits", "statement": "If Parse succeeds and the number has an extension then the extension is a non-empty run of at most 20 Unicode decimal digits occurring in the input, and it is not part of the national number text that was analysed.", "quantifier": "every input string and region", "why_tests_cant": "All extension syntaxes and all Unicode digits.", "anchors": ["phonenumberutil.go: maybeStripExtension, extnPatternsForParsing"]}
{"id": "C13", "title": "Country code extraction is unambiguous", "statement": "From a digit string the library extracts a country calling code only if a prefix of 1 to 3 digits, not starting with 0, is a supported calling code; the remainder is exactly the rest of the string; and since no supported code is a prefix of another, the code found is the only possible one.", "quantifier": "every digit string; the whole shipped calling-code table", "why_tests_cant": "Combines an unbounded domain with a whole-table fact about the shipped metadata.", "anchors": ["phonenumberutil.go: extractCountryCode", "metadata/data/countrycode_to_region.xml.gz"]}
{"id": "C14", "title": "RFC 3966 phone-context handling", "statement": "A tel URI with an invalid phone-context is rejected as not-a-number; with a phone-context starting with '+' the context digits are prepended to the number; with a domain context they are ignored; \";isub=\" and what follows is dropped.", "quantifier": "every input string containing ;phone-context=", "why_tests_cant": "All context strings, including malformed ones.", "anchors": ["phonenumberutil.go: buildNationalNumberForParsing, extractPhoneContext, isPhoneContextValid"]}
{"id": "C15", "title": "E164 format shape", "statement": "Format(n,E164) is '+', the decimal country code and the national significant number with no other character, for every number that is not (national number 0 with raw input); the extension never appears.", "quantifier": "every PhoneNumber message", "why_tests_cant": "All messages, including invalid ones.", "anchors": ["phonenumberutil.go: Format, formatWithBuf"]}
{"id": "C16", "title": "INTERNATIONAL formatting only adds separators", "statement": "For every number whose country code is supported, the ASCII digits of Format(n,INTERNATIONAL) are exactly the country code digits, then the national significant number digits, then the extension digits: formatting never loses, adds or reorders a digit.", "quantifier": "every PhoneNumber, whole shipped metadata", "why_tests_cant": "All numbers of all 254 metadata entries; a bad format rule for one leading-digit range is invisible to sampling.", "anchors": ["phonenumberutil.go: Format, formatNsn, chooseFormattingPatternForNumber, formatNsnUsingPattern", "metadata/data/metadata.xml.gz"]}
{"id": "C17", "title": "RFC3966 format shape", "statement": "Format(n,RFC3966) is \"tel:+<cc>-\" followed by a body in which no separator other than '-' from the punctuation set appears, and then \";ext=\" and the extension when there is one.", "quantifier": "every PhoneNumber with supported country code", "why_tests_cant": "All numbers and formats.", "anchors": ["phonenumberutil.go: Format, formatNsnUsingPatternWithCarrier, prefixNumberWithCountryCallingCode"]}
{"id": "C18", "title": "Formatting with an unsupported country code returns the NSN", "statement": "For a number with unsupported country code, every format other than E164 returns exactly the national significant number, and E164 still returns +cc+NSN.", "quantifier": "every PhoneNumber with unsupported country code", "why_tests_cant": "All 32-bit codes.", "anchors": ["phonenumberutil.go: Format, formatWithBuf"]}
{"id": "C19", "title": "FormatInOriginalFormat never changes the dialled digits", "statement": "If the number was parsed with raw input kept, FormatInOriginalFormat returns a string whose diallable characters are the same as those of the raw input.", "quantifier": "every PhoneNumber with raw input, every calling region", "why_tests_cant": "All numbers, sources and metadata rules.", "anchors": ["phonenumberutil.go: FormatInOriginalFormat"]}
{"id": "C20", "title": "FormatNumberForMobileDialing without formatting returns only diallable characters", "statement": "FormatNumberForMobileDialing(n, region, false) contains only 0-9, '+', '*' and '#'.", "quantifier": "every PhoneNumber and region", "why_tests_cant": "All numbers, regions and special cases.", "anchors": ["phonenumberutil.go: FormatNumberForMobileDialing"]}
{"id": "C21", "title": "Out-of-country formatting shape", "statement": "FormatOutOfCountryCallingNumber falls back to INTERNATIONAL when the calling region is unsupported, and otherwise starts with the calling region's dialling prefix (preferred prefix first, else the unique prefix), the country code and the number; within NANPA it is '1 ' plus the national format.", "quantifier": "every PhoneNumber and every calling region", "why_tests_cant": "All pairs.", "anchors": ["phonenumberutil.go: FormatOutOfCountryCallingNumber"]}
{"id": "C22", "title": "Carrier-code precedence when formatting", "statement": "FormatNationalNumberWithPreferredCarrierCode uses the number's own preferred carrier code if it is non-empty and the fallback otherwise, and equals FormatNationalNumberWithCarrierCode with that code.", "quantifier": "every PhoneNumber and fallback carrier", "why_tests_cant": "All messages.", "anchors": ["phonenumberutil.go: FormatNationalNumberWithPreferredCarrierCode, FormatNationalNumberWithCarrierCode"]}
{"id": "C23", "title": "Area code and NDC lengths fit in the number", "statement": "GetLengthOfGeographicalAreaCode and GetLengthOfNationalDestinationCode are never greater than the length of the national significant number, so slicing the NSN with them cannot panic.", "quantifier": "every PhoneNumber", "why_tests_cant": "The documented usage slices a string with this length; one bad number panics the caller.", "anchors": ["phonenumberutil.go: GetLengthOfGeographicalAreaCode, GetLengthOfNationalDestinationCode"]}
{"id": "C24", "title": "Length classification is exact", "statement": "IsPossibleNumberForTypeWithReason classifies by NSN length alone: local-only if the length is a local-only length, too short/long iff below the minimum/above the maximum of the type's lengths, possible iff in the list, invalid length otherwise; FIXED_LINE_OR_MOBILE uses the union of both lists.", "quantifier": "every PhoneNumber, type and metadata", "why_tests_cant": "All lengths and metadata tables.", "anchors": ["phonenumberutil.go: testNumberLength, mergeLengths, IsPossibleNumberForTypeWithReason"]}
{"id": "C25", "title": "A valid number is a possible number", "statement": "IsValidNumber(n) implies IsPossibleNumber(n).", "quantifier": "every PhoneNumber, whole shipped metadata", "why_tests_cant": "Requires every pattern/length pair in the metadata to agree with the region-level lists.", "anchors": ["phonenumberutil.go: IsValidNumber, IsPossibleNumber", "metadata/data/metadata.xml.gz"]}
{"id": "C26", "title": "A number is valid exactly when it has a type", "statement": "IsValidNumber(n) is true iff GetNumberType(n) is not UNKNOWN.", "quantifier": "every PhoneNumber, every well-formed metadata", "why_tests_cant": "All numbers.", "anchors": ["phonenumberutil.go: IsValidNumber, GetNumberType, GetRegionCodeForNumber"]}
{"id": "C27", "title": "Validity for a region implies the region's country code", "statement": "IsValidNumberForRegion(n,r) implies that the country code of n is the one of region r, and (for shipped metadata) r is listed among the regions of that code.", "quantifier": "every PhoneNumber and region string", "why_tests_cant": "All pairs.", "anchors": ["phonenumberutil.go: IsValidNumberForRegion"]}
{"id": "C28", "title": "Region and calling-code lookups are consistent", "statement": "For every supported region r, r occurs in GetRegionCodesForCountryCode(GetCountryCodeForRegion(r)); GetRegionCodeForNumber returns \"\" or one of the regions of the number's country code; the main region of a code has that code.", "quantifier": "every region and PhoneNumber, whole shipped metadata", "why_tests_cant": "Whole-table plus all numbers.", "anchors": ["phonenumberutil.go: GetCountryCodeForRegion, GetRegionCodesForCountryCode, GetRegionCodeForNumber", "metadata/source.go"]}
{"id": "C29", "title": "TruncateTooLongNumber returns a valid prefix or changes nothing", "statement": "If TruncateTooLongNumber(n) is true the resulting number is valid and its national number is obtained from the original by dropping trailing digits (the longest such valid prefix); if it is false n is unchanged.", "quantifier": "every PhoneNumber", "why_tests_cant": "All numbers; termination and maximality need induction.", "anchors": ["phonenumberutil.go: TruncateTooLongNumber"]}
{"id": "C30", "title": "Number type is decided by a fixed priority", "statement": "GetNumberType returns the first of premium rate, toll free, shared cost, VoIP, personal, pager, UAN, voicemail whose description matches; only then fixed line / mobile / both; and UNKNOWN if the general description does not match.", "quantifier": "every PhoneNumber and metadata", "why_tests_cant": "Overlapping patterns for all digit strings.", "anchors": ["phonenumberutil.go: getNumberTypeHelper, GetNumberType"]}
{"id": "C31", "title": "Example numbers are valid and of the requested type", "statement": "For every supported region and type for which GetExampleNumberForType returns a number, that number is valid and its type is the requested one (or FIXED_LINE_OR_MOBILE).", "quantifier": "every region and type of the shipped metadata", "why_tests_cant": "A whole-table statement about the shipped data including the regex semantics.", "anchors": ["phonenumberutil.go: GetExampleNumber, GetExampleNumberForType", "metadata/data/metadata.xml.gz"]}
{"id": "C32", "title": "IsNumberMatch is symmetric", "statement": "IsNumberMatch(a,b)=IsNumberMatch(b,a) for all strings, IsNumberMatchWithNumbers is symmetric and gives EXACT_MATCH on (n,n) when the country code is non-zero (NSN_MATCH when it is zero).", "quantifier": "all pairs of strings and all pairs of numbers", "why_tests_cant": "A two-run relation over all pairs, including all error combinations.", "anchors": ["phonenumberutil.go: IsNumberMatch, IsNumberMatchWithNumbers, IsNumberMatchWithOneNumber"]}
{"id": "C33", "title": "EXACT_MATCH means equal identity", "statement": "IsNumberMatchWithNumbers(a,b) is EXACT_MATCH iff country codes are equal and non-zero, and national number, extension and leading-zero representation agree; EXACT_MATCH is transitive; different non-empty extensions never match; raw input, source and carrier are ignored.", "quantifier": "all pairs and triples of numbers", "why_tests_cant": "All message pairs, including presence of optional fields.", "anchors": ["phonenumberutil.go: IsNumberMatchWithNumbers, copyCoreFieldsOnly"]}
{"id": "C34", "title": "Emergency number checks are consistent", "statement": "IsEmergencyNumber(s,r) implies ConnectsToEmergencyNumber(s,r); neither is ever true if the extracted number contains a plus sign; in BR, CL and NI both coincide.", "quantifier": "every string and region", "why_tests_cant": "All strings.", "anchors": ["shortnumberinfo.go: IsEmergencyNumber, ConnectsToEmergencyNumber, matchesEmergencyNumber"]}
{"id": "C35", "title": "Expected cost takes the most expensive alternative", "statement": "GetExpectedCost over several regions returns PREMIUM_RATE if any region says so, else UNKNOWN if any says so, else STANDARD if any says so, else TOLL_FREE; with one region it equals GetExpectedCostForRegion; with none UNKNOWN.", "quantifier": "every number and region list", "why_tests_cant": "All numbers and all lists of regions.", "anchors": ["shortnumberinfo.go: GetExpectedCost, GetExpectedCostForRegion"]}
{"id": "C36", "title": "A valid short number is a possible short number", "statement": "IsValidShortNumberForRegion(n,r) implies IsPossibleShortNumberForRegion(n,r), and IsValidShortNumber(n) implies IsPossibleShortNumber(n).", "quantifier": "every PhoneNumber and region, whole shipped short-number metadata", "why_tests_cant": "Needs all metadata tables.", "anchors": ["shortnumberinfo.go: IsValidShortNumber, IsPossibleShortNumber"]}
{"id": "C37", "title": "Clear makes an as-you-type formatter as good as new", "statement": "After Clear, a formatter gives for every further sequence of inputs the same outputs and remembered positions as a fresh formatter for the same region, whatever it was fed before.", "quantifier": "every input history, every region, every later input sequence", "why_tests_cant": "Quantifies over histories.", "anchors": ["asyoutypeformatter.go: Clear, GetAsYouTypeFormatter"]}
{"id": "C38", "title": "As-you-type output never loses or adds a digit", "statement": "After any sequence of InputDigit calls with digits and at most a leading plus, the diallable characters of the output are exactly those typed, and InputDigit never panics.", "quantifier": "every input sequence and region", "why_tests_cant": "All sequences; depends on internal state such as previously extracted prefixes.", "anchors": ["asyoutypeformatter.go: InputDigit, ableToExtractLongerNdd"]}
{"id": "C39", "title": "Typing a formatting character freezes formatting", "statement": "Once a character that is not a digit (or leading plus) was entered, every further output is exactly the concatenation of everything typed since the last Clear.", "quantifier": "every input sequence and region", "why_tests_cant": "All histories.", "anchors": ["asyoutypeformatter.go: InputDigit"]}
{"id": "C40", "title": "The remembered position lies inside the output", "statement": "GetRememberedPosition is between 0 and the number of characters of the current output and never panics.", "quantifier": "every input sequence", "why_tests_cant": "All histories mixing both input methods.", "anchors": ["asyoutypeformatter.go: GetRememberedPosition, InputDigitAndRememberPosition"]}
{"id": "C41", "title": "FindNumbers offsets are exact, ordered and disjoint", "statement": "Every match m found in text satisfies text[m.Start():m.End()]==m.RawString(), offsets are in range, and matches are strictly ordered and do not overlap.", "quantifier": "every text, region, leniency and maxTries", "why_tests_cant": "All texts.", "anchors": ["phonenumbermatcher.go: find, extractMatch, extractInnerMatch, parseAndVerify", "phonenumbermatch.go"]}
{"id": "C42", "title": "FindNumbers respects the leniency", "statement": "Every match at leniency POSSIBLE is a possible number and every match at VALID or stricter is a valid number.", "quantifier": "every text, region, leniency", "why_tests_cant": "All texts.", "anchors": ["phonenumbermatcher.go: parseAndVerify", "enums.go: Leniency.Verify"]}
{"id": "C43", "title": "FindNumbers terminates and examines a bounded number of candidates", "statement": "Iteration always terminates; with maxTries k at most k candidates (stretches of text picked out by the search pattern) are passed over, at most k+2 pieces of text plus one per match are parsed in vain, and maxTries 0 yields no match.", "quantifier": "every text and maxTries", "why_tests_cant": "Termination for all texts.", "anchors": ["phonenumbermatcher.go: find, hasNext, next"]}
{"id": "C44", "title": "Serialised prefix maps load back unchanged", "statement": "Loading the binary written by the metadata builder for a prefix map gives back the same map, for values without newline, at most 65536 distinct values, at most 255 values per key.", "quantifier": "every finite map within the stated format limits", "why_tests_cant": "Unbounded maps; delta and varint coding.", "anchors": ["internal/serialize/serialize.go: LoadPrefixMap, LoadIntArrayMap", "cmd/buildmetadata/main.go: renderMap, buildPrefixMetadata"]}
{"id": "C45", "title": "Carrier and geocoding lookup is longest-prefix", "statement": "The prefix lookup returns the value of the longest prefix of the number (up to the fixed maximum) present in the map, and empty/0 if none is present.", "quantifier": "every E164 string and every map", "why_tests_cant": "All maps and numbers.", "anchors": ["internal/prefixmapper/prefixmapper.go: ValueForNumber"]}
{"id": "C46", "title": "Time zone lookup is longest-prefix and never empty", "statement": "GetTimeZonesForNumber returns the zones of the longest matching prefix, or exactly [\"Etc/Unknown\"] when the type is unknown or no prefix matches; it is never an empty list for the shipped map.", "quantifier": "every PhoneNumber, every map", "why_tests_cant": "All numbers.", "anchors": ["timezone/timezone.go: GetTimeZonesForNumber, lookupTimeZones"]}
{"id": "C47", "title": "Truncated data is rejected, not misread", "statement": "Loading any strict prefix of a serialised map fails with an error instead of returning a partial map or panicking.", "quantifier": "every serialised map and every truncation point", "why_tests_cant": "Every crash point of the file.", "anchors": ["internal/serialize/serialize.go: LoadPrefixMap, LoadIntArrayMap"]}
{"id": "C48", "title": "The regex cache is transparent under concurrency", "statement": "For every interleaving of any number of goroutines calling the regex cache, each call returns the regex compiled from the pattern it asked for; an invalid pattern panics and is never cached.", "quantifier": "every schedule of every number of goroutines", "why_tests_cant": "All interleavings.", "anchors": ["internal/regexcache/regexcache.go: For, read, write"]}
{"id": "C49", "title": "Lazy prefix loading is consistent under concurrency", "statement": "For every interleaving of lookups, all successful lookups of a language see the same table as a direct load of the file; a failed load is not cached, a missing file is cached as no data.", "quantifier": "every schedule of calls and every pattern of load failures", "why_tests_cant": "All schedules.", "anchors": ["internal/prefixmapper/prefixmapper.go: lazyLoadPrefixes"]}
{"id": "C50", "title": "Swapping metadata and restoring is exact when nested", "statement": "Restoring containers in reverse order of Use brings back the original container, and while swapped every lookup sees the swapped container only.", "quantifier": "every properly nested sequence of Use/restore", "why_tests_cant": "All histories.", "anchors": ["metadata/source.go: Use"]}
{"id": "C51", "title": "Built length tables are sorted, duplicate-free and consistent", "statement": "For every input territory the builder either panics or produces possible-length lists that are strictly increasing, with local-only lengths disjoint from full lengths, and children lengths contained in the general list; the result does not depend on map iteration order.", "quantifier": "every territory description and every map iteration order", "why_tests_cant": "All inputs and all iteration orders.", "anchors": ["internal/metadatabuilder/metadatabuilder.go: setPossibleLengths, populatePossibleLengthSets, parsePossibleLengthStringToSet"]}
{"id": "C52", "title": "The main region comes first", "statement": "In the country-code-to-region map built from a collection, every region appears under its own code, exactly as often as in the input, and if exactly one region of a code is marked main it is first.", "quantifier": "every metadata collection", "why_tests_cant": "All collections and orders.", "anchors": ["internal/metadatabuilder/metadatabuilder.go: BuildCountryCodeToRegionMap"]}
{"id": "C53", "title": "Lookup tables built by NewContainer agree with their inputs", "statement": "NewContainer fails exactly on an empty collection; otherwise supported regions are the regions of the map except \"001\", supported codes are its keys, every region's metadata is the last entry with that id, NANPA regions are those of code 1.", "quantifier": "every metadata collection and region map, every map iteration order", "why_tests_cant": "All inputs.", "anchors": ["metadata/source.go: NewContainer"]}
{"id": "C54", "title": "Invalid example numbers exist and are invalid", "statement": "GetInvalidExampleNumber returns for every supported region a number that IsValidNumber rejects, and nil for every other region string.", "quantifier": "every region string, whole shipped metadata", "why_tests_cant": "A whole-table statement over all regions; the number is found by a search whose success is data dependent.", "anchors": ["phonenumberutil.go: GetInvalidExampleNumber"]}
{"id": "C55", "title": "Example numbers of non-geographical codes are valid", "statement": "GetExampleNumberForNonGeoEntity returns a valid number of that country code for every country calling code whose region is 001, and nil for every other code.", "quantifier": "every integer country code, whole shipped metadata", "why_tests_cant": "A whole-table statement.", "anchors": ["phonenumberutil.go: GetExampleNumberForNonGeoEntity"]}
{"id": "C56", "title": "Carrier names only for mobile numbers, safe names only without portability", "statement": "GetNameForNumber returns a carrier name only for numbers whose type is mobile, fixed-line-or-mobile or pager; GetSafeDisplayName additionally returns no name for regions with mobile number portability; a returned name is the value of the longest known prefix; neither call panics, and neither fails unless the number is a national number 0 with raw input.", "quantifier": "every PhoneNumber, every carrier map, whole shipped metadata", "why_tests_cant": "All numbers; the shipped table has thousands of prefixes.", "anchors": ["carrier/carrier.go: GetNameForNumber, GetSafeDisplayName"]}
{"id": "C57", "title": "Geocoding falls back to the one country where the number is valid", "statement": "GetDescriptionForNumber is empty for unknown types; otherwise it is the non-empty description of the longest known prefix for geographical numbers, and else the name of the only region of the country code, or of the only one of several regions where the number is valid, or empty if there is not exactly one.", "quantifier": "every PhoneNumber, every description map and every naming of regions", "why_tests_cant": "All numbers and tables.", "anchors": ["geocoding/geocoding.go: GetDescriptionForNumber, countryNameForNumber"]}
{"id": "C58", "title": "Tables loaded on first use are seen complete", "statement": "For every interleaving of goroutines, a time zone lookup or an alternate-format lookup never sees a missing or half-filled table: it gives what it would give on the completely loaded table, and the table is loaded at most once.", "quantifier": "every schedule of every number of goroutines", "why_tests_cant": "All interleavings.", "anchors": ["timezone/timezone.go: lookupTimeZones", "alternateformats.go: loadAlternateFormatsMetadata, getAlternateFormatsForCountryCallingCode"]}
{"id": "C59", "title": "What the builder leaves out is not lost", "statement": "For every territory, the formats the library uses for international formatting of metadata built from it are, in order, the explicit international format, the national format, or nothing (\"NA\"), as each format element asks, although the builder drops the international formats when none is explicit - except that the library formats internationally with the national formats if every element is marked \"NA\".", "quantifier": "every territory element", "why_tests_cant": "All combinations of format elements.", "anchors": ["internal/metadatabuilder/metadatabuilder.go: loadInternationalFormat, loadAvailableFormats", "phonenumberutil.go: formatNsnWithCarrier"]}
{"id": "C60", "title": "Metadata made by the builder is what the library expects", "statement": "Every territory the builder accepts has all its descriptions and, if any length is listed, general lengths in order; the tables that NewContainer makes from a built collection and the builder's own region map agree with each other; and parsing with them never panics.", "quantifier": "every list of territory elements, every map iteration order, every input string and region", "why_tests_cant": "All metadata, including future metadata, and all inputs.", "anchors": ["internal/metadatabuilder/metadatabuilder.go: BuildPhoneMetadataCollection, BuildCountryCodeToRegionMap", "metadata/source.go: NewContainer", "phonenumberutil.go: Parse"]}
{"id": "C61", "title": "FindNumbers never panics", "statement": "Searching any text for any region, at any leniency and with any limit of tries, runs to its end without a panic on the shipped metadata.", "quantifier": "every text, region code, leniency level and limit, every alternate-format table; whole shipped metadata", "why_tests_cant": "The search cuts texts at computed positions and indexes groups; all texts must be covered.", "anchors": ["phonenumberutil.go: FindNumbers, FindNumbersWithLeniency", "phonenumbermatcher.go: find, extractMatch, extractInnerMatch, parseAndVerify, checkNumberGroupingIsValid"]}
{"id": "C62", "title": "Stricter leniency accepts less", "statement": "Whatever STRICT_GROUPING or EXACT_GROUPING accepts VALID accepts, and whatever VALID accepts POSSIBLE accepts; the two grouping levels are not comparable: each accepts something the other refuses.", "quantifier": "every PhoneNumber, every candidate text, whole shipped metadata", "why_tests_cant": "All numbers and candidates; validity and possibility are decided by different tables.", "anchors": ["enums.go: Leniency.Verify", "phonenumbermatcher.go: allNumberGroupsRemainGrouped, allNumberGroupsAreExactlyPresent"]}
{"id": "C63", "title": "A match does not cut through a word or a bracket", "statement": "At leniency VALID or stricter the character after a match is not a Latin letter, currency sign or percent sign, nor is the one before it unless the match begins with an opening bracket or plus sign; at every leniency the brackets in a match are in order and the match is not a page reference.", "quantifier": "every text, region, leniency and limit", "why_tests_cant": "All texts and all neighbouring characters.", "anchors": ["phonenumbermatcher.go: parseAndVerify, isLatinLetter, isInvalidPunctuationSymbol"]}
{"id": "C64", "title": "A number written in a text is found", "statement": "In a text that has no other digits, a number written as digit blocks with spaces, hyphens or dots between them, perhaps after a plus sign, is found at its place as the only match, if parsing and the leniency level accept it; in particular the E164 form of every valid number is found at every leniency level, for every region, and the number found is the same number.", "quantifier": "every text around the number, every valid number (except those excepted in C10 and national number 0), every region, leniency and positive limit", "why_tests_cant": "All texts and all numbers; the search tries many candidates and cuts.", "anchors": ["phonenumbermatcher.go: find, extractMatch, parseAndVerify", "enums.go: Leniency.Verify"]}
{"id": "C65", "title": "INTERNATIONAL and RFC3966 output is parsed back to the same number", "statement": "For every valid number not excepted in C10, parsing Format(n, INTERNATIONAL) or Format(n, RFC3966) with any default region succeeds and gives the same country code, the same national significant number and the same extension, provided the extension is absent or has at most 9 ASCII digits (20 for RFC3966). A longer extension need not come back.", "quantifier": "all valid numbers, all extensions within the bound, all default regions, all 254 metadata entries", "why_tests_cant": "the set of numbers, extensions and default regions is far too large to enumerate; the claim rests on how every format template interacts with the extension pattern and the country code tables", "anchors": ["phonenumberutil.go:Format", "phonenumberutil.go:maybeAppendFormattedExtension", "phonenumberutil.go:parseHelper", "phonenumberutil.go:maybeStripExtension", "phonenumberutil.go:buildNationalNumberForParsing"]}
{"id": "C66", "title": "NATIONAL output is parsed back to the same number in its region", "statement": "For every number valid for a geographical region r, parsing Format(n, NATIONAL) with default region r succeeds and gives the same country code, the same national significant number and the same extension (absent or at most 9 ASCII digits). Excepted are the regions AR and GA and national significant numbers beginning 00 in BG, PA, QA, TH and 003768 in JP; for each exception there is a valid number whose NATIONAL form is read as another number.", "quantifier": "all numbers valid for any of the 245 geographical regions, all extensions within the bound", "why_tests_cant": "the numbers cannot be enumerated; the claim rests on how each format template, national prefix rule, international prefix and national-prefix parsing pattern of a region interact", "anchors": ["phonenumberutil.go:Format", "phonenumberutil.go:formatNsn", "phonenumberutil.go:maybeStripNationalPrefixAndCarrierCode", "phonenumberutil.go:maybeStripInternationalPrefixAndNormalize", "phonenumberutil.go:parseHelper", "metadata/data"]}
{"id": "C67", "title": "The listed types of a region are the types its numbers have", "statement": "The type of every valid number is among GetSupportedTypesForRegion of the number's region (GetSupportedTypesForNonGeoEntity for a non-geographical code), where FIXED_LINE_OR_MOBILE stands for both of its parts; conversely, for every listed type there is a valid number of that type (or FIXED_LINE_OR_MOBILE). UNKNOWN and FIXED_LINE_OR_MOBILE are never listed.", "quantifier": "every PhoneNumber, every region string and country code, whole shipped metadata", "why_tests_cant": "the numbers of a region cannot be enumerated; the list comes from other fields of the metadata than the classification", "anchors": ["phonenumberutil.go: GetSupportedTypesForRegion, GetSupportedTypesForNonGeoEntity, GetNumberType, GetExampleNumberForType"]}
{"id": "C68", "title": "A valid number is possible for its own type", "statement": "If GetNumberType(n)=t is not UNKNOWN then IsPossibleNumberForType(n,t), except for VoIP, pager, UAN and voicemail numbers of code 1 and VoIP numbers of code 7; for each of the five exceptions there is a valid number that is reported as not possible for its own type.", "quantifier": "every PhoneNumber, whole shipped metadata", "why_tests_cant": "type and possible lengths are decided by different tables (those of the number's region and those of the code's main region)", "anchors": ["phonenumberutil.go: IsPossibleNumberForType, IsPossibleNumberForTypeWithReason, testNumberLength, GetNumberType"]}
{"id": "C69", "title": "The written forms of a number match each other", "statement": "For every valid number not excepted in C10, IsNumberMatch says EXACT_MATCH for any two of its INTERNATIONAL, RFC3966 and (if it has no extension) E164 forms, IsNumberMatchWithOneNumber says the same for a parsed number and one of its forms, and IsNumberMatch says NSN_MATCH for one of these forms and the NATIONAL form if the number belongs to the main region of its country code and is not excepted in C66.", "quantifier": "all valid numbers outside the exceptions, all extensions up to 9 digits", "why_tests_cant": "combines formatting, parsing and comparing for all numbers", "anchors": ["phonenumberutil.go: IsNumberMatch, IsNumberMatchWithOneNumber, IsNumberMatchWithNumbers, Format, Parse"]}
{"id": "C70", "title": "Letters in a number stand for the digits of their keys", "statement": "For a number written as digits and separators with at least three digits, followed by letters, digits and separators and ending in a letter, perhaps after a plus sign: with three letters or more, Parse gives the same number or the same error as Parse of ConvertAlphaCharactersInNumber of the text; with fewer letters it gives the same as Parse of the digits alone. IsAlphaNumber accepts such a text exactly if it has three letters or more, and accepts nothing with fewer than three ASCII letters. (If the text ends in a digit the letters before it may be read as the label of an extension.)", "quantifier": "every such text, every default region, all metadata", "why_tests_cant": "all texts; parsing takes many steps on the raw text before letters are converted", "anchors": ["phonenumberutil.go: Parse, normalize, ConvertAlphaCharactersInNumber, IsAlphaNumber, maybeStripExtension"]}
{"id": "C71", "title": "Numbers are laid out by the first rule that can be used", "statement": "For every number with a supported country code, Format in NATIONAL, INTERNATIONAL and RFC3966 returns the lead of the format, the national significant number laid out, and the extension with the label of the format or region. The layout is that of the first formatting rule of the code's main region (of its international rules, if there are any, for the last two formats) whose digit groups can hold the number and whose last leading-digits pattern matches its beginning: the digits are cut into the groups, each as long as possible, and put into the rule's template, for NATIONAL with the national prefix rule (with a carrier code and a carrier rule: the carrier rule) in the place of the first group, for RFC3966 with hyphens for punctuation. If no rule can be used the digits are not grouped.", "quantifier": "every PhoneNumber with a supported country code, every format but E164, every carrier code without dollar sign, all metadata with well-formed rules (the shipped one is)", "why_tests_cant": "rules are chosen by regular expressions over all numbers; a wrong choice or a wrong cut shows only on particular numbers of particular regions", "anchors": ["phonenumberutil.go: Format, FormatNationalNumberWithCarrierCode, chooseFormattingPatternForNumber, formatNsnUsingPatternWithCarrier, maybeAppendFormattedExtension"]}
{"id": "C72", "title": "User-defined formatting rules are used like those of the metadata", "statement": "FormatByPattern lays out the number by the first user-defined rule that can be used, as Format does with the rules of the metadata, where $NP in a rule stands for the national prefix of the region and $FG for the first group; in a region without national prefix the national prefix rule is ignored. Without a usable rule the digits are not grouped.", "quantifier": "every PhoneNumber with a supported country code, every format, every list of well-formed user-defined rules", "why_tests_cant": "all rule lists and numbers", "anchors": ["phonenumberutil.go: FormatByPattern"]}
{"id": "C73", "title": "Short-number services are recognised, possible and priced consistently", "statement": "IsCarrierSpecificForRegion and IsSmsServiceForRegion answer true exactly when the region has the number's country code and the corresponding description of the region covers the number; such a number is a possible short number there. IsCarrierSpecific answers for the home region (the only region of the code, else the first of which the number is a short code). What IsEmergencyNumber accepts is a valid short number of the region and free of charge; the cost categories of a region exclude each other, so the expected cost does not depend on the order in which they are tried.", "quantifier": "all numbers, dialled strings and regions (shipped short-number metadata)", "why_tests_cant": "a set of digit strings per region and category, too many to enumerate; consistency between tables is a language inclusion", "anchors": ["shortnumberinfo.go: IsCarrierSpecific, IsCarrierSpecificForRegion, IsSmsServiceForRegion, IsEmergencyNumber, GetExpectedCostForRegion"]}
{"id": "C74", "title": "The region of a number is the first that claims it, and validity anywhere is validity", "statement": "GetRegionCodeForNumber answers the only region of the number's country code or, if the code is shared, the first of its regions that claims the number: its leading digits begin the number or, for a region without leading digits, the number is valid there; if none does (or the code has no region) the answer is empty. For the shipped metadata IsValidNumber is true exactly if IsValidNumberForRegion is true for some region: no number is lost because an earlier region claims it.", "quantifier": "every PhoneNumber (the first part for all well-formed metadata)", "why_tests_cant": "a leading-digits pattern claims numbers that its region may not have valid; that this never hides a valid number is an inclusion between the regular expressions of up to 25 regions", "anchors": ["phonenumberutil.go: GetRegionCodeForNumber, getRegionCodeForNumberFromRegionList, IsValidNumber, IsValidNumberForRegion"]}
{"id": "C75", "title": "Area codes, geographical numbers and numbers unreachable from abroad follow type, region and layout", "statement": "The first GetLengthOfNationalDestinationCode digits of a number are the first digit group of its INTERNATIONAL form after the country code if more groups follow (for Argentinian mobile numbers the first two, the first being the mobile token), and there are none otherwise. IsNumberGeographical is true exactly for fixed-line and fixed-line-or-mobile numbers, and for mobile numbers of Mexico, Argentina, Brazil, Indonesia and China. GetLengthOfGeographicalAreaCode is the length of the national destination code for geographical numbers of regions with national prefix (or with leading zero, or Mexican), except Chinese mobile numbers, and 0 otherwise. CanBeInternationallyDialled is false exactly for numbers covered by the description of such numbers in their region.", "quantifier": "every PhoneNumber (destination code: with supported country code, and not national number 0 with raw input, see C23)", "why_tests_cant": "combines region, type and layout of all numbers; the groups come from regular expressions", "anchors": ["phonenumberutil.go: GetLengthOfGeographicalAreaCode, GetLengthOfNationalDestinationCode, IsNumberGeographical, CanBeInternationallyDialled"]}
{"id": "C76", "title": "A number written for a call from another country is read there as the same number", "statement": "What FormatOutOfCountryCallingNumber writes for a valid number and a calling region is parsed by Parse, with the calling region as default, as the same number with its extension (up to 9 digits): with the international prefix of the calling region (also one with a wait for a tone, 8~10) or in INTERNATIONAL form for a call to another country, with 1 between the regions of the North American plan, and in NATIONAL form for a call within the country to a number valid for the region. Exceptions: calling region Hong Kong (the preferred prefix 00 is read together with a following digit), the numbers with ambiguous beginnings of C10 and C66, Argentina and Gabon at home (C66), and the seven-digit numbers of the North American plan.", "quantifier": "every valid PhoneNumber and every calling region (shipped metadata)", "why_tests_cant": "all numbers times all calling regions; whether a longer or shorter international prefix is seen depends on regular expressions and on the digits of the country code", "anchors": ["phonenumberutil.go: FormatOutOfCountryCallingNumber, Parse, parsePrefixAsIdd, maybeStripInternationalPrefixAndNormalize"]}
{"id": "C77", "title": "What a mobile phone is told to dial is the number", "statement": "What FormatNumberForMobileDialing returns for a valid number, with or without formatting, is parsed by Parse as the number without its extension. From a region that is not the main region of the country code this holds with any default region if the number can be dialled from abroad; otherwise (not valid, or not diallable from abroad) the result is the empty string. From the main region the text is read there as the number if the number is valid for that region. A Brazilian fixed-line or mobile number without a preferred carrier gives the empty string within Brazil. Exceptions: the numbers with ambiguous beginnings of C10 and C66, and Argentina and Gabon at home (C66).", "quantifier": "every valid PhoneNumber, every calling region, both values of withFormatting (shipped metadata)", "why_tests_cant": "all numbers times all regions; the result is dialled as it stands, so a wrong choice between the national and the international form calls somebody else", "anchors": ["phonenumberutil.go: FormatNumberForMobileDialing, NormalizeDiallableCharsOnly, CanBeInternationallyDialled, Parse"]}
{"id": "C78", "title": "What IsNumberMatch says about two texts", "statement": "IsNumberMatch(s, t) never panics. EXACT_MATCH is answered exactly if both texts parse without a default region and give the same E164 form and the same extension. If one text lacks a country code it is read in the main region of the other one's country code, and NSN_MATCH is answered exactly if it is then the same number; if both lack one they are read without a region and NSN_MATCH means the same national significant number and extension. SHORT_NSN_MATCH is answered exactly if they are not the same, have no two different extensions, have the same country code (as read), and the digits of one national number end with those of the other. NOT_A_NUMBER is answered exactly if the two cannot both be read in this way. IsNumberMatchWithOneNumber: EXACT_MATCH exactly if the text parses without a region as the same number, NSN_MATCH (for a supported country code) exactly if it lacks a country code and is the same number when read in the main region.", "quantifier": "all pairs of strings; all PhoneNumbers with all strings (shipped metadata)", "why_tests_cant": "pairs of arbitrary texts; the answer depends on up to four different parses, and a wrong order of the cases shows only for particular combinations of missing country codes", "anchors": ["phonenumberutil.go: IsNumberMatch, IsNumberMatchWithOneNumber, IsNumberMatchWithNumbers, copyCoreFieldsOnly, isNationalNumberSuffixOfTheOther"]}
{"id": "C79", "title": "FormatInOriginalFormat shows a number the way it was typed", "statement": "For a number obtained by ParseAndKeepRawInput, FormatInOriginalFormat compares a candidate with what was typed: the INTERNATIONAL form if it was typed with a plus sign, what FormatOutOfCountryCallingNumber writes for the given region if it was typed with an international prefix, the INTERNATIONAL form without its plus sign if it was typed with the bare country code, and otherwise the NATIONAL form, or, if the NATIONAL form has a national prefix that was not typed, the digits laid out by the same rule without the national prefix. The candidate is returned if there is a formatting rule for the number and the candidate has the diallable characters that were typed; in all other cases the text is returned as typed. Consequently what the library has written itself is shown unchanged: the INTERNATIONAL form of a valid number (parsed with any default region, shown for any region), the NATIONAL form of a number valid for the region it is parsed in, and what is written for a call from another country, parsed and shown there.", "quantifier": "all strings that parse, all regions; all valid PhoneNumbers (shipped metadata)", "why_tests_cant": "the comparison is with arbitrary typed texts; whether the national prefix was typed depends on another parse of the remaining digits, and whether the candidate is used on the characters of both", "anchors": ["phonenumberutil.go: FormatInOriginalFormat, rawInputContainsNationalPrefix, hasFormattingPatternForNumber, ParseAndKeepRawInput"]}
{"id": "C80", "title": "A number typed in its own region, with or without the national prefix, is read as that number", "statement": "Take a number that IsValidNumberForRegion accepts for a region, and type its digits, or the national prefix of GetNddPrefixForRegion and its digits, with spaces, hyphens, dots and round brackets anywhere before and between the digits and with an optional extension. Parse with the region as default reads the number typed, with the extension typed. Excepted are the beginnings of national numbers that are listed for a country code; in the plan of the country code 1, where the national prefix is the country code, it holds for the numbers of ten digits in all regions of the plan.", "quantifier": "all PhoneNumbers valid for a region, all ways to space the digits and all extensions (shipped metadata)", "why_tests_cant": "the digits could be taken for an international prefix, for a national prefix or carrier code, or for the country code, of each of 245 regions, and this depends on all the digits of the number", "anchors": ["phonenumberutil.go: Parse, parseHelper, maybeExtractCountryCode, maybeStripNationalPrefixAndCarrierCode, GetNddPrefixForRegion, IsValidNumberForRegion"]}
{"id": "C81", "title": "IsPossibleNumberFromRegion accepts exactly the texts that are read as numbers of a listed length", "statement": "IsPossibleNumberFromRegion answers for every text and every default region. It says yes exactly when the text parses with that default region and the metadata of the country code of the number lists the length of its national number among the lengths of complete or of local numbers. In particular it says yes for what Format writes of a valid number in E164, INTERNATIONAL or RFC3966, and for valid numbers typed in their own region, with the exceptions of C10, C65 and C80.", "quantifier": "all texts, all default regions, all PhoneNumbers (shipped metadata)", "why_tests_cant": "texts are unbounded, and the answer combines the parser with the length tables of 215 country codes", "anchors": ["phonenumberutil.go: IsPossibleNumberFromRegion, IsPossibleNumber, IsPossibleNumberWithReason, Parse"]}
{"id": "C82", "title": "Numbers written for calls from another country with their letters kept show the text typed, and are read as the same number", "statement": "FormatOutOfCountryKeepingAlphaChars writes, of the text kept in the message, the ASCII digits, plus signs and stars as they are, letters in upper case and hyphens, slashes, spaces and dots in their plain form, from the first place on where the first three digits of the number stand together. Before it stands what is dialled: 1 within the plan of country code 1; for calls within another country the national prefix rule chosen for the number, put to the first digits typed together; else the only or preferred international prefix of the calling region and the country code, or + and the country code, and the extension of the message behind it. Messages without kept text are written by FormatOutOfCountryCallingNumber, those with an unknown country code as typed. For a valid number whose part so found has the digits of the number, with letters or without, what is written for calls from another country or within the plan of country code 1 is parsed in the calling region as the same number.", "quantifier": "all PhoneNumbers with any kept text, all calling regions (shipped metadata)", "why_tests_cant": "the text kept is unbounded, and the result depends on the letters, separators and digits in it, the metadata of the number and that of the calling region", "anchors": ["phonenumberutil.go: FormatOutOfCountryKeepingAlphaChars, normalizeHelper, allPlusNumberGroupingSymbols, maybeStripExtension, maybeAppendFormattedExtension"]}
{"id": "C83", "title": "There is an example of every type, whatever the order of the regions", "statement": "GetExampleNumberForType gives, for every type but UNKNOWN and in whatever order Go goes through the maps of regions and global calling codes, one of the examples of the regions for the type. It is valid and has the type asked for, or FIXED_LINE_OR_MOBILE, or is a fixed-line number when FIXED_LINE_OR_MOBILE is asked for. For UNKNOWN the answer is nil. GetExampleNumber gives, in every supported region, a valid number of the country code of the region that is a fixed-line number, or may be one.", "quantifier": "all types, all orders of the two maps, all supported regions (shipped metadata)", "why_tests_cant": "the order of Go maps changes from run to run, so one run shows one of some 245 answers", "anchors": ["phonenumberutil.go: GetExampleNumberForType, GetExampleNumberForTypeInRegion, GetExampleNumber, GetSupportedRegions, GetSupportedGlobalNetworkCallingCodes"]}
{"id": "C84", "title": "Descriptions for a user's region give the area at home and the country abroad", "statement": "GetDescriptionForNumberForUserRegion answers for every message and user region. It gives nothing for numbers of unknown type, the name of the country for numbers that are not geographical, whoever the user is, for geographical numbers of the user's own region what GetDescriptionForNumber gives, and for those of other regions the name of the region of the number, which is a region of its country code where the number is valid; if the number is valid in one region only, it is the name of that one.", "quantifier": "all PhoneNumbers, user regions, description tables and namings of regions (shipped metadata)", "why_tests_cant": "the answer combines the type, the region, the validity in every region of the country code and the description table", "anchors": ["geocoding/geocoding.go: GetDescriptionForNumberForUserRegion, GetDescriptionForValidNumberForUserRegion, GetDescriptionForNumber"]}
{"id": "C85", "title": "What each leniency level asks of a text", "statement": "A number read from a text passes VALID exactly if it is valid, every letter x in the text stands before the same number (carrier code) or before its extension, and the text has the national prefix if the number was written without country code and the layout for it adds one that is not optional. STRICT_GROUPING asks besides that there is at most one slash, not counting one right after a country code, and that no group of digits is split: for the groups of the RFC 3966 form or of an alternate format of the country code, they occur in the text one after the other, or the whole number stands in one piece. EXACT_GROUPING asks for the slashes and that the blocks of digits of the text are those groups, up to digits before the first one, or that the last block has the whole number in it. Everything a search returns is as its level asks.", "quantifier": "all PhoneNumbers, texts and alternate formats; all searches (shipped metadata; the grouping part for numbers that are not 0)", "why_tests_cant": "the levels combine several scans of the text with the choice of a layout for the number; a test sees single texts", "anchors": ["enums.go: Leniency.Verify", "phonenumbermatcher.go: containsOnlyValidXChars, containsMoreThanOneSlashInNationalNumber, isNationalPrefixPresentIfRequired, checkNumberGroupingIsValid, allNumberGroupsRemainGrouped, allNumberGroupsAreExactlyPresent, getNationalNumberGroups", "phonenumberutil.go: FindNumbersWithLeniency"]}
{"id": "C86", "title": "A number written in its groups is found at every leniency level", "statement": "A valid number written with plus sign and country code, and then its digits in blocks with gaps of one to four spaces, hyphens or dots, is found by FindNumbers at level POSSIBLE and VALID; at level STRICT_GROUPING and EXACT_GROUPING it is found if the blocks are the groups of the number, those of its RFC 3966 form or of an alternate format for its country code. In particular what Format(n, INTERNATIONAL) gives is found at every level. This holds for every region and for every text around it without digits and, before it, plus signs and opening brackets, the character right after the number not being a Latin letter, currency sign or percent sign. It is the only number found, at its place, and has the same country code and national significant number.", "quantifier": "all valid numbers without extension, with national number other than 0 and not beginning ambiguously (C10), all ways of writing them in blocks, all texts around them, all regions, all four levels, all lists of alternate formats (shipped metadata)", "why_tests_cant": "an invariant between formatter, parser and matcher over all numbers and texts", "anchors": ["phonenumberutil.go: Format", "phonenumberutil.go: FindNumbersWithLeniency", "phonenumbermatcher.go: checkNumberGroupingIsValid, allNumberGroupsRemainGrouped, allNumberGroupsAreExactlyPresent", "enums.go: Leniency.Verify"]}
{"id": "C87", "title": "The tables say what the text files say", "statement": "The carrier, geocoding and time zone answers come from text files with one prefix and value per line. Building the tables from them and loading them in the library gives a prefix a value exactly if there is a line, not a comment, that consists of this prefix and this value. For carrier and geocoding files the value is not blank, and building fails exactly if a line with two fields does not begin with a non-negative integer or two lines give the same prefix a value; a lookup then gives the value of the line with the longest prefix of the number. For the time zone file the last line for a prefix counts, its zones are separated by ampersands, and building fails exactly if a line with content does not have two fields, the first an integer.", "quantifier": "all sequences of files of bytes within the limits of the binary format (prefixes below 2^42, 65535 different values, 4 GB), all orders of visiting the map, all numbers looked up", "why_tests_cant": "all files, all orders of map iteration, all numbers", "anchors": ["cmd/buildmetadata/main.go: readMappingsForDir, buildTimezoneMetadata, buildPrefixMetadata, renderMap", "internal/serialize/serialize.go: LoadPrefixMap, LoadIntArrayMap", "internal/prefixmapper/prefixmapper.go: ValueForNumber"]}
{"id": "C88", "title": "Parsing sees the plus sign and the digits only", "statement": "Two texts that say a number with the same digits, in any scripts, with any of the usual separators between them, any words before and marks behind them, and that agree on whether a plus sign precedes the number, are parsed alike: the same number or the same error, whatever the region and the metadata. With the raw text kept, the numbers differ in the kept text only. In particular a text is read as its bare digits, and what the as-you-type formatter shows is read as what was typed.", "quantifier": "all texts of at most 250 bytes with three or more digits, all regions, all metadata; for the formatter all regions and all sequences of calls (national input in AR, BR, CO, JP and KR excepted, see C38)", "why_tests_cant": "all placements of separators, words and scripts; all typing histories", "anchors": ["phonenumberutil.go: Parse, ParseAndKeepRawInput, extractPossibleNumber, isViablePhoneNumber, normalize, maybeStripInternationalPrefixAndNormalize", "asyoutypeformatter.go: InputDigit"]}
{"id": "C89", "title": "A text with an extension is read as the number and the extension", "statement": "A text that says a number and, behind it, an extension announced by any of the labels the parser knows (;ext=, words such as ext., extension or anexo in capitals or not, x, #, ~, int, commas, a semicolon, or hyphens with a final #; with the blanks and marks allowed around them) is parsed to the same number as the text without the extension, with the digits of the extension in the number, or to the same error. So all ways to write a number and an extension are read alike.", "quantifier": "all texts of at most 250 bytes with three or more digits in the number and an extension of 1 to 20, 15, 9 or 6 digits according to the label; all regions, all metadata; with and without keeping the raw text", "why_tests_cant": "all labels, capitals, blanks, separators, words before and marks behind, and scripts of digits", "anchors": ["phonenumberutil.go: Parse, ParseAndKeepRawInput, maybeStripExtension, extnPattern, extractPossibleNumber, isViablePhoneNumber"]}
{"id": "C90", "title": "String builders hold their texts, whatever memory they share", "statement": "After any sequence of calls on any number of string builders (new, write, insert, reset, set length, delete), with indices inside the texts, each builder holds exactly the text these calls describe. This also holds when what is written is a slice of the memory of the same or of another builder, as the parser and the formatter do, and it does not depend on how the runtime grows arrays. No call changes another builder.", "quantifier": "all sequences of calls, any number of builders, all growth policies of the runtime, all slices of builders' memory as arguments", "why_tests_cant": "all histories and all aliasings of memory", "anchors": ["internal/stringbuilder/stringbuilder.go: Builder", "phonenumberutil.go: maybeStripExtension, maybeExtractCountryCode, normalize"]}
{"id": "C91", "title": "Answers do not depend on what callers did with earlier results", "statement": "Whatever a caller writes into a map or slice returned by the library (the supported regions, the calling codes, the regions of a code), later calls give the same answers as before.", "quantifier": "all sequences of writes into returned collections, followed by any call, all metadata", "why_tests_cant": "all histories of a program that uses the library", "anchors": ["phonenumberutil.go: GetSupportedRegions, GetSupportedCallingCodes, GetSupportedGlobalNetworkCallingCodes, GetRegionCodesForCountryCode, IsNANPACountry", "metadata/source.go: SupportedRegions, SupportedCallingCodes, CountryCodesForNonGeographicalRegion, CountryCodeToRegion"]}
{"id": "C92", "title": "Comparing and checking texts sees the plus sign, the digits and the extension only", "statement": "IsNumberMatch of two texts, IsNumberMatchWithOneNumber and IsPossibleNumberFromRegion give the same answer for any two texts that say the same: the same plus sign, the same digits and the same extension, whatever the separators, words around, scripts of digits and label of the extension. And two texts with different extensions never match, whatever the numbers.", "quantifier": "all texts that say a number of three digits or more, with or without an extension (C88, C89), all regions, all metadata", "why_tests_cant": "all texts, labels, scripts and separators; two texts at a time", "anchors": ["phonenumberutil.go: IsNumberMatch, IsNumberMatchWithOneNumber, IsNumberMatchWithNumbers, IsPossibleNumberFromRegion"]}
{"id": "C93", "title": "What the as-you-type formatter shows for a complete number is its INTERNATIONAL form", "statement": "When the characters typed into an as-you-type formatter since the last Clear are a plus sign and the digits of a country code and national number for which the metadata has a layout rule, the formatter shows exactly what Format gives for that number in the INTERNATIONAL format, whatever the region of the formatter and the calls before.", "quantifier": "all regions, all numbers without extension with a supported country code for which some rule can be used, all sequences of calls of the formatter, digits of all scripts", "why_tests_cant": "all numbers, all histories of calls; the formatter decides with the first digits only and must not lose the rule or take another", "anchors": ["asyoutypeformatter.go: InputDigit, inputDigitWithOptionToRememberPosition, attemptToChooseFormattingPattern, narrowDownPossibleFormats, maybeCreateNewTemplate, attemptToFormatAccruedDigits", "phonenumberutil.go: Format"]}
{"id": "C94", "title": "What an as-you-type formatter shows depends only on the characters typed", "statement": "The output of an as-you-type formatter depends only on its region and on the characters typed since the last Clear: not on the calls before the Clear, and not on which characters were typed with InputDigitAndRememberPosition. If the characters begin with a plus sign it does not depend on the region either. The remembered position depends only on the same characters and on the place of the last one typed with InputDigitAndRememberPosition.", "quantifier": "all metadata, all regions, all pairs of sequences of calls that type the same characters", "why_tests_cant": "pairs of histories; formatters keep some twenty fields of state, several of them only updated on some paths, and a stale one would show after a particular history only", "anchors": ["asyoutypeformatter.go: InputDigit, InputDigitAndRememberPosition, Clear, GetRememberedPosition, inputDigitWithOptionToRememberPosition, attemptToExtractIdd, attemptToExtractCountryCallingCode"]}
{"id": "C95", "title": "What is written as a protobuf message is read back", "statement": "Every PhoneNumber with a country code and a national number is serialised without error, and deserialising the bytes gives back the same number: every field and which fields are set. This holds for every number Parse returns. The metadata collection the builder serialises is the collection the library loads. None of this depends on the order in which the fields are written; fields unknown to the library are ignored; two files one after the other are the entries of both; a number without a required field is neither written nor read.", "quantifier": "all phone numbers, all metadata collections, all orders of the fields, all texts (also invalid UTF-8) below the size limit of 2 GB", "why_tests_cant": "messages of any size, all field orders a protobuf runtime may choose, all presence patterns of 8 and 32 fields, negative numbers and all varint lengths", "anchors": ["phonenumber.pb.go: PhoneNumber", "metadata/phonemetadata.pb.go: NumberFormat, PhoneNumberDesc, PhoneMetadata, PhoneMetadataCollection", "cmd/buildmetadata/main.go: buildNumberMetadata, buildAlternateFormatsMetadata (proto.Marshal)", "metadata/source.go", "shortnumberinfo.go", "alternateformats.go"]}
{"id": "C96", "title": "The embedded files load, and hold the metadata all other properties are about", "statement": "Loading the embedded files when a program starts cannot fail: the (uncompressed) bytes of the metadata file, the short number file, the alternate formats file and the country code map are well formed, contain every required field, and all 5,452 patterns in them compile. The container that results has exactly the regions, country codes and metadata the other theorems about the shipped data use.", "quantifier": "the four embedded files, all 279,341 bytes; all iteration orders of the country code map", "why_tests_cant": "a test only notices a defect in an entry it looks at; here every byte of every entry, every pattern and every possible length is accounted for, and the statement ties the theorems to the files rather than to a transcription", "anchors": ["metadata/source.go: init, Load, Collection, NewContainer", "internal/serialize/serialize.go: LoadIntArrayMap", "shortnumberinfo.go: ShortNumberMetadataCollection, loadShortNumberMetadataFromFile", "alternateformats.go: loadAlternateFormatsMetadata"]}
{"id": "C97", "title": "The written form of a parsed number identifies it", "statement": "A program may use the written form of a number as a key. Two numbers that Parse returned, from any texts and for any regions, have the same E164 form exactly if they are the same number apart from the extension, and the same RFC3966 form exactly if they are the same number in every field. For valid numbers (except the listed beginnings of C10) writing and reading is exact: reading the E164, INTERNATIONAL or RFC3966 form for any region returns the very same structure, so writing it again returns the same text, and two different numbers never share a form in whatever of these formats each is written.", "quantifier": "all pairs of texts and regions that parse; all valid parsed numbers, all extensions of up to 9 digits, the three formats", "why_tests_cant": "pairs of texts of any length and all regions; a test can show that two given numbers have different keys, not that no two numbers ever collide", "anchors": ["phonenumberutil.go: Parse, Format, parseHelper, setItalianLeadingZerosForPhoneNumber, formatNsnUsingPatternWithCarrier, maybeAppendFormattedExtension"]}
{"id": "C98", "title": "The phoneparser command answers every call", "statement": "The command phoneparser never panics, for any number of arguments with any bytes in them. Its exit status is 0 exactly if it was given a number and a region and the number parses. It then prints four lines: the E164 form, which is the plus sign followed by the digits of the country code and of the national significant number, the NATIONAL form, the national number in decimal digits, and whether the number is valid. Otherwise it prints one line, with a different text for each error. Calling it again with the E164 form it printed for a valid number (except the listed beginnings of C10), with any region, prints the same four lines.", "quantifier": "all argument lists of any length with any bytes; all valid parsed numbers and all second regions", "why_tests_cant": "the arguments are arbitrary texts; the dereference of the national number and the search for the region of the number may only be shown safe for the tried numbers by a test", "anchors": ["cmd/phoneparser/main.go: main", "errors.go: ErrTooShortAfterIDD, ErrNumTooLong", "phonenumberutil.go: Parse, Format, IsValidNumber"]}
{"id": "C99", "title": "The digits of a parsed number come from the text, in the way recorded", "statement": "ParseAndKeepRawInput records the text itself and how the country code was found, and the record is true. For every text that says one number, with or without a plus sign, separators and an extension: FROM_NUMBER_WITH_PLUS_SIGN means that there is a plus sign and the digits are the country code followed by the national part; FROM_NUMBER_WITH_IDD that the digits begin with what the region's international prefix pattern finds, then the country code; FROM_NUMBER_WITHOUT_PLUS_SIGN that there is no plus sign and the digits begin with the code of the region; FROM_DEFAULT_COUNTRY that there is no plus sign, the code is that of the region and all digits are the national part. The national significant number is the national part, or the national part with a national prefix taken off or rewritten by the rules of the main region of the code (of the given region in the last case), and a recorded carrier code stands in it. After a plus sign and a supported code the number has that code for every region. Where no rewriting rule is involved the national significant number is an end of the digits of the text: parsing makes up no digit.", "quantifier": "all texts that say one number (any separators and digits of any script, with or without extension), all regions, all successful parses", "why_tests_cant": "texts and regions are unbounded; a test compares chosen texts with chosen records, and cannot exclude that some text yields digits it does not contain", "anchors": ["phonenumberutil.go: ParseAndKeepRawInput, Parse, parseHelper, maybeExtractCountryCode, maybeStripInternationalPrefixAndNormalize, parsePrefixAsIdd, maybeStripNationalPrefixAndCarrierCode"]}
{"id": "C100", "title": "What the build command writes is what the library loads", "statement": "For every metadata XML that the build command accepts: the file it writes for the main metadata, for the short numbers or for the alternate formats reads back as exactly the metadata that was built from the XML - every pattern, format, example number, length and flag of every territory. With the main file and the country code file it writes, a program starts without an error and its tables are those of the built metadata, in whatever order the command and the program happen to visit their maps and the records are written; every territory with an id is then a supported region with the country code the XML gives, and if every territory lists a length no input makes Parse panic.", "quantifier": "all lists of territory elements with valid texts that the builder accepts, all orders of map iteration and of records, all inputs to Parse; limits: files below 2 GB, at most 4000 territories, 255 per country code", "why_tests_cant": "the set of XML files is unbounded, and future metadata releases are not there to be tested; a test builds and loads one of them", "anchors": ["cmd/buildmetadata/main.go: buildNumberMetadata, buildAlternateFormatsMetadata, buildRegionMetadata, renderMap", "internal/metadatabuilder/metadatabuilder.go: BuildPhoneMetadataCollection, BuildAlternateFormatsMetadataCollection, BuildCountryCodeToRegionMap, sp", "metadata/source.go: Load, Collection", "internal/serialize/serialize.go: LoadIntArrayMap"]}
{"id": "C101", "title": "A run of the build command that stops anywhere can be recognised and repaired, and a complete run leaves a library with the data of the sources", "statement": "A complete run of the build command writes every data file (main, short and alternate metadata, region map, time zones, one carrier and one geocoding table per language) with what is made of the upstream sources, then the version file, and nothing else; a library built from these files loads the metadata and tables of the sources. If the run is stopped at any moment, by an error, a panic or from outside, every file holds its old content or a first part of its new content, the version file still has its old content unless all data files are completely new, and running the command again on the same sources gives the same files as if the stopped run had never happened. The release that is built is the argument, or the first tag beginning with v that git lists.", "quantifier": "all sources, all versions, all states of the disk before the run, all points at which the run can stop including the middle of a write, all map iteration and protobuf field orders", "why_tests_cant": "Tests run the builder once to its end on one release; they cannot stop it at every point of every possible run or look at every combination of old and new files.", "anchors": ["cmd/buildmetadata/main.go: buildMetadata", "cmd/buildmetadata/main.go: buildPrefixMetadata", "cmd/buildmetadata/main.go: writeVersionFile", "cmd/buildmetadata/main.go: latestUpstreamRelease"]}
{"id": "C102", "title": "No call panics", "statement": "With the shipped metadata every exported function returns for every argument: no text, region code, number message (including messages no parser would produce: unset or negative country code, negative counts of zeros, arbitrary raw input), number type, leniency, order of map iteration, contents of the carrier, geocoding and time zone maps, or history of keys typed into a formatter makes a call panic. The exceptions are nil pointers, FormatByPattern with a user pattern that does not compile, and the exported Verify method called on a number and a text that do not belong together.", "quantifier": "every exported function whose code could panic (39 requests), every value of every argument", "why_tests_cant": "The arguments are unbounded texts and messages, and the panics would come from missing descriptions in the metadata, index expressions on formatted texts and slices of empty strings: a test only reaches the combinations it lists.", "anchors": ["phonenumberutil.go: Parse, GetNumberType, IsValidNumber, IsPossibleNumberForTypeWithReason, TruncateTooLongNumber, FormatNumberForMobileDialing, FormatInOriginalFormat, IsNumberMatch, GetExampleNumberForType", "shortnumberinfo.go: IsPossibleShortNumber, GetExpectedCost", "asyoutypeformatter.go: InputDigit, GetRememberedPosition", "phonenumbermatcher.go: next", "carrier/carrier.go", "geocoding/geocoding.go", "timezone/timezone.go", "cmd/phoneparser/main.go"]}
{"id": "C103", "title": "A number written the way of its country is found in a text", "statement": "Take a number that is valid for a region and has no extension, and write its NATIONAL form, for instance (650) 253-0000, 020 7031 3000 or 8 (771) 000 9998, in a text that has no other digits (and no opening bracket or plus sign before it, and no letter, currency or percent sign next to it). A search in this text for this region, at level POSSIBLE or VALID, finds exactly this number, at its place, with its raw text. Excluded are the regions and beginnings of C66, whose NATIONAL form is not read back.", "quantifier": "every valid number of every region, every text around it, every positive number of tries; and every text made of digit blocks, gaps and one pair of parentheses that parsing and the leniency level accept", "why_tests_cant": "The brackets, the page-number pattern, the trimming patterns, the national prefix check and the parser all have to agree on every form that the 760 national formats can produce; a test sees one number per format at best.", "anchors": ["phonenumbermatcher.go: find, extractMatch, parseAndVerify, isNationalPrefixPresentIfRequired, matchingBrackets, pubPages", "phonenumberutil.go: Format, FindNumbers", "enums.go: Verify"]}
{"id": "C104", "title": "All the numbers in a text are found", "statement": "Write any number of valid numbers, each in E164 or INTERNATIONAL form, into a text that otherwise has no digits. A search in this text returns all of them, each at its place and with its raw text, in their order, and nothing else; at every leniency level, for every default region, and for every positive limit of tries. The same holds for numbers written in digit blocks without plus sign if a character that ends a number, such as a line end, stands between them.", "quantifier": "every list of valid numbers of any length, every text between and after them, every leniency level, region and positive number of tries", "why_tests_cant": "Each find starts where the one before ended, and the pattern is greedy over up to twenty blocks and an extension, so whether two numbers are taken apart depends on all the text between them; a test fixes a few separators and a few numbers.", "anchors": ["phonenumbermatcher.go: find, next, hasNext, extractMatch, phoneNumberMatcherPattern", "phonenumberutil.go: FindNumbers, Format"]}
{"id": "C105", "title": "Names of carriers and areas come from the embedded files, by the longest prefix of all", "statement": "Every embedded file of carrier names and of area names can be loaded, however many goroutines ask for whatever languages at the same time, and none has a prefix twice or an empty name. With each of these files, for every number, the carrier of a mobile number is the name of the longest of all prefixes of the number in the file, and the description of a geographical number is the name of the longest of all prefixes in the file; it is empty, or that of the country, only if no prefix of the number is in the file. There is no error. A language without a file is not an error either.", "quantifier": "every embedded file (9 carrier languages, 33 area languages), every number message, every interleaving of goroutines", "why_tests_cant": "The files have 2.3 MB and over four hundred thousand prefixes; lookups stop at nine digits, so the longest prefix is found only if no key is longer, and one broken entry makes every lookup of its language fail. Tests look up some dozens of numbers.", "anchors": ["carrier/carrier.go: GetNameForNumber, GetSafeDisplayName", "geocoding/geocoding.go: GetDescriptionForNumber", "internal/prefixmapper/prefixmapper.go: ValueForNumber, lazyLoadPrefixes", "internal/serialize/serialize.go: LoadPrefixMap", "carrier/data", "geocoding/data"]}
{"id": "C106", "title": "A number written with an extension is found in a text, with its extension", "statement": "Let a text contain one number as people write it - perhaps a plus sign, then blocks of digits with gaps of spaces, hyphens and dots - followed by a label such as ' ext. ', ' x', '#', ';ext=', ' int ', ' Anexo ', ', ext. ', ' extension ' or ' доб. ' and the digits of an extension, at most as many as the label allows. If parsing accepts the piece and the leniency level accepts the result, the search reports exactly that piece at its place. In particular a valid number written with plus sign, country code, its digits in blocks and its extension after a label that formatting writes is found for every region at POSSIBLE and VALID, and at STRICT_GROUPING and EXACT_GROUPING if the blocks are its groups; and so is the INTERNATIONAL form of every valid number with an extension of up to nine digits, at every level. The number found has the same country code, national significant number and extension.", "quantifier": "all texts of the form described, all numbers, all block layouts, all 26 labels, all extensions, all regions, all leniency levels; for blocks and INTERNATIONAL form all valid numbers under the shipped metadata", "why_tests_cant": "The extension is matched by an alternation of patterns that compete with the block loop of the matcher pattern for the same characters; whether the label and all digits of the extension are taken depends on the order of alternatives for every label, length and following text. Tests try a few.", "anchors": ["phonenumbermatcher.go:find", "phonenumbermatcher.go:parseAndVerify", "phonenumberutil.go:extnPatternsForMatching", "phonenumberutil.go:Format"]}
{"id": "C107", "title": "All the numbers in a text are found, in whichever ways they are written", "statement": "Let a text have any number of numbers, each written as blocks of digits, perhaps after a plus sign, or as within a country with parentheses, without or with an extension. Before each there is a text without digits, opening brackets and plus signs. Each but the first starts with a plus sign, or the text before it keeps it apart from the number before: it has a character that ends a number, or it has a tab, comma or semicolon and nothing that a word for an extension has. If parsing accepts each number and the leniency level accepts each result, the search returns all of them at their places, in their order, and nothing else. In particular valid numbers in E164 form, in INTERNATIONAL form and, at levels POSSIBLE and VALID, in the NATIONAL form of the region searched for, with extensions of up to nine digits, are all found in any mix, and what is found has the same country codes, national significant numbers and extensions.", "quantifier": "all texts of the form described, all lists of numbers, all mixes of forms, all regions, all leniency levels, all positive limits of tries; for the forms all valid numbers under the shipped metadata", "why_tests_cant": "The matcher restarts after each match, and its pattern can run from one number into the next through punctuation or through a word for an extension. Whether it does depends on every character between the numbers; tests try a few separators.", "anchors": ["phonenumbermatcher.go:find", "phonenumbermatcher.go:parseAndVerify", "phonenumbermatcher.go:next", "phonenumberutil.go:extnPatternsForMatching"]}
{"id": "C108", "title": "A format or type that is none of the named constants", "statement": "Formats and types are integers, so a caller can pass any value. With a format that is none of the four named ones, a number with a known country calling code is formatted as in INTERNATIONAL, without the plus sign, the country calling code and the space; the same holds with rules given by the caller. A number with an unknown country calling code gives its national significant number, and one that could not be parsed gives its raw input. With a type that is none of the twelve named ones, the length check answers as for UNKNOWN. On the named values these functions are the ones the other properties are about.", "quantifier": "all integers as format or type, all numbers, all metadata, all rules given by a caller", "why_tests_cant": "The values come from configuration or from conversions of other integers. There are as many as integers, and each is compared in five places; tests use the named constants.", "anchors": ["phonenumberutil.go:Format", "phonenumberutil.go:FormatByPattern", "phonenumberutil.go:prefixNumberWithCountryCallingCode", "phonenumberutil.go:getNumberDescByType", "phonenumberutil.go:IsPossibleNumberForTypeWithReason", "enums.go:PhoneNumberFormat", "enums.go:PhoneNumberType"]}
{"id": "C109", "title": "National forms found at the levels that look at groups", "statement": "Take a number that is valid for a region, perhaps with an extension of up to nine digits, and write its NATIONAL form into a text without other digits. If the rule used for it within its country is not withheld from the INTERNATIONAL form, because the country has no rules of its own for the latter or this rule is among them, then the two forms divide its digits in the same way and a search for the region finds it at EXACT_GROUPING: at its place, with its text and with the same country calling code, national significant number and extension. It also finds it at STRICT_GROUPING if the national prefix written before the number does not contain the number's first digit. If a text has several numbers in E164, INTERNATIONAL or such NATIONAL forms, all of them are found at each level that accepts their grouping, in order and with nothing else.", "quantifier": "all numbers valid for a region other than Argentina and Gabon whose NATIONAL form is not ambiguous, all texts without other digits around them, all sets of alternate formats, all positive limits", "why_tests_cant": "The levels compare the groups of one form of the number with the blocks of digits of another, which comes from another rule with a national prefix in it. There are hundreds of such pairs of rules and numbers without end for each; tests try a few numbers of a few countries.", "anchors": ["phonenumberutil.go:FindNumbersWithLeniency", "phonenumbermatcher.go:allNumberGroupsAreExactlyPresent", "phonenumbermatcher.go:allNumberGroupsRemainGrouped", "phonenumbermatcher.go:checkNumberGroupingIsValid", "phonenumberutil.go:Format", "phonenumberutil.go:formatNsnUsingPatternWithCarrier"]}
{"id": "C110", "title": "A level that is none of the named constants", "statement": "The level of a search is an integer, so a caller can pass any value. If it is none of the four named levels, a search finds nothing, whatever the text, the region and the limit, and it ends without a panic. On the named values the search is the one the other properties are about.", "quantifier": "all integers as level, all texts, regions, limits and metadata (the shipped metadata for the absence of panics)", "why_tests_cant": "The values come from configuration or from conversions of other integers, and the level is looked at in two places, once in order and once by name. A test of one undeclared value with one text says nothing about others.", "anchors": ["enums.go: Leniency.Verify", "phonenumbermatcher.go: parseAndVerify, extractInnerMatch, extractMatch, find, hasNext, next", "phonenumberutil.go: FindNumbersWithLeniency"]}
{"id": "C111", "title": "A table that cannot be loaded", "statement": "The time zone table and the table of alternate formats are loaded by the first call that needs them. In every schedule: if the data can be read, every call is answered from the complete table. If the time zone file cannot be read, every lookup fails, and exactly one of them tells the cause. If the alternate-format data cannot be read, exactly one call panics and all others find no alternate formats. No call waits for ever, whether the loading function succeeds, fails or panics.", "quantifier": "every schedule of every number of goroutines and calls, every content of the data files", "why_tests_cant": "All interleavings; the panic is raised inside sync.Once while other goroutines wait for its lock.", "anchors": ["timezone/timezone.go: lookupTimeZones", "alternateformats.go: loadAlternateFormatsMetadata, getAlternateFormatsForCountryCallingCode", "internal/serialize/serialize.go: LoadIntArrayMap"]}
{"id": "C112", "title": "Shared tables keep no call waiting", "statement": "The cache of compiled patterns and the per-language prefix tables of the carrier and geocoding packages are shared by all goroutines and guarded by locks. However far an execution has come, the goroutines can go on, without any new call, until every call has ended, also when patterns do not compile, files are missing or fail to load. Every call pays for at most eight steps, so no schedule keeps the goroutines busy for ever.", "quantifier": "every schedule of every number of goroutines and calls, every pattern, language and file content", "why_tests_cant": "All interleavings; a lock left held on one rare path would show only when another goroutine comes later.", "anchors": ["internal/regexcache/regexcache.go: For, read, write", "internal/prefixmapper/prefixmapper.go: lazyLoadPrefixes"]}
{"id": "C113", "title": "How far a search goes", "statement": "Ranging over the numbers in a text gives the consumer the matches in order, each once, up to the one at which it stops, whatever it does in between; a consumer that stops after n matches has seen the first n. A larger limit of tries only adds matches at the end. For a text of n characters all limits above 25(n+1)^2 give the same matches, so FindNumbers is unlimited for every text of up to 600 million characters.", "quantifier": "every text, region, level, limit and consumer; every metadata where no panic is claimed, the shipped metadata otherwise", "why_tests_cant": "All consumers and all pairs of limits on all texts: the limit is counted down in three nested loops.", "anchors": ["phonenumberutil.go: FindNumbers, FindNumbersWithLeniency", "phonenumbermatcher.go: newPhoneNumberMatcher, find, extractMatch, extractInnerMatch, hasNext, next"]}
{"id": "C114", "title": "Unsupported region codes are all alike", "statement": "Region codes that GetSupportedRegions does not list (a code in lower case, the empty string, ZZ, any other string) are treated alike: Parse and ParseAndKeepRawInput give the same number or the same error under any two of them, IsPossibleNumberFromRegion the same answer, a search the same matches. FormatOutOfCountryCallingNumber writes the international form, FormatOutOfCountryKeepingAlphaChars and FormatInOriginalFormat the same text. Questions about such a region are answered by 0, the empty string, false or no number; no number is valid for it unless the code is 001. As-you-type formatters show the same, and FormatNumberForMobileDialing writes the same unless one code is 001. The short-number functions answer false, unknown cost or no example; no number connects to an emergency service.", "quantifier": "every pair of strings that are not supported regions, every text and every number; the shipped metadata and every well-formed metadata", "why_tests_cant": "All strings as region codes and all texts: 001 equals the region of the non-geographic calling codes and takes another path through the code, as does the empty string.", "anchors": ["phonenumberutil.go: Parse, ParseAndKeepRawInput, checkRegionForParsing, isValidRegionCode, IsPossibleNumberFromRegion, FormatOutOfCountryCallingNumber, FormatOutOfCountryKeepingAlphaChars, FormatInOriginalFormat, GetCountryCodeForRegion, GetNddPrefixForRegion, IsValidNumberForRegion, GetExampleNumber, IsMobileNumberPortableRegion, GetSupportedTypesForRegion, FindNumbers", "shortnumberinfo.go: IsPossibleShortNumberForRegion, IsValidShortNumberForRegion, GetExpectedCostForRegion, ConnectsToEmergencyNumber, IsEmergencyNumber", "asyoutypeformatter.go: GetAsYouTypeFormatter, InputDigit"]}
{"id": "C115", "title": "Formatters of regions that share a calling code", "statement": "Two regions with the same calling code, as in GB and JE or FI and AX, have as-you-type formatters that show the same, and remember the same position, after the same characters.", "quantifier": "every pair of regions with one calling code and every sequence of InputDigit, InputDigitAndRememberPosition and Clear", "why_tests_cant": "All sequences of calls: the formatters differ only when a calling code is found twice in one input.", "anchors": ["asyoutypeformatter.go: GetAsYouTypeFormatter, InputDigit, InputDigitAndRememberPosition, attemptToExtractCountryCallingCode, attemptToExtractIdd, Clear", "phonenumberutil.go: GetRegionCodeForCountryCode"]}
{"id": "C116", "title": "Messages that read alike are treated alike", "statement": "If the getters of two number messages answer the same, every function of the library treats them the same, whichever optional fields are set in them; the number of leading zeros counts only while the leading-zero flag is on. Validity, type, region, possibility, truncation and the short-number functions look at the calling code and the digits only: extension, raw input, source of the calling code and carrier code never change their answer. Numbers that are an EXACT_MATCH are valid together and have the same type and region. Comparison looks at the extension besides, the lookups at the raw input besides, and formatting for mobile dialling at neither the extension nor the source.", "quantifier": "every pair of number messages and every metadata, short-number, carrier, geocoding and time-zone table", "why_tests_cant": "Every combination of set and unset fields with every value, for some thirty functions.", "anchors": ["phonenumberutil.go: Format, FormatInOriginalFormat, FormatNumberForMobileDialing, IsValidNumber, GetNumberType, IsPossibleNumberWithReason, TruncateTooLongNumber, IsNumberMatchWithNumbers, GetNationalSignificantNumber", "shortnumberinfo.go: IsValidShortNumber, GetExpectedCost", "carrier/carrier.go: GetNameForNumber", "geocoding/geocoding.go: GetDescriptionForNumber", "timezone/timezone.go: GetTimeZonesForNumber"]}
{"id": "C117", "title": "The metadata of other countries does not matter", "statement": "What the library answers about a number (region, type, validity, possibility and its reason, truncation, area code length, carrier name, time zones) and how it writes it depend only on the metadata of the regions that share the number's calling code. The same holds of the short-number functions and the short-number metadata. New metadata for a region of another calling code changes nothing for it; for a call from another region the metadata of that region counts besides.", "quantifier": "every pair of metadata containers that say the same about one calling code, and every number of that code", "why_tests_cant": "Ranges over all metadata that may replace the shipped ones, not only over numbers.", "anchors": ["phonenumberutil.go: GetRegionCodeForNumber, GetNumberType, IsValidNumber, IsPossibleNumberWithReason, TruncateTooLongNumber, Format, FormatByPattern, FormatNumberForMobileDialing, FormatOutOfCountryCallingNumber, GetLengthOfGeographicalAreaCode", "metadata/source.go: Container", "carrier/carrier.go: GetSafeDisplayName", "timezone/timezone.go: GetTimeZonesForNumber"]}
