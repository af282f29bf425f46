# Formal model of nyaruka/phonenumbers in Lean 4 — design

Source under study: `/repo` (Go, go.mod says go 1.24), metadata v9.0.37. Nothing of the repository is executed; the model is a hand
translation, function by function, with file and line citations on every definition.

## 1. How the model is built

* **Strings** (`Verif/Str.lean`). A Go string is a byte sequence. The model uses `Str := List Nat`, the list of *units* obtained by
  repeatedly applying `utf8.DecodeRune`: a valid rune is its code point (`< 0x110000`), an invalid byte `b` is the unit `0x110000 + b`,
  whose rune value is U+FFFD, as `for range` and `regexp` see it. `blen` is Go's `len` (bytes). Every Go string has exactly one such
  unit list. All slicing in the code happens on unit boundaries (regexp match offsets, ASCII searches), so slices are unit-list slices.
* **Regular expressions** (`Verif/Regex`). `Re` is a syntax tree with prioritised (leftmost-first, backtracking) semantics, the semantics
  documented for Go's `regexp`; captures, `FindStringIndex`, `FindAll…`, `Split`, `ReplaceAllString` and template expansion are built on
  it. A parser for the pattern syntax used in `/repo` produces the trees, so patterns appear in the model as the source strings of
  the repository. `Re.Acc` is a separate declarative specification of what a tree matches, with soundness and completeness theorems
  (`runs_sound`, `runs_complete`, `findFrom_leftmost`); the property theorems use that one.
* **Metadata** is a parameter (`Container`) of every function. Theorems hold for every container, or for every container meeting an
  explicit decidable well-formedness predicate. The metadata shipped in the repository (gzip and protobuf; the protobuf part is read by the kernel, see C96) is
  embedded as Lean data (`Verif/Data`), and the predicates are checked for it by the kernel over the whole table
  (`Verif/Data/Wf.lean`), so that the theorems become unconditional for the shipped library.
* **Panics** are values: functions which can panic in Go return `Except Panic α`. Errors are values inside that.
* **Concurrency** (regular expression cache, lazily loaded prefix maps, `sync.Once` tables) is a labelled step relation over a shared
  state and one program counter per goroutine, one step for each lock operation and each access to shared memory.
* **Go maps**: association lists. Where the iteration order of a map matters (metadata builder) the theorems quantify over an arbitrary
  order for every loop.

Layout: `Model/` the translation; `Regex/` regular expressions; `Spec/` the small specifications in which properties are stated;
`Lemmas/` helper lemmas; `Data/` shipped metadata and whole-table checks; `Props/Cnn.lean` the theorems of property Cnn, with an
`example` beside each.

## 2. Trusted base

* Lean 4.33.0 kernel, and the axioms `propext`, `Classical.choice`, `Quot.sound` only (section 7). Whole-table facts are kernel
  reductions (`decide +kernel` or an explicit `rfl` term checked by the kernel); no compiled code is trusted.
* Faithfulness of the hand translation: reviewed against the cited lines, validated against the expectations in the repository's own
  tests (section 6), and probed by seeded bugs (`seeded/LOG.jsonl`).
* Go's standard library as documented: `regexp` (leftmost-first priority), `strconv`, `strings`, `unicode`, `encoding/binary`, `sync`.
  Unicode tables are those of Unicode 15.0.0, the version of Go 1.21 and later.
* The script that uncompressed the embedded files: `Verif/Data/*Bytes*.lean`, `Tz.lean`, `CarrierNames.lean` and `Area*.lean` hold the bytes `gunzip` gives.
  That these bytes decode to the Lean metadata is a theorem (C96); the scripts that wrote that metadata are not trusted.

## 3. What is modelled and what is not

Modelled: all of `phonenumberutil.go` except those items listed below, `asyoutypeformatter.go`, `phonenumbermatcher.go`, `phonenumbermatch.go`,
`alternateformats.go`, `shortnumberinfo.go`, `enums.go`, `metadata/source.go` (container, `Use`), `carrier`, `geocoding`, `timezone`,
`internal/character`, `internal/regexbasedmatcher`, `internal/regexcache`, `internal/prefixmapper`, `internal/serialize`,
`internal/metadatabuilder` (from the decoded XML elements on), `cmd/buildmetadata` (from the decoded XML and the text files to the uncompressed files, the order of the writes and the choice of the release), `cmd/phoneparser`.

Not modelled:

* gzip; decoding of XML; the protobuf runtime (its wire format is modelled in `Model/Wire.lean` from the specification, without groups); the file system; the download part of `cmd/buildmetadata`;
  `golang.org/x/text` display names (a parameter of the geocoding model); generated protobuf code (messages are structures with
  optional fields); the exported accessors that hand out the whole metadata collection.
* `math.Log10` (floating point): the digit count of a key is a parameter, with the assumption stated in C44–C46.
* `regexp.Compile` inside the builder is a parameter. The builder model compiles a national prefix used as parsing prefix when it
  builds it, the code when it is first used.
* Memory layout. `int32(len(..))` overflow (a string of 2 GB).
* RWMutex writer preference (the lock is modelled by its specification).

Simplifications, each also stated at its definition:

* Matcher positions are counted in units; the byte offsets a caller sees are derived. Searching for a group inside a raw input that
  contains invalid bytes is done by unit.
* Concatenation of unit lists is the unit list of the concatenation, because every place where strings are joined has a valid rune
  on one side.
* Negative country codes are printed with a sign (`decInt`), as `strconv.Itoa` does.


## 4. Properties: what is modelled, how it is proved, status

The theorems of property Cnn are in `lean/Verif/Props/Cnn.lean`, all in namespace `Verif.Props`. "Partial" means that the property as
stated is false of the code or not settled in full; the note says which, and the exact gap is described beside the theorem.

| id | property | modelled and method | status | theorems | note |
|----|----------|---------------------|--------|----------|------|
| C01 | NormalizeDigitsOnly keeps exactly the digits | `normalizeDigits`, `character.Digit`, the Unicode Nd table; induction on the string, whole-table fact about the ranges | proved | `C01_transcript`, `C01_unique`, `C01_allDigits`, `C01_idempotent`, `C01_append` |  |
| C02 | NormalizeDiallableCharsOnly keeps exactly the diallable characters | `normalizeHelper` with the diallable map; filter characterisation by induction | proved | `C02_filter` |  |
| C03 | ConvertAlphaCharactersInNumber changes letters only | `normalizeHelper` with the keypad map, `unicode.ToUpper`; map characterisation, whole-table check | proved | `C03_map`, `C03_length`, `C03_kept`, `C03_letter`, `C03_keypad_total`, `C03_idempotent` |  |
| C04 | GetNationalSignificantNumber is total and has a fixed shape | `GetNationalSignificantNumber`; case analysis, length of a decimal representation | proved | `C04_shape`, `C04_length`, `C04_digits` |  |
| C05 | Storing a national significant number loses no digit | `setItalianLeadingZerosForPhoneNumber`, `ParseUint`; induction on the zeros, decimal round trip | proved | `C05_store` |  |
| C06 | Parsing never panics and fails only with the documented errors | the whole parsing path with explicit panics; error-set invariant through every function (`parseCore` refinement) | proved | `C06_no_panic`, `C06_no_panic_reuse`, `C06_shipped` | For any metadata whose entries carry a general description with lengths; unconditional for the shipped metadata (C06_shipped). |
| C07 | Keeping the raw input does not change the parsed number | `parseHelper`; two-run relation | proved | `C07_same`, `C07_reuse` |  |
| C08 | A parsed number carries a supported country code and a bounded NSN | `parseHelper`; postcondition from the refinement to `parseCore` | proved | `C08_parsed`, `C08_shipped` | Generic theorem under checked well-formedness; C08_shipped is unconditional for the shipped metadata. |
| C09 | A number that parses without a region parses the same with any region | `parseHelper`; two-run relation | proved | `C09_any_region`, `C09_any_region_raw`, `C09_shipped` | C09_shipped is unconditional for the shipped metadata. |
| C10 | E164 output parses back to the same number | `Format`, `parseHelper`; composition of extraction, prefix-freeness, C05; static analysis of national prefix patterns | proved | `C10_roundtrip`, `C10_valid`, `C10_needed` | C10_valid settles the round trip for every valid number of every shipped country code, except Belarusian numbers beginning with 8 and Japanese numbers beginning with 003768; C10_needed shows for both that the exception cannot be dropped. |
| C11 | Re-using a PhoneNumber with ParseToNumber leaves no stale data | `parseHelper` on a used message; witness, frame theorem | partial | `C11_false`, `C11_false_zeros`, `C11_exact_partial`, `C11_clean_partial` | The property is false of the code: C11_false and C11_false_zeros give witnesses (stale extension, stale leading-zero count). The _partial theorems say when the reused message agrees with a fresh one. |
| C12 | Extensions recognised by parsing are 1 to 20 decimal digits | extension pattern; static analysis of the language of the capture groups | partial | `C12_false`, `C12_shape_partial`, `C12_occurs_partial`, `C12_separate` | The property is false in a corner of RFC 3966 phone-context input (C12_false). Shape of the extension, and occurrence in the input when there is no phone-context, are proved. |
| C13 | Country code extraction is unambiguous | `extractCountryCode`; arithmetic on decimal prefixes, whole table for prefix-freeness | proved | `C13_extracted`, `C13_not_extracted`, `C13_unique`, `C13_parse`, `C13_shipped` | C13_shipped is unconditional for the shipped metadata. |
| C14 | RFC 3966 phone-context handling | `buildNationalNumberForParsing`, phone-context functions; case analysis against an input specification | partial | `C14_reject`, `C14_analysed`, `C14_total`, `C14_plus`, `C14_domain`, `C14_isub_partial`, `C14_isub_false`, `C14_domain_false` | False in two corners, each with a witness: a valid domain context at the very beginning of the input is read as the number (C14_domain_false), and an empty ;isub= is not dropped (C14_isub_false). Everything else is proved: C14_reject, C14_analysed and C14_total describe every input, C14_plus, C14_domain and C14_isub_partial are the API-level consequences. |
| C15 | E164 format shape | `Format`; unfolding to the specification string | proved | `C15_shape`, `C15_only_digits`, `C15_ignores`, `C15_raw`, `C15_identifies`, `C15_shipped` |  |
| C16 | INTERNATIONAL formatting only adds separators | formatting rules; template-in-order theorem, whole-table check | proved | `C16_digits`, `C16_shipped` |  |
| C17 | RFC3966 format shape | RFC 3966 branch; character-set invariant | proved | `C17_shape`, `C17_groups`, `C17_shipped` |  |
| C18 | Formatting with an unsupported country code returns the NSN | `Format`; unfolding to the specification string | proved | `C18_nsn`, `C18_e164`, `C18_variants` |  |
| C19 | FormatInOriginalFormat never changes the dialled digits | `FormatInOriginalFormat`; final comparison | proved | `C19_any`, `C19_parsed`, `C19_shipped`, `C19_no_source` | Stated for every message obtained by parsing with raw input kept. C19_no_source records that a hand-built message without a country code source is not covered by the property. |
| C20 | FormatNumberForMobileDialing without formatting returns only diallable characters | `FormatNumberForMobileDialing`; case analysis | partial | `C20_diallable_partial`, `C20_shipped_partial`, `C20_false_unsupported`, `C20_false_zeros` | False as stated in two corners (witnesses C20_false_unsupported, C20_false_zeros): the raw input is returned for an unsupported country code and for national number 0. Proved for every other number. |
| C21 | Out-of-country formatting shape | out-of-country and carrier-code formatting; case analysis against a specification | proved | `C21_unsupported_region`, `C21_unsupported_code`, `C21_nanpa`, `C21_same`, `C21_abroad`, `C21_shipped` |  |
| C22 | Carrier-code precedence when formatting | out-of-country and carrier-code formatting; case analysis against a specification | proved | `C22_own`, `C22_fallback`, `C22_argument_only`, `C22_none`, `C22_no_rule` |  |
| C23 | Area code and NDC lengths fit in the number | area code and national destination code; split lemma | partial | `C23_ndc_partial`, `C23_ndc_shipped_partial`, `C23_ndc_false`, `C23_area`, `C23_area_shipped` | False for a message whose national number is 0 and that carries raw input (witness C23_ndc_false): Format returns the raw input, so the pieces are not bounded by the national significant number. Proved for every other message, and the area code bound holds without exception. |
| C24 | Length classification is exact | `testNumberLength`; sorted lists against an order-free specification | proved | `C24_length`, `C24_type`, `C24_number`, `C24_unsupported` | Generic under checked well-formed length tables, which hold for the shipped metadata (Data.wf_lengthTables). |
| C25 | A valid number is a possible number | validity and region functions; general theorems under checked well-formedness, whole table | proved | `C25_valid_possible`, `C25_shipped` | C25_shipped is unconditional for the shipped metadata. |
| C26 | A number is valid exactly when it has a type | validity and region functions; general theorems under checked well-formedness, whole table | proved | `C26_valid_iff_type`, `C26_shipped` | C26_shipped is unconditional for the shipped metadata. |
| C27 | Validity for a region implies the region's country code | validity and region functions; general theorems under checked well-formedness, whole table | proved | `C27_code`, `C27_listed`, `C27_shipped`, `C27_total` | C27_code needs no assumption; C27_shipped adds that the region is listed. |
| C28 | Region and calling-code lookups are consistent | validity and region functions; general theorems under checked well-formedness, whole table | proved | `C28_region`, `C28_listed`, `C28_number`, `C28_main`, `C28_shipped` | C28_shipped is unconditional for the shipped metadata. |
| C29 | TruncateTooLongNumber returns a valid prefix or changes nothing | `TruncateTooLongNumber`; induction on the loop | proved | `C29_true`, `C29_false`, `C29_total`, `C29_incomplete` | C29_incomplete records a finding: a false result does not mean that no prefix is valid. |
| C30 | Number type is decided by a fixed priority | `getNumberTypeHelper`; specification by first matching description | proved | `C30_type`, `C30_number` | Generic for metadata entries with all descriptions, which holds for the shipped metadata (Data.wf_allDescs). |
| C31 | Example numbers are valid and of the requested type | example numbers; whole-table kernel computation | partial | `C31_example_partial`, `C31_shipped_partial`, `C31_exists`, `C31_fixedLineOrMobile`, `C31_false` | Every supported region and every type: the example exists whenever the metadata has one, is valid, and has the requested type or FIXED_LINE_OR_MOBILE (whole shipped table, kernel-checked). False for a request of FIXED_LINE_OR_MOBILE: C31_false (CH gets a FIXED_LINE number); C31_fixedLineOrMobile says what holds instead. |
| C32 | IsNumberMatch is symmetric | `IsNumberMatch…`; algebra of the match function | proved | `C32_numbers`, `C32_refl`, `C32_strings`, `C32_shipped` | C32_shipped is unconditional for the shipped metadata. |
| C33 | EXACT_MATCH means equal identity | `IsNumberMatch…`; algebra of the match function | proved | `C33_iff`, `C33_trans`, `C33_extensions`, `C33_ignored`, `C33_codes`, `C33_nsn_iff`, `C33_short` |  |
| C34 | Emergency number checks are consistent | short numbers; case analysis, fold characterisation, whole table | proved | `C34_is_iff`, `C34_connects_iff`, `C34_implies`, `C34_plus`, `C34_exact`, `C34_append`, `C34_shipped_noAnchor` |  |
| C35 | Expected cost takes the most expensive alternative | short numbers; case analysis, fold characterisation, whole table | proved | `C35_none`, `C35_one`, `C35_worst`, `C35_region_unknown`, `C35_region`, `C35_total` |  |
| C36 | A valid short number is a possible short number | short numbers; case analysis, fold characterisation, whole table | proved | `C36_valid_region_iff`, `C36_possible_region_iff`, `C36_possible_iff`, `C36_valid_iff`, `C36_region`, `C36_general`, `C36_no_empty_region`, `C36_shipped` |  |
| C37 | Clear makes an as-you-type formatter as good as new | as-you-type formatter as a state machine; invariants over call histories | proved | `C37_clear`, `C37_run` | For every metadata container, region and call history: after Clear every later call sequence yields exactly the outputs and remembered positions of a fresh formatter; histories are calls that did not panic. |
| C38 | As-you-type output never loses or adds a digit | as-you-type formatter; invariants relating the formatter state to the digits typed; static analysis of the formats | partial | `C38_no_panic`, `C38_false`, `C38_digits_partial` | C38_no_panic: no sequence of calls panics, on the shipped metadata, for every region. C38_false: the digits part is false of the code (CO, 04144144 shows 0414 4). C38_digits_partial: digits kept for all input typed with a leading plus and for all regions other than AR, BR, CO, JP, KR. |
| C39 | Typing a formatting character freezes formatting | as-you-type formatter as a state machine; invariants over call histories | proved | `C39_frozen`, `C39_no_panic` | For every metadata container, region and call history; also that no later call can panic once formatting is off for good. |
| C40 | The remembered position lies inside the output | as-you-type formatter as a state machine; invariants over call histories | proved | `C40_inside` | For every metadata container, region and call history: GetRememberedPosition does not panic and is at most the number of characters of the output. |
| C41 | FindNumbers offsets are exact, ordered and disjoint | text search; invariants of the find loop, termination measure | proved | `C41_offsets`, `C41_ordered` | Every match found by FindNumbers is exactly the piece of text between its byte offsets, non-empty and inside the text; matches are ordered and disjoint; for every text, region, leniency, limit and metadata. |
| C42 | FindNumbers respects the leniency | text search; invariants of the find loop, termination measure | proved | `C42_possible`, `C42_valid`, `C42_number` | Matches at POSSIBLE are possible numbers, at VALID or stricter valid numbers, and each is what parsing the matched piece alone gives; for every text and metadata. |
| C43 | FindNumbers terminates and examines a bounded number of candidates | text search; invariants of the find loop, termination measure | proved | `C43_terminates`, `C43_bound`, `C43_none` | The search ends for every text (turns bounded by the text length); with maxTries k at most k candidates are passed over and at most k+2 plus one per match pieces parsed in vain; k <= 0 gives nothing. The counter may go two below zero: shown by an example. |
| C44 | Serialised prefix maps load back unchanged | binary writer and loaders; round trip by induction, truncation lemma | proved | `C44_prefix`, `C44_array`, `C44_order`, `C44_order_array`, `C44_large_key` | Bytes before compression; gzip itself is not modelled. Holds for keys below 2^42 (the six-byte varint buffer; larger keys make the writer panic, C44_large_key), at most 65535 distinct values and a table below 4 GB. digitCount (math.Log10) is a parameter. |
| C45 | Carrier and geocoding lookup is longest-prefix | prefix lookups; specification by longest prefix | proved | `C45_lookup`, `C45_determined`, `C45_unlimited`, `C45_no_data`, `C45_carrier` | For every map, every digit string and every limit up to 19 characters; C45_carrier instantiates it at GetNameForValidNumber. Strings beginning with +0 alias keys (numbers, not strings, are compared). |
| C46 | Time zone lookup is longest-prefix and never empty | prefix lookups; specification by longest prefix | proved | `C46_lookup`, `C46_number`, `C46_shipped`, `C46_rounding` | C46_number holds for every map and metadata; C46_shipped for every message on the shipped metadata and the shipped time zone file, which is included as raw bytes and checked by the kernel. digitCount (math.Log10) is a parameter assumed exact except at powers of ten, where it may be one less; C46_rounding shows that this would lose a power-of-ten key. |
| C47 | Truncated data is rejected, not misread | binary writer and loaders; round trip by induction, truncation lemma | proved | `C47_prefix`, `C47_array`, `C47_any`, `C47_trailing` | Every strict prefix of the uncompressed bytes is rejected by both loaders; C47_any gives the general form for every byte string accepted. C47_trailing records that bytes after the last entry are ignored. |
| C48 | The regex cache is transparent under concurrency | step relations over shared state and per-goroutine program counters; invariants over all executions | proved | `C48_transparent`, `C48_cache`, `C48_no_race`, `C48_no_deadlock` | State machine with one step per lock operation and map access (sync.RWMutex by its specification); invariant over all executions of any number of goroutines. Also proved: no data race, no deadlock. |
| C49 | Lazy prefix loading is consistent under concurrency | step relations over shared state and per-goroutine program counters; invariants over all executions | proved | `C49_consistent`, `C49_cache`, `C49_cached`, `C49_stable`, `C49_no_race`, `C49_no_deadlock`, `C49_loader` | State machine for lazyLoadPrefixes with failures of the file system chosen freely; invariant over all executions. Also proved: cached entries never change, no data race, no deadlock, and the instance for LoadPrefixMap. |
| C50 | Swapping metadata and restoring is exact when nested | container; list-map lemmas | proved | `C50_nested`, `C50_not_nested` | C50_not_nested shows that nesting is needed. |
| C51 | Built length tables are sorted, duplicate-free and consistent | metadata builder; permutation invariance, sortedness, specification of the written ranges | proved | `C51_syntax`, `C51_short_range`, `C51_order`, `C51_tables`, `C51_exact`, `C51_accepts` | Builder modelled from the XML elements on; every map iteration order through an arbitrary fair Order. C51_tables for arbitrary texts, C51_exact and C51_accepts (an iff) for well-written ones, C51_syntax for the length syntax. |
| C52 | The main region comes first | metadata builder; permutation invariance, sortedness, specification of the written ranges | proved | `C52_keys`, `C52_exact`, `C52_regions`, `C52_main_first`, `C52_no_main`, `C52_shipped` | Exact list, multiplicity and main-first for every collection with non-empty identifiers; C52_shipped: the shipped table is the builder's table of the shipped collection. |
| C53 | Lookup tables built by NewContainer agree with their inputs | container; list-map lemmas | proved | `C53_fails`, `C53_tables`, `C53_order` |  |
| C54 | Invalid example numbers exist and are invalid | example numbers; whole-table kernel computation | proved | `C54_invalid`, `C54_shipped`, `C54_unsupported` | Any metadata: only invalid numbers are returned. Shipped metadata: one for every supported region. |
| C55 | Example numbers of non-geographical codes are valid | example numbers; whole-table kernel computation | proved | `C55_example`, `C55_none` | Shipped metadata, every country code. |
| C56 | Carrier names only for mobile numbers, safe names only without portability | prefix lookups; specification by longest prefix | proved | `C56_name`, `C56_shipped`, `C56_raw_fails` | Every message and every carrier map on the shipped metadata. C56_raw_fails shows the exception in the statement is real: a parsed valid number whose carrier lookup fails. |
| C57 | Geocoding falls back to the one country where the number is valid | prefix lookups; specification by longest prefix | proved | `C57_country`, `C57_shipped` | Every message, map and naming of regions on the shipped metadata; display names (golang.org/x/text) are a parameter. C57_country is generic in the metadata. |
| C58 | Tables loaded on first use are seen complete | step relations over shared state and per-goroutine program counters; invariants over all executions | proved | `C58_complete`, `C58_no_race`, `C58_once`, `C58_timezones`, `C58_alternate` | State machine for sync.Once with the loading function split into atomic updates; instances for the time zone table and the alternate formats. A loading function that panics is not modelled. |
| C59 | What the builder leaves out is not lost | metadata builder; permutation invariance, sortedness, specification of the written ranges | proved | `C59_intl`, `C59_national`, `C59_format`, `C59_all_na` | C59_all_na records the exception stated in the property. |
| C60 | Metadata made by the builder is what the library expects | metadata builder; permutation invariance, sortedness, specification of the written ranges | proved | `C60_descs`, `C60_lengths`, `C60_parse`, `C60_tables` | Composition of builder, NewContainer and Parse. |
| C61 | FindNumbers never panics | text search; totality, order of the levels, neighbour conditions, completeness on written numbers | proved | `C61_no_panic`, `C61_verify`, `C61_verify_panics` | C61_no_panic: unconditional for the shipped metadata, any alternate formats, text, region, leniency and limit. C61_verify: the exported check does not panic on numbers that parsing returned. C61_verify_panics: called directly with a number built by hand whose raw input has a hyphen after a semicolon it does panic (finding). |
| C62 | Stricter leniency accepts less | text search; totality, order of the levels, neighbour conditions, completeness on written numbers | proved | `C62_grouping_valid`, `C62_possible`, `C62_found`, `C62_exact_not_strict`, `C62_strict_not_exact` | C62_grouping_valid for every metadata; C62_possible and C62_found for the shipped metadata; C62_exact_not_strict and C62_strict_not_exact show that the two grouping levels are not comparable. |
| C63 | A match does not cut through a word or a bracket | text search; totality, order of the levels, neighbour conditions, completeness on written numbers | proved | `C63_neighbours`, `C63_brackets`, `C63_pages` | C63_neighbours, C63_brackets, C63_pages: for every metadata, text, region and limit. |
| C64 | A number written in a text is found | text search; totality, order of the levels, neighbour conditions, completeness on written numbers | proved | `C64_written`, `C64_e164` | C64_written: any metadata, any text around a written number that parsing and the leniency level accept. C64_e164: the E164 form of every valid number on the shipped metadata, every region and leniency; excluded are national number 0 and the two ambiguous beginnings of C10 (Belarus 8…, Japan 003768…). |
| C65 | INTERNATIONAL and RFC3966 output is parsed back to the same number | `Format` then `parseHelper`; written-form lemmas (spaced digits, extension labels) | proved | `C65_international`, `C65_rfc3966`, `C65_international_valid`, `C65_rfc3966_valid`, `C65_extension_bound` | Proved for the shipped metadata for every valid number except those with the ambiguous beginnings of C10 (Belarus 8…, Japan 003768…), and generically for any container passing the stated checks. C65_extension_bound shows that the bound on the extension is needed. |
| C66 | NATIONAL output is parsed back to the same number in its region | `Format` NATIONAL then `parseHelper` in the region; static check of every rule against the international prefix, country code and national prefix patterns by derivatives | proved | `C66_national_valid`, `C66_own_region`, `C66_needed` | For the shipped metadata: every number valid for a geographical region other than AR and GA, and without one of five listed beginnings, is parsed back from its NATIONAL form with that region as default, with its extension. C66_needed gives for every exception a valid number that is read as another number. |
| C67 | The listed types of a region are the types its numbers have | `supportedTypes` against `numberType`; whole-table check that the two read the same data | proved | `C67_listed`, `C67_inhabited`, `C67_inhabited_nonGeo`, `C67_never` | Types of valid numbers are listed; every listed type is inhabited, for regions and non-geographical codes, on the whole shipped metadata. |
| C68 | A valid number is possible for its own type | `possibleForTypeWithReason` against `numberType`; whole-table check of nested length lists | proved | `C68_valid_possible`, `C68_needed` | A valid number is possible for its own type, with five exceptional pairs of country code and type, each shown necessary by a witness. |
| C69 | The written forms of a number match each other | `numberMatch*` of formatted forms, by the round trips C10, C65, C66 | proved | `C69_international`, `C69_parsed`, `C69_national` | EXACT_MATCH for the international forms, also against the parsed number; NSN_MATCH against the NATIONAL form, by C10, C65 and C66. |
| C70 | Letters in a number stand for the digits of their keys | `parseCore` depends only on the plus sign and the normalised text; the letter pattern counts letters | proved | `C70_letters`, `C70_few`, `C70_isAlpha`, `C70_isAlpha_only`, `C70_digits`, `C70_end_needed` | For every metadata table and default region; the condition that the text ends in a letter is shown necessary. |
| C71 | Numbers are laid out by the first rule that can be used | `format`, `formatWithCarrier`, `formatByPattern` against a layout by group sizes and templates; preferred match of a sequence of digit groups | proved | `C71_format`, `C71_shipped`, `C71_carrier`, `C71_unique`, `C71_cut` | Generic in the container (decidable well-formedness layoutOk, checked for the whole shipped metadata); the specification LaidOut is shown to determine the output. E164 is C15. |
| C72 | User-defined formatting rules are used like those of the metadata | `format`, `formatWithCarrier`, `formatByPattern` against a layout by group sizes and templates; preferred match of a sequence of digit groups | proved | `C72_userRules`, `C72_shipped`, `C72_none` | Generic in the container; the rules must be sequences of digit groups with templates mentioning them. |
| C73 | Short-number services are recognised, possible and priced consistently | short-number services; inclusion and disjointness of the patterns of every entry by derivatives, whole table | proved | `C73_carrier_region_iff`, `C73_sms_region_iff`, `C73_carrier_iff`, `C73_possible`, `C73_not_valid`, `C73_home_differs`, `C73_emergency`, `C73_cost`, `C73_carrier_shipped` | Exact conditions for the carrier-specific and SMS services, possibility of those numbers, validity and price of emergency numbers and the exclusiveness of the cost categories. Two non-properties are shown with witnesses. |
| C74 | The region of a number is the first that claims it, and validity anywhere is validity | `regionForNumber` by induction on the regions; the order of regions of every shared code checked by emptiness of regular-expression differences (derivatives) | proved | `C74_region`, `C74_valid`, `C74_shipped` | GetRegionCodeForNumber against the specification RegionOf for all well-formed metadata; IsValidNumber iff valid for some region for the shipped metadata, by a kernel-checked emptiness check of pattern differences over all shared country codes. |
| C75 | Area codes, geographical numbers and numbers unreachable from abroad follow type, region and layout | `lengthOfNdc`, `lengthOfAreaCode`, `isGeographical`, `canBeInternationallyDialled` against layout (C71), type (C30) and region (C74) | proved | `C75_ndc`, `C75_geographical`, `C75_area`, `C75_dialled`, `C75_shipped` | All numbers; the destination code as the first digit group of the INTERNATIONAL layout of C71. |
| C76 | A number written for a call from another country is read there as the same number | `formatOutOfCountry` (C21) composed with `parseCore`: international prefixes checked for every region by derivatives; the tilde of `8~10` shown not to begin an extension | proved | `C76_abroad`, `C76_unsupported`, `C76_home`, `C76_nanpa`, `C76_hongkong`, `C76_seven_digits` | Unconditional for the shipped metadata, with the exceptions named in the statement; C76_hongkong and C76_seven_digits show two of them are needed, C10 and C66 the others. |
| C77 | What a mobile phone is told to dial is the number | the case analysis of `formatForMobile` composed with the read-back theorems of C65 and C66, after showing that the diallable characters of the INTERNATIONAL form are the E164 form | proved | `C77_abroad`, `C77_abroad_nothing`, `C77_home`, `C77_brazil`, `C77_nonGeo` | Unconditional for the shipped metadata, with the exceptions named in the statement. The Brazilian numbers with a preferred carrier are C20. |
| C78 | What IsNumberMatch says about two texts | the readings of two texts as an inductive relation, shown to be unique; `numberMatchStrings` evaluated on it; E164 equality by prefix-freeness of country codes | proved | `C78_texts`, `C78_e164`, `C78_one_exact`, `C78_one_nsn`, `C78_nonGeo` | Unconditional for the shipped metadata. |
| C79 | FormatInOriginalFormat shows a number the way it was typed | `originalBody` evaluated per source; the candidates specified by the layout relation of C71; a rule with a national prefix shows more digits than without it, so the bare candidate is never mistaken for the NATIONAL form | proved | `C79_plus`, `C79_idd`, `C79_noPlus`, `C79_default`, `C79_international`, `C79_national`, `C79_abroad`, `C79_zero` | Unconditional for the shipped metadata, with the exceptions of C65/C66/C76 for the reproduction theorems. Numbers whose national number is 0 are excluded in `C79_noPlus`; `C79_zero` shows why. |
| C80 | A number typed in its own region, with or without the national prefix, is read as that number | `parseCore_national` for arbitrary spacing; per region, a kernel-checked analysis by derivatives of the number patterns against the international prefix, national prefix and country code (`readsBack`) | proved | `C80_bare`, `C80_prefix`, `C80_nanpa`, `C80_needed_bare`, `C80_needed_prefix` | Unconditional for the shipped metadata. Exceptions are listed by country code in Spec/Typed.lean (`bareAmbiguous`, `prefixAmbiguous`) and, for the form with the national prefix, Argentina; `C80_needed_bare` and `C80_needed_prefix` give numbers that are misread. |
| C81 | IsPossibleNumberFromRegion accepts exactly the texts that are read as numbers of a listed length | total parser (C01) and the characterisation of possible lengths (C24), then the round trips C10, C65 and C80 with C25 | proved | `C81_iff`, `C81_valid`, `C81_written`, `C81_typed` | Unconditional for the shipped metadata. |
| C82 | Numbers written for calls from another country with their letters kept show the text typed, and are read as the same number | specification of the kept text and of its part by first occurrence; leftmost-first theory for the pattern (\\d+)(.*); readback through C70 (letters as digits) and the prefix analysis of C76 | proved | `C82_part`, `C82_noText`, `C82_unknown`, `C82_nanpa`, `C82_home`, `C82_abroad`, `C82_reads_letters`, `C82_reads_digits`, `C82_reads_nanpa`, `C82_code_twice`, `C82_extension_twice`, `C82_wide_digits` | Unconditional for the shipped metadata, Hong Kong excepted as calling region in the readback. `C82_code_twice`, `C82_extension_twice` and `C82_wide_digits` show texts for which the part found is not the number. |
| C83 | There is an example of every type, whatever the order of the regions | the orders are arguments of the model; induction over the regions with C31, and a kernel check that each type has an example in GB or DE and that the general descriptions have none | proved | `C83_example`, `C83_unknown`, `C83_fixedLine`, `C83_codes`, `C83_order` | Unconditional for the shipped metadata. |
| C84 | Descriptions for a user's region give the area at home and the country abroad | cases on the type and region of the number with C57, C26 and C30 | proved | `C84_user`, `C84_only` | Unconditional for the shipped metadata; the description table has distinct keys, as loaded. |
| C85 | What each leniency level asks of a text | each check of the matcher is shown equivalent to a condition on the text: induction over the text for the letters x and the blocks of digits, the leftmost choice of each group is complete, and the layout rule is the one of C71 | proved | `C85_valid`, `C85_strict`, `C85_exact`, `C85_grouping`, `C85_found`, `C85_cases` | Unconditional for the shipped metadata and every list of alternate formats; for STRICT_GROUPING the text must be at least as long as the country code less one, which holds for the text the number was read from. C85_cases shows eight texts and the answers of the three levels. |
| C86 | A number written in its groups is found at every leniency level | the layouts of INTERNATIONAL are blocks and gaps with the groups of RFC3966 (kernel check of the templates), the text is read as in C65, C85 for the checks and C64 for the search | proved | `C86_written`, `C86_international` | Unconditional for the shipped metadata. Numbers with extension are excluded. |
| C87 | The tables say what the text files say | model of the two readers on bytes; splitting is the unique list of pieces without separator; induction over the lines with the map read so far; then C44 for writing and loading and C45 for the lookup | proved | `C87_reads`, `C87_table`, `C87_loaded`, `C87_lookup`, `C87_zones_read`, `C87_zones_table`, `C87_zones_loaded`, `C87_zones_negative`, `C87_cases` | Opening files and compression are not modelled. The hypotheses on sizes are those of C44. |
| C88 | Parsing sees the plus sign and the digits only | the text is reduced to its candidate; plus signs and digits with separators are viable, have no extension, no second number and no letters (static analysis of the patterns); every later step works on the normalised digits; for the formatter an invariant on the characters in its state, with C38 for the digits | proved | `C88_same`, `C88_raw`, `C88_plain`, `C88_shown`, `C88_two` | Texts with an extension, with x or a tilde between the digits, or with ';' in the words are not covered. |
| C89 | A text with an extension is read as the number and the extension | the pattern's alternatives are a part without digits, a group of digits and number signs, so a match cannot begin before the last digit of the number, and the captured group is the run of digits behind the label; the labels of the specification are accepted by the alternatives (closed under capitals); the rest is C88 | proved | `C89_extension`, `C89_same`, `C89_raw`, `C89_verbatim` | Extensions longer than the label allows, and texts with ';' outside the label, are not covered. |
| C90 | String builders hold their texts, whatever memory they share | the heap is modelled with arrays and slices; invariant: slices are inside their arrays and no two builders have the same array; refinement to a list of texts by induction on the calls | proved | `C90_texts`, `C90_stale`, `C90_bytes` | Covers the calls with valid indices; with indices behind the text see C90_stale. The runtime's append and slices.Insert are modelled as documented (arguments are read before they are written). |
| C91 | Answers do not depend on what callers did with earlier results | writes are steps on the container, as the accessors return its tables; the answers are shown not to depend on the two code sets (induction over the writes); witnesses on the shipped data for the other two tables | partial | `C91_deleted`, `C91_written`, `C91_false`, `C91_codes_partial`, `C91_e164`, `C91_sets` | False as stated: the accessors return the library's own tables (C91_deleted, C91_written, C91_false). Proved: writes into the two sets of calling codes change no other answer (C91_codes_partial), and no write changes E164 output, the known codes or IsNANPACountry (C91_e164). |
| C92 | Comparing and checking texts sees the plus sign, the digits and the extension only | by C88 and C89 both texts have the same core result; what comes after parsing does not look at the number when there is an error; different extensions end the comparison at once | proved | `C92_one`, `C92_texts`, `C92_possible`, `C92_one_ext`, `C92_ext` |  |
| C93 | What the as-you-type formatter shows for a complete number is its INTERNATIONAL form | conditions on the rule lists, decided for the shipped metadata by derivatives of patterns: a rule that will apply is never dropped and no earlier rule is taken instead; an invariant of the formatter over the calls by what was typed: waiting for the code, rules listed, or given up (and then chosen afresh); C71 for what Format gives | proved | `C93_shown`, `C93_same`, `C93_no_rule` |  |
| C94 | What an as-you-type formatter shows depends only on the characters typed | commutation of every step with a change of the region, default metadata and positions, so that every state is that of a canonical run up to these fields; for two regions a relation between the two runs (before the calling code, after it, given up) kept by every character; an invariant for the positions | proved | `C94_history`, `C94_region`, `C94_shipped`, `C94_shipped_plus`, `C94_position`, `C94_region_matters` | C94_region_matters shows that without a plus sign the region does matter. |
| C95 | What is written as a protobuf message is read back | model of the wire format (varints, tags, lengths) with the field numbers and kinds of the generated files; the reader selects records by field number, so any arrangement of the records that keeps each field's own order reads the same; lemmas varint_write, record_write, parse_write, parse_append; texts through encode_decode of Verif/Utf8 | proved | `C95_number`, `C95_required`, `C95_required_collection`, `C95_injective`, `C95_parsed`, `C95_collection`, `C95_concat`, `C95_unknown` | The wire format is that of the protobuf runtime (a dependency, not in /repo), modelled from its specification; groups are rejected by the model. gzip is not modelled. |
| C96 | The embedded files load, and hold the metadata all other properties are about | the bytes are written out in Lean; the kernel reads them with a fast reader proved equal to the model of the wire format (Lemmas/WireFast), compares the texts entry by entry and compiles every pattern; parts are joined with parse_append | proved | `C96_collection`, `C96_short`, `C96_alternate`, `C96_load`, `C96_sizes` | gzip is not modelled: the bytes are those of the uncompressed files. The order of the association lists of the container is left open (SameContainer). |
| C97 | The written form of a parsed number identifies it | a parse result is a function of country code, national significant number and extension (C05, C08); E164 by C15/C13; RFC3966 by splitting at the semicolon and keeping the digits (C17_groups); fixpoint from C10/C65 with structural equality | proved | `C97_e164`, `C97_rfc3966`, `C97_fixed`, `C97_forms`, `C97_drifts` | For numbers that are not valid reading the written form may change the number (C97_drifts). |
| C98 | The phoneparser command answers every call | the command as a function from arguments to output and exit status; totality from C06 and the totality of the region search; the E164 line by C15; the repeated call by C97_fixed | proved | `C98_total`, `C98_output`, `C98_error`, `C98_again` | The output is what is written to the standard output; a failing write is not modelled. |
| C99 | The digits of a parsed number come from the text, in the way recorded | an inductive specification of the four ways (CodeFound) and of the removal of the national prefix (PrefixOff); case analysis of the extraction with its retry after a plus sign, using that no country code begins another (C13); the list of regions with rewriting rules is checked against all metadata | proved | `C99_raw`, `C99_parse`, `C99_plus`, `C99_noPlus`, `C99_suffix` | The regions with rewriting rules are listed in the theorem file (C99_suffix). |
| C100 | What the build command writes is what the library loads | messages of built entries; an invariant of the builder (every pattern is compiled from its text, texts stay valid, lengths are int32) composed with C95 (protocol buffers), C44 (region map), C52, C53 and C60; the loaded map has as many entries as the written one, so it is a permutation of it | proved | `C100_collection`, `C100_written`, `C100_load`, `C100_parse`, `C100_short`, `C100_code` | Compression and the XML decoder are not modelled. The compiler of patterns is the model's (`parseRe`), which knows the syntax used in the metadata. |
| C101 | A run of the build command that stops anywhere can be recognised and repaired, and a complete run leaves a library with the data of the sources | Model the command as the list of files it writes and a flag whether it came to its end; specify the disks that can be seen when a list of writes is stopped; prove which paths are written, that the version is last, and compose with C87 and C100 for the contents. | proved | `C101_files`, `C101_program`, `C101_tables`, `C101_done`, `C101_stop`, `C101_version`, `C101_again`, `C101_mixed`, `C101_stale`, `C101_release` | The compression is a parameter with an inverse; failing file operations are stops; `%q` on the version is taken to put quotes around it; the clone and `os.MkdirAll` are not modelled. |
| C102 | No call panics | An inductive type of requests with a constructor per function; the run of a request keeps the panic and drops the result. `Ret` (returns a value) is closed under sequencing; the finite facts about the shipped metadata (every description present, every length table non-empty, every supported code has metadata) discharge the leaves. | proved | `C102_returns`, `C102_needs_metadata` | C102_returns: every request returns. C102_needs_metadata: with a country lacking descriptions the same calls panic, so the facts about the shipped metadata are what is used. |
| C103 | A number written the way of its country is found in a text | The shape of what a rule writes is read off a sample in which every group is one digit and is kept when groups get longer (`Blows`). A static check on all rules (kernel) gives blocks, gaps and paired parentheses; the patterns of the matcher are run symbolically on that shape. The national prefix check follows from the parse of C66 in the main region and from a static check for the other regions of shared codes. | proved | `C103_written`, `C103_national` | C103_written: any number written in blocks with gaps and a pair of parentheses. C103_national: the NATIONAL form of every number valid for a region, at POSSIBLE and VALID. The grouping levels are not covered: national formats group some numbers in another way than the international formats the grouping is compared with. |
| C104 | All the numbers in a text are found | Generalise the symbolic run of the matcher pattern (C64) from 'no digits follow' to 'no digits follow before a character that neither the block loop nor the extension part can cross' (static check of all character classes). Induction over the list of numbers with the iterator. | proved | `C104_all`, `C104_forms` | C104_all: numbers written in blocks with or without plus sign, for any data. C104_forms: E164 and INTERNATIONAL forms with the shipped data, at all levels. Brackets before a number and extensions are not covered. |
| C105 | Names of carriers and areas come from the embedded files, by the longest prefix of all | The uncompressed bytes of the 42 files are in the model. A check of a file written with recursors is run by the kernel on each (in parts for the largest two) and proved to imply what the loader returns. Then C56, C57 and C49 apply. | proved | `C105_loads`, `C105_concurrent`, `C105_carrier`, `C105_area`, `C105_no_fallback` | C105_loads, C105_concurrent, C105_carrier, C105_area, C105_no_fallback. The bytes are those after gzip decompression, which is not modelled; messages with national number 0 and raw input are excluded for carriers (C56 shows the error). |
| C106 | A number written with an extension is found in a text, with its extension | The matcher pattern is taken apart into lead, block loop and extension; for each label a decidable check over the alternatives says which alternative takes it first and that the block loop does not (or, for labels of punctuation only, that it does); the digits after it are then run through greedily. The leniency checks of C86 are redone with the label and extension as a last group. | proved | `C106_written`, `C106_blocks`, `C106_international` | All four leniency levels. Excluded: a text after it that begins with '#', which the pattern takes as the end of an extension; numbers with one of the two ambiguous beginnings of C10; national number 0. Not covered: labels outside the list, extension at an auto-dialled ',,' or ';'. |
| C107 | All the numbers in a text are found, in whichever ways they are written | The text after a number ends it if neither the block loop nor the extension part of the pattern accepts a beginning of it. That holds up to a character that ends a number, and up to the next digit if there is a tab, comma or semicolon and no sign of a word: each extension alternative needs such a sign or cannot pass a comma, checked on the pattern. Then induction over the numbers, with the lemmas of C64, C86, C103 and C106 for each way of writing. The national prefix that VALID asks for is looked for in the digits of the text, which include the extension: a check of all rules shows that it is still seen. | proved | `C107_all`, `C107_forms` | Generalises C104 by extensions, forms used within a country and lists with commas. Excluded: a number sign directly after a number; the numbers excluded in C64, C86, C103 and C106. The NATIONAL form is covered at POSSIBLE and VALID. |
| C108 | A format or type that is none of the named constants | The functions are modelled once more on integers. On the values of the named constants they equal the functions on enumerations, by cases. On others each comparison fails and the branch of INTERNATIONAL, or of UNKNOWN, remains but for the prefix. | proved | `C108_named`, `C108_format`, `C108_pattern`, `C108_rest`, `C108_type` | Levels of the search outside the declared range are treated in C110. |
| C109 | National forms found at the levels that look at groups | For every pair of rules with the same pattern a static check over the shipped metadata compares the blocks of the two templates symbolically: the last blocks of the NATIONAL one are those of the other, and the first of them may begin with prefix digits. A lemma carries this over to the filled templates. A second check shows that the INTERNATIONAL rules are some of the NATIONAL ones in the same order, so a shared rule is chosen in both. Then the characterisation of the levels (C85) and the search theorem (C107) do the rest. | proved | `C109_found`, `C109_grouped`, `C109_exact`, `C109_noIntl`, `C109_shared`, `C109_kept`, `C109_strict`, `C109_forms` | Argentina and Gabon are left out; for Argentina the statement is false, as an example shows. Numbers whose rule is withheld from the INTERNATIONAL form need the grouping condition as a hypothesis, as in C109_found. |
| C110 | A level that is none of the named constants | The functions of the search that depend on the level are modelled once more on integers. On the values of the named levels they equal those on the enumeration, by induction on their loops. On others the check answers no, so each loop ends with nothing. | proved | `C110_named`, `C110_nothing`, `C110_total` | Complements C108, which treats formats and types. |
| C111 | A table that cannot be loaded | The step relation of C58 with the calls marked in which the loading function ran. Deferred functions run also on a panic, so the steps are the same and only the end of the marked call differs. An invariant counts the marked calls under way and ended; a measure that every step decreases, and the step the holder of the lock can always take, give that all calls can end. | proved | `C111_zones_loaded`, `C111_zones_failed`, `C111_zones_cause`, `C111_alternate_loaded`, `C111_alternate_failed`, `C111_alternate_panic`, `C111_ends`, `C111_bounded` | Decompression is not modelled: for the alternate formats a file that does not decompress is a separate case, for the time zones the file starts after it. |
| C112 | Shared tables keep no call waiting | The step relations of C48 and C49. Some goroutine in a call can always move (no deadlock); a measure that only calls increase and every other step decreases turns this into: all calls can end.  | proved | `C112_regex_ends`, `C112_regex_bounded`, `C112_prefixes_ends`, `C112_prefixes_bounded` | C111 has the same for the tables loaded once. The scheduler is not modelled: that every goroutine is scheduled again and again is an assumption on it. |
| C113 | How far a search goes | The function behind the iterator is modelled with the state of its consumer. Two searches that differ in the limit are run side by side: they do the same until the smaller limit is used up, and then that search has ended. The tries used are bounded loop by loop. | proved | `C113_range`, `C113_range_shipped`, `C113_first`, `C113_limit`, `C113_limit_shipped`, `C113_enough`, `C113_unlimited` | C43 has the other direction: how many pieces of text a limit allows to be tried. |
| C114 | Unsupported region codes are all alike | Without metadata a viable text must begin with a plus sign, the code behind it is found without the region (C09), and the number is finished with the metadata of the main region of that code, also under 001. Two searches that accept the same pieces of text find the same numbers. | proved | `C114_parse`, `C114_parse_shipped`, `C114_possible`, `C114_find`, `C114_find_shipped`, `C114_facts`, `C114_format`, `C114_format_shipped`, `C114_mobile`, `C114_mobile_shipped`, `C114_typing`, `C114_typing_shipped`, `C114_short`, `C114_short_shipped` | C09 compares ZZ with supported regions for texts that parse; here errors and searches are included. |
| C115 | Formatters of regions that share a calling code | False; a witness is evaluated. The states of two formatters are compared up to the fields that name the region. They agree at every step in which the search for a calling code does not distinguish the two regions. | partial | `C115_false`, `C115_partial`, `C115_national_partial`, `C115_national_shipped_partial`, `C115_shipped_partial` | False as stated: the formatter of the main region can keep the formats of another country (C115_false). Proved for all sequences of calls if neither region is the main region of a code, and for every two regions of a code as long as no international prefix is typed; C94 has every pair of regions after a plus sign. |
| C116 | Messages that read alike are treated alike | Relate two messages by what their getters answer. The digits of related messages are equal; each function is then followed through its reads, by induction for the loops, and copies with a changed field are related again. | proved | `C116_classify`, `C116_truncate`, `C116_short`, `C116_lookup`, `C116_match`, `C116_exact`, `C116_mobile`, `C116_format`, `C116_verify` | For any metadata and tables, not only the shipped ones. |
| C117 | The metadata of other countries does not matter | Relate two containers by what they hold for one calling code. The region found for a number is one of those listed for its code, or none; hence every piece of metadata looked at is the same in both. | proved | `C117_classify`, `C117_format`, `C117_abroad`, `C117_lookup`, `C117_short`, `C117_carrier_specific`, `C117_edit` | For any containers. Reading a text is not covered: which calling codes exist decides where the code ends. |

## 5. Findings: where the code does not do what one would expect

Each is a theorem or an `example` in the file of its property.

* C10: a valid Belarusian number whose national significant number begins like a national prefix does not survive E164 formatting and
  parsing; nor does a valid Japanese number beginning with 003768. For all other valid numbers the round trip is proved.
* C11: a message reused for a second parse keeps the extension and the number of leading zeros of the first.
* C12: in a `phone-context` corner the extension is not a piece of the input.
* C14: a domain context at index 0 of the input is read as the number itself; an empty `;isub=` is not dropped.
* C19: a hand-built message without a country code source is formatted as if it had none of the original's features.
* C20: mobile dialling returns the raw input for an unsupported country code and for national number 0.
* C23: with national number 0 and raw input the national destination code is cut from the raw input.
* C29: `TruncateTooLongNumber` answering false does not mean that no prefix of the number is valid.
* C31: the example for FIXED_LINE_OR_MOBILE in Switzerland is a FIXED_LINE number.
* C38: the as-you-type formatter loses or repeats digits (CO `04144144` shows `0414 4`; KR, JP, BR, AR have such inputs too), because
  `ableToExtractLongerNdd` cuts the national prefix without updating what it remembers.
* As-you-type with a full-width plus sign: the output is always the accrued input on the shipped metadata.
* C43: with `maxTries` 1 three pieces of text can be tried in vain; the counter goes two below zero.
* C44: a key of 2^42 or more makes the writer panic; more than 255 values for one key wrap around; C47: loaders ignore trailing bytes.
* C45: a number string that begins with `+0` aliases other keys.
* C46: if `math.Log10` rounds down at a power of ten, such a key is lost. The shipped file has none affected.
* C51: a malformed length item such as `7,x` is read as 0 where a refusal is expected; a huge range end does not terminate in practice.
* C52: an empty region id of a country code is skipped when it comes first and appended when it comes later.
* C56: the carrier lookup of the valid Tajik mobile number 000000000 with raw input fails with a conversion error.
* C58: when loading the time zone table fails only the first caller sees the real error text.
* C59: when all formats are marked `NA` the national formats are used internationally.
* C61: the exported leniency check panics on a hand-built number whose raw input has a hyphen after a semicolon.
* C62: EXACT_GROUPING is not stricter than STRICT_GROUPING. The E164 form of the all-zero Tajik number is rejected by STRICT_GROUPING
  because `Format` returns the raw input.
* C65: with an extension of ten digits the INTERNATIONAL form of a British number does not parse (`tooLong`).
* C66: the NATIONAL form of a valid number is read back as another number, with the number's own region as default, for: Argentina
  `+54 11 1546 8954` (written `011 1546-8954`; the `11 15` is taken for the mobile form and the number is kept with its leading 0);
  Gabon seven-digit numbers (`2080995` is written `02 08 09 95` and read as `02080995`); Bulgaria, Panama, Qatar and Thailand numbers
  beginning 00 (`00 800 838 0723` in Bulgaria is read as `+800 8380723`); Japan `0037 68…` (read without the first six digits).
* C68: `IsPossibleNumberForType` consults only the metadata of the main region of the country code. So a valid number can be reported as
  not possible for its own type: VoIP `+1 268 480 1234` and pager `+1 268 406 1234` (Antigua), UAN `+1 242 225 0123` (Bahamas), voicemail
  `+1 868 619 1234` (Trinidad), VoIP `+7 751 123 4567` (Kazakhstan). These are the only country codes and types with such numbers.
* C70: a number with letters that ends in a digit can be read differently from its converted form: the `X` of `800-FLOWERSX5` is taken for
  the label of an extension.
* C73: a carrier-specific number or SMS service need not be a valid short number: `40400`, the example of both in Afghanistan, is not.
  `IsCarrierSpecific` can answer false where `IsCarrierSpecificForRegion` answers true for a region of the code: `+44 1251`, because the home
  region is chosen by the short codes only.
* C76: what `FormatOutOfCountryCallingNumber` writes for a call from Hong Kong is read there as another number: `00 1 650-253-0000` is read
  as the Singapore number `+65 02530000`, because the preferred prefix `00` is a beginning of the longer prefix `001`. The seven-digit
  Canadian number `+1 3101234` is written `1 310-1234` in Barbados and read there as `+1 246 310 1234`.
* C78: a text without a country code is not compared with a number of a code that has no region: `IsNumberMatch("+800 1234 5678", "1234 5678")`
  is NOT_A_NUMBER although both texts are numbers, because `001` is no region to parse in.
* C79: for a number whose national number is 0 (`000000000` is a valid Tajik mobile number), `Format` returns the raw input instead of the
  INTERNATIONAL form, and `FormatInOriginalFormat` cuts off its first byte, believing it to be the plus sign: typed as `(992) 000000000`
  the number is shown as `992) 000000000`, and typed with a full-width first digit it is shown as a text that is not valid UTF-8
  (`C79_zero`).
* C80: valid numbers are misread when typed in their own region. Typed alone: +7 81085538605587 is read in RU as +855 38605587, and
  +375 8108210447 in BY as +82 10447 (`C80_needed_bare`), since 810 is the international prefix there. Typed after the national prefix 0:
  +250 06184855 in RW is read as +61 84855, +598 19871526 in UY as +7 1526, +972 1599404373 in IL as +994 04373; +57 3333015159 in CO
  and +54 1115468954 in AR keep the 0 as a part of the number (`C80_needed_prefix`).
* C82: FormatOutOfCountryKeepingAlphaChars looks for the first three digits of the number as they stand in the text, so a separator among
  them makes it miss the number: of +44 20 7031 3000, typed so, it writes 011 44 +44 20 7031 3000 for calls from the US, which Parse
  rejects (`C82_code_twice`). It drops `#` before it looks for an extension, so +1 650 253 0000 #123 becomes
  00 1 650 253 0000 123 ext. 123 from GB and 1 650 253 0000 123 within the plan (`C82_extension_twice`). It drops all digits other than
  the ASCII ones, so of a number typed with full-width digits only the lead remains (`C82_wide_digits`).
**C85 (behaviour).** The conditions show some surprises that come with the upstream library: with a country code in the text, STRICT_GROUPING looks for the groups after the first occurrence of the digits of the code, which may be inside an international prefix (`011 1 ...`) ; if the digits of the code do not stand together, only as many bytes as the code has digits, less one, are left out. EXACT_GROUPING accepts every text with a single block of digits.

**C87 (text files).** The reader of carrier and geocoding files tests whether the *trimmed* value is empty but stores the
*untrimmed* one: white space around a value, such as the carriage return of a Windows line end, becomes part of the carrier or
place name (`C87_cases`). A line with a second `|` is dropped without a word there but is an error in the time zone file; a
repeated prefix is an error there but silently overwrites in the time zone file. A negative prefix in the time zone file is
accepted by the reader and then makes the builder panic (`C87_zones_negative`).

**C88 (separators).** With fewer than three digits a separator matters: "12" is read as a number, "1 2" is not a number
(`C88_two`). The pattern for very short numbers has no separators.

**C89 (digits of extensions).** The digits of an extension are kept as they are written, those of the number are normalised. So
"+41446681800 ext. 12" written with Arabic-Indic digits in the extension does not match the text with ASCII digits, although with
Arabic-Indic digits in the number it matches exactly (`C89_verbatim`).

**C90 (indices behind the text).** stringbuilder.go 116-118 says that the Java-like methods panic when an index is out of range. Go checks
slices against the capacity, so `Substring` and `Delete` with an index between the length and the capacity do not panic:
`Substring(0, 6)` after `NewString("secret")` and `Reset()` is "secret", and `Delete(6, 0)` brings the text back (`C90_stale`). No caller
in /repo uses such an index.

**C91 (returned collections are the library's own).** `GetSupportedRegions`, `GetSupportedCallingCodes`,
`GetSupportedGlobalNetworkCallingCodes` and `GetRegionCodesForCountryCode` return the tables the library itself uses, without a copy and
without a warning in their documentation. A caller that filters the returned map in place, e.g. `delete(GetSupportedRegions(), "CH")` for
a drop-down box, makes `Parse("044 668 18 00", "CH")` fail with ErrInvalidCountryCode from then on (`C91_deleted`), and a write to
`GetRegionCodesForCountryCode(41)[0]` makes Swiss numbers invalid (`C91_written`); with other goroutines it is a data race. The same holds,
by reading, of the slices returned by `timezone.GetTimeZonesForNumber`. The two code sets are only handed out, never read by the library
(`C91_codes_partial`).
**C93 (numbers without a rule).** When no layout rule can be used for a complete number the formatter and `Format` can differ.
`Format` gives "+678 22123" for a landline in Vanuatu, the formatter shows "+67822123" (`C93_no_rule`). Both are readable, but a
display that switches from one to the other changes. The same happens for short landlines in Zambia, Tokelau, Saint Helena,
Solomon Islands, Kiribati and the Falkland Islands (35 of the 1144 example numbers; sampled, not a theorem).
**C97: storing the E164 form of a number that is not valid may change it at every round.** `Parse("+44 00001234567")` gives the national significant number 0001234567, whose E164 form `+440001234567` is read as 001234567: the national prefix 0 is removed once more at every reading, as long as enough digits are left. For valid numbers this cannot happen (C97_fixed).
C101 (cmd/buildmetadata): the files of a release are replaced one after the other. As soon as the first is written the main metadata are of the new release while the region map, the short numbers, the tables and `metadata.Version` are still of the old one (`C101_mixed`), and an error in a later source leaves the working directory like that. The tables of a language that upstream has dropped are never removed and stay embedded through `data/*.gz` (`C101_stale`).
**C105 (languages are file names).** There is no fallback: `en-US`, `he` and `zh-Hant` have no names (the files are `en`, `iw`, `zh_Hant`); the result is an empty carrier name or the country name, not an error.
**C108 (an undeclared format drops the country calling code).** `Format(n, 7)` gives the INTERNATIONAL grouping without plus sign and country calling code and without national prefix: a text that is neither of the two documented forms and cannot be dialled as it stands. Nothing reports the wrong value.
**C109 (Argentine mobile numbers at EXACT_GROUPING).** The library writes the Argentine mobile number +54 9 11 2345 6789 in NATIONAL form as `011 15-2345-6789`, because its rule drops the 9 and puts in a 15. A search in a text with this very form finds it at VALID, but not at EXACT_GROUPING, as its blocks are not the groups of the number.
**C110 (an undeclared level silently finds nothing).** `FindNumbersWithLeniency(text, region, 4, n)` returns no number from any text, and nothing reports the wrong value. The same holds for negative values, which skip the check of the neighbouring characters like POSSIBLE and then accept nothing.
**C111 (a failed load is reported once and then forgotten).** If the alternate-format data does not decode, the first search at STRICT_GROUPING or EXACT_GROUPING that needs it panics; a program that recovers from it goes on with an empty table, so that later searches silently refuse numbers written in an alternate format. If the time zone file does not load, every lookup but the first fails with the text `error loading timezone map: <nil>`. Neither happens with the shipped files.
**C114 (region codes in lower case).** Region codes are compared literally, so "us" is unsupported: a number in the national form is rejected under it with ErrInvalidCountryCode, and IsValidNumberForRegion is false for every number. ConnectsToEmergencyNumber("112", "de") is false. "001" is not listed as a supported region either, but IsValidNumberForRegion accepts it for numbers of the non-geographic codes.
**C115 (formats of the wrong country).** When an as-you-type formatter gives up a grouping and looks for the calling code again, it changes the metadata only if the code found belongs to a region other than its own. If the first attempt had found another country, the formats of that country stay in use. Typing 00553582070313000 into the formatter of FI shows `0055 358 20 70313-000`, the Brazilian grouping behind the Finnish code; the formatter of AX, with the same code and the same formats, shows `0055 358 20 70313000`.

## 6. Validation of the model and of the theorems

* Validation against the repository's tests: a script reads the `_test.go` files as text and extracts the literal calls with their expected
  results. The model (with the test metadata built from `testdata/PhoneNumberMetadataForTesting.xml` through the modelled builder) was run on
  them: 1258 expectations agree, none disagrees. 8 further reports were traced to the extraction (comparison of `len()` with a list; messages
  changed through a pointer), 33 were skipped (stepwise iteration, closures). All 33 as-you-type sequences and the matcher tables are included.
* Seeded bugs: `seeded/LOG.jsonl` has one line per edit of the model made in a scratch copy, with the theorems that failed and those tightened
  in consequence.


## 7. Axioms per theorem

Output of `#print axioms` for all 524 theorems of the manifest, grouped. No theorem uses `sorryAx`, `Lean.ofReduceBool` or an axiom
of this project.

* none (3): `C33_ignored`, `C34_shipped_noAnchor`, `C96_sizes`

* `propext` (6): `C45_no_data`, `C50_not_nested`, `C59_format`, `C59_all_na`, `C90_stale`, `C90_bytes`

* `Quot.sound`, `propext` (182): `C01_transcript`, `C01_unique`, `C01_allDigits`, `C01_idempotent`, `C01_append`, `C04_digits`, `C06_no_panic`, `C06_no_panic_reuse`, `C06_shipped`, `C10_needed`, `C11_false`, `C11_false_zeros`, `C12_false`, `C13_not_extracted`, `C14_isub_false`, `C15_ignores`, `C15_raw`, `C18_nsn`, `C18_variants`, `C19_no_source`, `C20_false_unsupported`, `C20_false_zeros`, `C21_unsupported_region`, `C21_unsupported_code`, `C21_nanpa`, `C21_same`, `C22_own`, `C22_fallback`, `C22_argument_only`, `C22_none`, `C22_no_rule`, `C23_ndc_false`, `C24_unsupported`, `C26_valid_iff_type`, `C27_code`, `C27_listed`, `C27_total`, `C28_region`, `C28_listed`, `C28_number`, `C28_main`, `C29_incomplete`, `C30_type`, `C30_number`, `C31_false`, `C32_numbers`, `C32_strings`, `C32_shipped`, `C33_iff`, `C33_trans`, `C33_extensions`, `C33_codes`, `C35_none`, `C35_one`, `C35_worst`, `C35_region_unknown`, `C36_possible_region_iff`, `C36_possible_iff`, `C36_no_empty_region`, `C43_none`, `C44_order`, `C44_order_array`, `C44_large_key`, `C47_any`, `C47_trailing`, `C49_consistent`, `C49_cache`, `C49_cached`, `C49_stable`, `C49_no_race`, `C49_loader`, `C50_nested`, `C52_exact`, `C52_regions`, `C53_fails`, `C53_tables`, `C53_order`, `C54_unsupported`, `C56_raw_fails`, `C58_complete`, `C58_no_race`, `C58_once`, `C58_timezones`, `C58_alternate`, `C61_verify_panics`, `C62_grouping_valid`, `C62_exact_not_strict`, `C62_strict_not_exact`, `C65_extension_bound`, `C66_needed`, `C67_never`, `C68_needed`, `C70_end_needed`, `C73_not_valid`, `C73_home_differs`, `C76_hongkong`, `C76_seven_digits`, `C78_nonGeo`, `C79_zero`, `C80_needed_bare`, `C80_needed_prefix`, `C82_part`, `C82_noText`, `C82_unknown`, `C82_code_twice`, `C82_extension_twice`, `C82_wide_digits`, `C83_unknown`, `C83_codes`, `C83_order`, `C85_cases`, `C87_cases`, `C88_two`, `C89_verbatim`, `C91_deleted`, `C91_written`, `C91_false`, `C91_codes_partial`, `C91_e164`, `C91_sets`, `C93_no_rule`, `C94_region_matters`, `C95_required`, `C95_required_collection`, `C95_concat`, `C96_collection`, `C96_short`, `C96_alternate`, `C96_load`, `C97_drifts`, `C98_error`, `C101_files`, `C101_done`, `C101_stop`, `C101_version`, `C101_again`, `C101_mixed`, `C102_needs_metadata`, `C108_named`, `C108_format`, `C108_pattern`, `C108_rest`, `C108_type`, `C109_noIntl`, `C109_shared`, `C110_named`, `C110_nothing`, `C111_zones_loaded`, `C111_zones_failed`, `C111_alternate_loaded`, `C111_alternate_failed`, `C111_bounded`, `C112_regex_bounded`, `C112_prefixes_bounded`, `C113_range`, `C113_first`, `C113_limit`, `C113_enough`, `C114_facts`, `C114_format`, `C114_format_shipped`, `C114_mobile`, `C114_mobile_shipped`, `C114_short`, `C114_short_shipped`, `C115_false`, `C116_classify`, `C116_truncate`, `C116_short`, `C116_lookup`, `C116_match`, `C116_exact`, `C116_mobile`, `C116_format`, `C116_verify`, `C117_classify`, `C117_format`, `C117_abroad`, `C117_lookup`, `C117_short`, `C117_carrier_specific`, `C117_edit`

* `Classical.choice`, `Quot.sound`, `propext` (333): `C02_filter`, `C03_map`, `C03_length`, `C03_kept`, `C03_letter`, `C03_keypad_total`, `C03_idempotent`, `C04_shape`, `C04_length`, `C05_store`, `C07_same`, `C07_reuse`, `C08_parsed`, `C08_shipped`, `C09_any_region`, `C09_any_region_raw`, `C09_shipped`, `C10_roundtrip`, `C10_valid`, `C11_exact_partial`, `C11_clean_partial`, `C12_shape_partial`, `C12_occurs_partial`, `C12_separate`, `C13_extracted`, `C13_unique`, `C13_parse`, `C13_shipped`, `C14_reject`, `C14_analysed`, `C14_total`, `C14_plus`, `C14_domain`, `C14_isub_partial`, `C14_domain_false`, `C15_shape`, `C15_only_digits`, `C15_identifies`, `C15_shipped`, `C16_digits`, `C16_shipped`, `C17_shape`, `C17_groups`, `C17_shipped`, `C18_e164`, `C19_any`, `C19_parsed`, `C19_shipped`, `C20_diallable_partial`, `C20_shipped_partial`, `C21_abroad`, `C21_shipped`, `C23_ndc_partial`, `C23_ndc_shipped_partial`, `C23_area`, `C23_area_shipped`, `C24_length`, `C24_type`, `C24_number`, `C25_valid_possible`, `C25_shipped`, `C26_shipped`, `C27_shipped`, `C28_shipped`, `C29_true`, `C29_false`, `C29_total`, `C31_example_partial`, `C31_shipped_partial`, `C31_exists`, `C31_fixedLineOrMobile`, `C32_refl`, `C33_nsn_iff`, `C33_short`, `C34_is_iff`, `C34_connects_iff`, `C34_implies`, `C34_plus`, `C34_exact`, `C34_append`, `C35_region`, `C35_total`, `C36_valid_region_iff`, `C36_valid_iff`, `C36_region`, `C36_general`, `C36_shipped`, `C37_clear`, `C37_run`, `C38_no_panic`, `C38_false`, `C38_digits_partial`, `C39_frozen`, `C39_no_panic`, `C40_inside`, `C41_offsets`, `C41_ordered`, `C42_possible`, `C42_valid`, `C42_number`, `C43_terminates`, `C43_bound`, `C44_prefix`, `C44_array`, `C45_lookup`, `C45_determined`, `C45_unlimited`, `C45_carrier`, `C46_lookup`, `C46_number`, `C46_shipped`, `C46_rounding`, `C47_prefix`, `C47_array`, `C48_transparent`, `C48_cache`, `C48_no_race`, `C48_no_deadlock`, `C49_no_deadlock`, `C51_syntax`, `C51_short_range`, `C51_order`, `C51_tables`, `C51_exact`, `C51_accepts`, `C52_keys`, `C52_main_first`, `C52_no_main`, `C52_shipped`, `C54_invalid`, `C54_shipped`, `C55_example`, `C55_none`, `C56_name`, `C56_shipped`, `C57_country`, `C57_shipped`, `C59_intl`, `C59_national`, `C60_descs`, `C60_lengths`, `C60_parse`, `C60_tables`, `C61_no_panic`, `C61_verify`, `C62_possible`, `C62_found`, `C63_neighbours`, `C63_brackets`, `C63_pages`, `C64_written`, `C64_e164`, `C65_international`, `C65_rfc3966`, `C65_international_valid`, `C65_rfc3966_valid`, `C66_national_valid`, `C66_own_region`, `C67_listed`, `C67_inhabited`, `C67_inhabited_nonGeo`, `C68_valid_possible`, `C69_international`, `C69_parsed`, `C69_national`, `C70_letters`, `C70_few`, `C70_isAlpha`, `C70_isAlpha_only`, `C70_digits`, `C71_format`, `C71_shipped`, `C71_carrier`, `C71_unique`, `C71_cut`, `C72_userRules`, `C72_shipped`, `C72_none`, `C73_carrier_region_iff`, `C73_sms_region_iff`, `C73_carrier_iff`, `C73_possible`, `C73_emergency`, `C73_cost`, `C73_carrier_shipped`, `C74_region`, `C74_valid`, `C74_shipped`, `C75_ndc`, `C75_geographical`, `C75_area`, `C75_dialled`, `C75_shipped`, `C76_abroad`, `C76_unsupported`, `C76_home`, `C76_nanpa`, `C77_abroad`, `C77_abroad_nothing`, `C77_home`, `C77_brazil`, `C77_nonGeo`, `C78_texts`, `C78_e164`, `C78_one_exact`, `C78_one_nsn`, `C79_plus`, `C79_idd`, `C79_noPlus`, `C79_default`, `C79_international`, `C79_national`, `C79_abroad`, `C80_bare`, `C80_prefix`, `C80_nanpa`, `C81_iff`, `C81_valid`, `C81_written`, `C81_typed`, `C82_nanpa`, `C82_home`, `C82_abroad`, `C82_reads_letters`, `C82_reads_digits`, `C82_reads_nanpa`, `C83_example`, `C83_fixedLine`, `C84_user`, `C84_only`, `C85_valid`, `C85_strict`, `C85_exact`, `C85_grouping`, `C85_found`, `C86_written`, `C86_international`, `C87_reads`, `C87_table`, `C87_loaded`, `C87_lookup`, `C87_zones_read`, `C87_zones_table`, `C87_zones_loaded`, `C87_zones_negative`, `C88_same`, `C88_raw`, `C88_plain`, `C88_shown`, `C89_extension`, `C89_same`, `C89_raw`, `C90_texts`, `C92_one`, `C92_texts`, `C92_possible`, `C92_one_ext`, `C92_ext`, `C93_shown`, `C93_same`, `C94_history`, `C94_region`, `C94_shipped`, `C94_shipped_plus`, `C94_position`, `C95_number`, `C95_injective`, `C95_parsed`, `C95_collection`, `C95_unknown`, `C97_e164`, `C97_rfc3966`, `C97_fixed`, `C97_forms`, `C98_total`, `C98_output`, `C98_again`, `C99_raw`, `C99_parse`, `C99_plus`, `C99_noPlus`, `C99_suffix`, `C100_collection`, `C100_written`, `C100_load`, `C100_parse`, `C100_short`, `C100_code`, `C101_program`, `C101_tables`, `C101_stale`, `C101_release`, `C102_returns`, `C103_written`, `C103_national`, `C104_all`, `C104_forms`, `C105_loads`, `C105_concurrent`, `C105_carrier`, `C105_area`, `C105_no_fallback`, `C106_written`, `C106_blocks`, `C106_international`, `C107_all`, `C107_forms`, `C109_found`, `C109_grouped`, `C109_exact`, `C109_kept`, `C109_strict`, `C109_forms`, `C110_total`, `C111_zones_cause`, `C111_alternate_panic`, `C111_ends`, `C112_regex_ends`, `C112_prefixes_ends`, `C113_range_shipped`, `C113_limit_shipped`, `C113_unlimited`, `C114_parse`, `C114_parse_shipped`, `C114_possible`, `C114_find`, `C114_find_shipped`, `C114_typing`, `C114_typing_shipped`, `C115_partial`, `C115_national_partial`, `C115_national_shipped_partial`, `C115_shipped_partial`
