{
 "claims": [
  {
   "property": "C01",
   "status": "proved",
   "theorems": [
    "Verif.Props.C01_transcript",
    "Verif.Props.C01_unique",
    "Verif.Props.C01_allDigits",
    "Verif.Props.C01_idempotent",
    "Verif.Props.C01_append"
   ],
   "note": ""
  },
  {
   "property": "C02",
   "status": "proved",
   "theorems": [
    "Verif.Props.C02_filter"
   ],
   "note": ""
  },
  {
   "property": "C03",
   "status": "proved",
   "theorems": [
    "Verif.Props.C03_map",
    "Verif.Props.C03_length",
    "Verif.Props.C03_kept",
    "Verif.Props.C03_letter",
    "Verif.Props.C03_keypad_total",
    "Verif.Props.C03_idempotent"
   ],
   "note": ""
  },
  {
   "property": "C04",
   "status": "proved",
   "theorems": [
    "Verif.Props.C04_shape",
    "Verif.Props.C04_length",
    "Verif.Props.C04_digits"
   ],
   "note": ""
  },
  {
   "property": "C05",
   "status": "proved",
   "theorems": [
    "Verif.Props.C05_store"
   ],
   "note": ""
  },
  {
   "property": "C06",
   "status": "proved",
   "theorems": [
    "Verif.Props.C06_no_panic",
    "Verif.Props.C06_no_panic_reuse",
    "Verif.Props.C06_shipped"
   ],
   "note": "For any metadata whose entries carry a general description with lengths; unconditional for the shipped metadata (C06_shipped)."
  },
  {
   "property": "C07",
   "status": "proved",
   "theorems": [
    "Verif.Props.C07_same",
    "Verif.Props.C07_reuse"
   ],
   "note": ""
  },
  {
   "property": "C08",
   "status": "proved",
   "theorems": [
    "Verif.Props.C08_parsed",
    "Verif.Props.C08_shipped"
   ],
   "note": "Generic theorem under checked well-formedness; C08_shipped is unconditional for the shipped metadata."
  },
  {
   "property": "C09",
   "status": "proved",
   "theorems": [
    "Verif.Props.C09_any_region",
    "Verif.Props.C09_any_region_raw",
    "Verif.Props.C09_shipped"
   ],
   "note": "C09_shipped is unconditional for the shipped metadata."
  },
  {
   "property": "C10",
   "status": "proved",
   "theorems": [
    "Verif.Props.C10_roundtrip",
    "Verif.Props.C10_valid",
    "Verif.Props.C10_needed"
   ],
   "note": "C10_valid settles the round trip for every valid number of every shipped country code, except Belarusian numbers beginning with 8 and Japanese numbers beginning with 003768; C10_needed shows for both that the exception cannot be dropped."
  },
  {
   "property": "C11",
   "status": "partial",
   "theorems": [
    "Verif.Props.C11_false",
    "Verif.Props.C11_false_zeros",
    "Verif.Props.C11_exact_partial",
    "Verif.Props.C11_clean_partial"
   ],
   "note": "The property is false of the code: C11_false and C11_false_zeros give witnesses (stale extension, stale leading-zero count). The _partial theorems say when the reused message agrees with a fresh one."
  },
  {
   "property": "C12",
   "status": "partial",
   "theorems": [
    "Verif.Props.C12_false",
    "Verif.Props.C12_shape_partial",
    "Verif.Props.C12_occurs_partial",
    "Verif.Props.C12_separate"
   ],
   "note": "The property is false in a corner of RFC 3966 phone-context input (C12_false). Shape of the extension, and occurrence in the input when there is no phone-context, are proved."
  },
  {
   "property": "C13",
   "status": "proved",
   "theorems": [
    "Verif.Props.C13_extracted",
    "Verif.Props.C13_not_extracted",
    "Verif.Props.C13_unique",
    "Verif.Props.C13_parse",
    "Verif.Props.C13_shipped"
   ],
   "note": "C13_shipped is unconditional for the shipped metadata."
  },
  {
   "property": "C14",
   "status": "partial",
   "theorems": [
    "Verif.Props.C14_reject",
    "Verif.Props.C14_analysed",
    "Verif.Props.C14_total",
    "Verif.Props.C14_plus",
    "Verif.Props.C14_domain",
    "Verif.Props.C14_isub_partial",
    "Verif.Props.C14_isub_false",
    "Verif.Props.C14_domain_false"
   ],
   "note": "False in two corners, each with a witness: a valid domain context at the very beginning of the input is read as the number (C14_domain_false), and an empty ;isub= is not dropped (C14_isub_false). Everything else is proved: C14_reject, C14_analysed and C14_total describe every input, C14_plus, C14_domain and C14_isub_partial are the API-level consequences."
  },
  {
   "property": "C15",
   "status": "proved",
   "theorems": [
    "Verif.Props.C15_shape",
    "Verif.Props.C15_only_digits",
    "Verif.Props.C15_ignores",
    "Verif.Props.C15_raw",
    "Verif.Props.C15_identifies",
    "Verif.Props.C15_shipped"
   ],
   "note": ""
  },
  {
   "property": "C16",
   "status": "proved",
   "theorems": [
    "Verif.Props.C16_digits",
    "Verif.Props.C16_shipped"
   ],
   "note": ""
  },
  {
   "property": "C17",
   "status": "proved",
   "theorems": [
    "Verif.Props.C17_shape",
    "Verif.Props.C17_groups",
    "Verif.Props.C17_shipped"
   ],
   "note": ""
  },
  {
   "property": "C18",
   "status": "proved",
   "theorems": [
    "Verif.Props.C18_nsn",
    "Verif.Props.C18_e164",
    "Verif.Props.C18_variants"
   ],
   "note": ""
  },
  {
   "property": "C19",
   "status": "proved",
   "theorems": [
    "Verif.Props.C19_any",
    "Verif.Props.C19_parsed",
    "Verif.Props.C19_shipped",
    "Verif.Props.C19_no_source"
   ],
   "note": "Stated for every message obtained by parsing with raw input kept. C19_no_source records that a hand-built message without a country code source is not covered by the property."
  },
  {
   "property": "C20",
   "status": "partial",
   "theorems": [
    "Verif.Props.C20_diallable_partial",
    "Verif.Props.C20_shipped_partial",
    "Verif.Props.C20_false_unsupported",
    "Verif.Props.C20_false_zeros"
   ],
   "note": "False as stated in two corners (witnesses C20_false_unsupported, C20_false_zeros): the raw input is returned for an unsupported country code and for national number 0. Proved for every other number."
  },
  {
   "property": "C21",
   "status": "proved",
   "theorems": [
    "Verif.Props.C21_unsupported_region",
    "Verif.Props.C21_unsupported_code",
    "Verif.Props.C21_nanpa",
    "Verif.Props.C21_same",
    "Verif.Props.C21_abroad",
    "Verif.Props.C21_shipped"
   ],
   "note": ""
  },
  {
   "property": "C22",
   "status": "proved",
   "theorems": [
    "Verif.Props.C22_own",
    "Verif.Props.C22_fallback",
    "Verif.Props.C22_argument_only",
    "Verif.Props.C22_none",
    "Verif.Props.C22_no_rule"
   ],
   "note": ""
  },
  {
   "property": "C23",
   "status": "partial",
   "theorems": [
    "Verif.Props.C23_ndc_partial",
    "Verif.Props.C23_ndc_shipped_partial",
    "Verif.Props.C23_ndc_false",
    "Verif.Props.C23_area",
    "Verif.Props.C23_area_shipped"
   ],
   "note": "False for a message whose national number is 0 and that carries raw input (witness C23_ndc_false): Format returns the raw input, so the pieces are not bounded by the national significant number. Proved for every other message, and the area code bound holds without exception."
  },
  {
   "property": "C24",
   "status": "proved",
   "theorems": [
    "Verif.Props.C24_length",
    "Verif.Props.C24_type",
    "Verif.Props.C24_number",
    "Verif.Props.C24_unsupported"
   ],
   "note": "Generic under checked well-formed length tables, which hold for the shipped metadata (Data.wf_lengthTables)."
  },
  {
   "property": "C25",
   "status": "proved",
   "theorems": [
    "Verif.Props.C25_valid_possible",
    "Verif.Props.C25_shipped"
   ],
   "note": "C25_shipped is unconditional for the shipped metadata."
  },
  {
   "property": "C26",
   "status": "proved",
   "theorems": [
    "Verif.Props.C26_valid_iff_type",
    "Verif.Props.C26_shipped"
   ],
   "note": "C26_shipped is unconditional for the shipped metadata."
  },
  {
   "property": "C27",
   "status": "proved",
   "theorems": [
    "Verif.Props.C27_code",
    "Verif.Props.C27_listed",
    "Verif.Props.C27_shipped",
    "Verif.Props.C27_total"
   ],
   "note": "C27_code needs no assumption; C27_shipped adds that the region is listed."
  },
  {
   "property": "C28",
   "status": "proved",
   "theorems": [
    "Verif.Props.C28_region",
    "Verif.Props.C28_listed",
    "Verif.Props.C28_number",
    "Verif.Props.C28_main",
    "Verif.Props.C28_shipped"
   ],
   "note": "C28_shipped is unconditional for the shipped metadata."
  },
  {
   "property": "C29",
   "status": "proved",
   "theorems": [
    "Verif.Props.C29_true",
    "Verif.Props.C29_false",
    "Verif.Props.C29_total",
    "Verif.Props.C29_incomplete"
   ],
   "note": "C29_incomplete records a finding: a false result does not mean that no prefix is valid."
  },
  {
   "property": "C30",
   "status": "proved",
   "theorems": [
    "Verif.Props.C30_type",
    "Verif.Props.C30_number"
   ],
   "note": "Generic for metadata entries with all descriptions, which holds for the shipped metadata (Data.wf_allDescs)."
  },
  {
   "property": "C31",
   "status": "partial",
   "theorems": [
    "Verif.Props.C31_example_partial",
    "Verif.Props.C31_shipped_partial",
    "Verif.Props.C31_exists",
    "Verif.Props.C31_fixedLineOrMobile",
    "Verif.Props.C31_false"
   ],
   "note": "Every supported region and every type: the example exists whenever the metadata has one, is valid, and has the requested type or FIXED_LINE_OR_MOBILE (whole shipped table, kernel-checked). False for a request of FIXED_LINE_OR_MOBILE: C31_false (CH gets a FIXED_LINE number); C31_fixedLineOrMobile says what holds instead."
  },
  {
   "property": "C32",
   "status": "proved",
   "theorems": [
    "Verif.Props.C32_numbers",
    "Verif.Props.C32_refl",
    "Verif.Props.C32_strings",
    "Verif.Props.C32_shipped"
   ],
   "note": "C32_shipped is unconditional for the shipped metadata."
  },
  {
   "property": "C33",
   "status": "proved",
   "theorems": [
    "Verif.Props.C33_iff",
    "Verif.Props.C33_trans",
    "Verif.Props.C33_extensions",
    "Verif.Props.C33_ignored",
    "Verif.Props.C33_codes",
    "Verif.Props.C33_nsn_iff",
    "Verif.Props.C33_short"
   ],
   "note": ""
  },
  {
   "property": "C34",
   "status": "proved",
   "theorems": [
    "Verif.Props.C34_is_iff",
    "Verif.Props.C34_connects_iff",
    "Verif.Props.C34_implies",
    "Verif.Props.C34_plus",
    "Verif.Props.C34_exact",
    "Verif.Props.C34_append",
    "Verif.Props.C34_shipped_noAnchor"
   ],
   "note": ""
  },
  {
   "property": "C35",
   "status": "proved",
   "theorems": [
    "Verif.Props.C35_none",
    "Verif.Props.C35_one",
    "Verif.Props.C35_worst",
    "Verif.Props.C35_region_unknown",
    "Verif.Props.C35_region",
    "Verif.Props.C35_total"
   ],
   "note": ""
  },
  {
   "property": "C36",
   "status": "proved",
   "theorems": [
    "Verif.Props.C36_valid_region_iff",
    "Verif.Props.C36_possible_region_iff",
    "Verif.Props.C36_possible_iff",
    "Verif.Props.C36_valid_iff",
    "Verif.Props.C36_region",
    "Verif.Props.C36_general",
    "Verif.Props.C36_no_empty_region",
    "Verif.Props.C36_shipped"
   ],
   "note": ""
  },
  {
   "property": "C37",
   "status": "proved",
   "theorems": [
    "Verif.Props.C37_clear",
    "Verif.Props.C37_run"
   ],
   "note": "For every metadata container, region and call history: after Clear every later call sequence yields exactly the outputs and remembered positions of a fresh formatter; histories are calls that did not panic."
  },
  {
   "property": "C38",
   "status": "partial",
   "theorems": [
    "Verif.Props.C38_no_panic",
    "Verif.Props.C38_false",
    "Verif.Props.C38_digits_partial"
   ],
   "note": "C38_no_panic: no sequence of calls panics, on the shipped metadata, for every region. C38_false: the digits part is false of the code (CO, 04144144 shows 0414 4). C38_digits_partial: digits kept for all input typed with a leading plus and for all regions other than AR, BR, CO, JP, KR."
  },
  {
   "property": "C39",
   "status": "proved",
   "theorems": [
    "Verif.Props.C39_frozen",
    "Verif.Props.C39_no_panic"
   ],
   "note": "For every metadata container, region and call history; also that no later call can panic once formatting is off for good."
  },
  {
   "property": "C40",
   "status": "proved",
   "theorems": [
    "Verif.Props.C40_inside"
   ],
   "note": "For every metadata container, region and call history: GetRememberedPosition does not panic and is at most the number of characters of the output."
  },
  {
   "property": "C41",
   "status": "proved",
   "theorems": [
    "Verif.Props.C41_offsets",
    "Verif.Props.C41_ordered"
   ],
   "note": "Every match found by FindNumbers is exactly the piece of text between its byte offsets, non-empty and inside the text; matches are ordered and disjoint; for every text, region, leniency, limit and metadata."
  },
  {
   "property": "C42",
   "status": "proved",
   "theorems": [
    "Verif.Props.C42_possible",
    "Verif.Props.C42_valid",
    "Verif.Props.C42_number"
   ],
   "note": "Matches at POSSIBLE are possible numbers, at VALID or stricter valid numbers, and each is what parsing the matched piece alone gives; for every text and metadata."
  },
  {
   "property": "C43",
   "status": "proved",
   "theorems": [
    "Verif.Props.C43_terminates",
    "Verif.Props.C43_bound",
    "Verif.Props.C43_none"
   ],
   "note": "The search ends for every text (turns bounded by the text length); with maxTries k at most k candidates are passed over and at most k+2 plus one per match pieces parsed in vain; k <= 0 gives nothing. The counter may go two below zero: shown by an example."
  },
  {
   "property": "C44",
   "status": "proved",
   "theorems": [
    "Verif.Props.C44_prefix",
    "Verif.Props.C44_array",
    "Verif.Props.C44_order",
    "Verif.Props.C44_order_array",
    "Verif.Props.C44_large_key"
   ],
   "note": "Bytes before compression; gzip itself is not modelled. Holds for keys below 2^42 (the six-byte varint buffer; larger keys make the writer panic, C44_large_key), at most 65535 distinct values and a table below 4 GB. digitCount (math.Log10) is a parameter."
  },
  {
   "property": "C45",
   "status": "proved",
   "theorems": [
    "Verif.Props.C45_lookup",
    "Verif.Props.C45_determined",
    "Verif.Props.C45_unlimited",
    "Verif.Props.C45_no_data",
    "Verif.Props.C45_carrier"
   ],
   "note": "For every map, every digit string and every limit up to 19 characters; C45_carrier instantiates it at GetNameForValidNumber. Strings beginning with +0 alias keys (numbers, not strings, are compared)."
  },
  {
   "property": "C46",
   "status": "proved",
   "theorems": [
    "Verif.Props.C46_lookup",
    "Verif.Props.C46_number",
    "Verif.Props.C46_shipped",
    "Verif.Props.C46_rounding"
   ],
   "note": "C46_number holds for every map and metadata; C46_shipped for every message on the shipped metadata and the shipped time zone file, which is included as raw bytes and checked by the kernel. digitCount (math.Log10) is a parameter assumed exact except at powers of ten, where it may be one less; C46_rounding shows that this would lose a power-of-ten key."
  },
  {
   "property": "C47",
   "status": "proved",
   "theorems": [
    "Verif.Props.C47_prefix",
    "Verif.Props.C47_array",
    "Verif.Props.C47_any",
    "Verif.Props.C47_trailing"
   ],
   "note": "Every strict prefix of the uncompressed bytes is rejected by both loaders; C47_any gives the general form for every byte string accepted. C47_trailing records that bytes after the last entry are ignored."
  },
  {
   "property": "C48",
   "status": "proved",
   "theorems": [
    "Verif.Props.C48_transparent",
    "Verif.Props.C48_cache",
    "Verif.Props.C48_no_race",
    "Verif.Props.C48_no_deadlock"
   ],
   "note": "State machine with one step per lock operation and map access (sync.RWMutex by its specification); invariant over all executions of any number of goroutines. Also proved: no data race, no deadlock."
  },
  {
   "property": "C49",
   "status": "proved",
   "theorems": [
    "Verif.Props.C49_consistent",
    "Verif.Props.C49_cache",
    "Verif.Props.C49_cached",
    "Verif.Props.C49_stable",
    "Verif.Props.C49_no_race",
    "Verif.Props.C49_no_deadlock",
    "Verif.Props.C49_loader"
   ],
   "note": "State machine for lazyLoadPrefixes with failures of the file system chosen freely; invariant over all executions. Also proved: cached entries never change, no data race, no deadlock, and the instance for LoadPrefixMap."
  },
  {
   "property": "C50",
   "status": "proved",
   "theorems": [
    "Verif.Props.C50_nested",
    "Verif.Props.C50_not_nested"
   ],
   "note": "C50_not_nested shows that nesting is needed."
  },
  {
   "property": "C51",
   "status": "proved",
   "theorems": [
    "Verif.Props.C51_syntax",
    "Verif.Props.C51_short_range",
    "Verif.Props.C51_order",
    "Verif.Props.C51_tables",
    "Verif.Props.C51_exact",
    "Verif.Props.C51_accepts"
   ],
   "note": "Builder modelled from the XML elements on; every map iteration order through an arbitrary fair Order. C51_tables for arbitrary texts, C51_exact and C51_accepts (an iff) for well-written ones, C51_syntax for the length syntax."
  },
  {
   "property": "C52",
   "status": "proved",
   "theorems": [
    "Verif.Props.C52_keys",
    "Verif.Props.C52_exact",
    "Verif.Props.C52_regions",
    "Verif.Props.C52_main_first",
    "Verif.Props.C52_no_main",
    "Verif.Props.C52_shipped"
   ],
   "note": "Exact list, multiplicity and main-first for every collection with non-empty identifiers; C52_shipped: the shipped table is the builder's table of the shipped collection."
  },
  {
   "property": "C53",
   "status": "proved",
   "theorems": [
    "Verif.Props.C53_fails",
    "Verif.Props.C53_tables",
    "Verif.Props.C53_order"
   ],
   "note": ""
  },
  {
   "property": "C54",
   "status": "proved",
   "theorems": [
    "Verif.Props.C54_invalid",
    "Verif.Props.C54_shipped",
    "Verif.Props.C54_unsupported"
   ],
   "note": "Any metadata: only invalid numbers are returned. Shipped metadata: one for every supported region."
  },
  {
   "property": "C55",
   "status": "proved",
   "theorems": [
    "Verif.Props.C55_example",
    "Verif.Props.C55_none"
   ],
   "note": "Shipped metadata, every country code."
  },
  {
   "property": "C56",
   "status": "proved",
   "theorems": [
    "Verif.Props.C56_name",
    "Verif.Props.C56_shipped",
    "Verif.Props.C56_raw_fails"
   ],
   "note": "Every message and every carrier map on the shipped metadata. C56_raw_fails shows the exception in the statement is real: a parsed valid number whose carrier lookup fails."
  },
  {
   "property": "C57",
   "status": "proved",
   "theorems": [
    "Verif.Props.C57_country",
    "Verif.Props.C57_shipped"
   ],
   "note": "Every message, map and naming of regions on the shipped metadata; display names (golang.org/x/text) are a parameter. C57_country is generic in the metadata."
  },
  {
   "property": "C58",
   "status": "proved",
   "theorems": [
    "Verif.Props.C58_complete",
    "Verif.Props.C58_no_race",
    "Verif.Props.C58_once",
    "Verif.Props.C58_timezones",
    "Verif.Props.C58_alternate"
   ],
   "note": "State machine for sync.Once with the loading function split into atomic updates; instances for the time zone table and the alternate formats. A loading function that panics is not modelled."
  },
  {
   "property": "C59",
   "status": "proved",
   "theorems": [
    "Verif.Props.C59_intl",
    "Verif.Props.C59_national",
    "Verif.Props.C59_format",
    "Verif.Props.C59_all_na"
   ],
   "note": "C59_all_na records the exception stated in the property."
  },
  {
   "property": "C60",
   "status": "proved",
   "theorems": [
    "Verif.Props.C60_descs",
    "Verif.Props.C60_lengths",
    "Verif.Props.C60_parse",
    "Verif.Props.C60_tables"
   ],
   "note": "Composition of builder, NewContainer and Parse."
  },
  {
   "property": "C61",
   "status": "proved",
   "theorems": [
    "Verif.Props.C61_no_panic",
    "Verif.Props.C61_verify",
    "Verif.Props.C61_verify_panics"
   ],
   "note": "C61_no_panic: unconditional for the shipped metadata, any alternate formats, text, region, leniency and limit. C61_verify: the exported check does not panic on numbers that parsing returned. C61_verify_panics: called directly with a number built by hand whose raw input has a hyphen after a semicolon it does panic (finding)."
  },
  {
   "property": "C62",
   "status": "proved",
   "theorems": [
    "Verif.Props.C62_grouping_valid",
    "Verif.Props.C62_possible",
    "Verif.Props.C62_found",
    "Verif.Props.C62_exact_not_strict",
    "Verif.Props.C62_strict_not_exact"
   ],
   "note": "C62_grouping_valid for every metadata; C62_possible and C62_found for the shipped metadata; C62_exact_not_strict and C62_strict_not_exact show that the two grouping levels are not comparable."
  },
  {
   "property": "C63",
   "status": "proved",
   "theorems": [
    "Verif.Props.C63_neighbours",
    "Verif.Props.C63_brackets",
    "Verif.Props.C63_pages"
   ],
   "note": "C63_neighbours, C63_brackets, C63_pages: for every metadata, text, region and limit."
  },
  {
   "property": "C64",
   "status": "proved",
   "theorems": [
    "Verif.Props.C64_written",
    "Verif.Props.C64_e164"
   ],
   "note": "C64_written: any metadata, any text around a written number that parsing and the leniency level accept. C64_e164: the E164 form of every valid number on the shipped metadata, every region and leniency; excluded are national number 0 and the two ambiguous beginnings of C10 (Belarus 8…, Japan 003768…)."
  },
  {
   "property": "C65",
   "status": "proved",
   "theorems": [
    "Verif.Props.C65_international",
    "Verif.Props.C65_rfc3966",
    "Verif.Props.C65_international_valid",
    "Verif.Props.C65_rfc3966_valid",
    "Verif.Props.C65_extension_bound"
   ],
   "note": "Proved for the shipped metadata for every valid number except those with the ambiguous beginnings of C10 (Belarus 8…, Japan 003768…), and generically for any container passing the stated checks. C65_extension_bound shows that the bound on the extension is needed."
  },
  {
   "property": "C66",
   "status": "proved",
   "theorems": [
    "Verif.Props.C66_national_valid",
    "Verif.Props.C66_own_region",
    "Verif.Props.C66_needed"
   ],
   "note": "For the shipped metadata: every number valid for a geographical region other than AR and GA, and without one of five listed beginnings, is parsed back from its NATIONAL form with that region as default, with its extension. C66_needed gives for every exception a valid number that is read as another number."
  },
  {
   "property": "C67",
   "status": "proved",
   "theorems": [
    "Verif.Props.C67_listed",
    "Verif.Props.C67_inhabited",
    "Verif.Props.C67_inhabited_nonGeo",
    "Verif.Props.C67_never"
   ],
   "note": "Types of valid numbers are listed; every listed type is inhabited, for regions and non-geographical codes, on the whole shipped metadata."
  },
  {
   "property": "C68",
   "status": "proved",
   "theorems": [
    "Verif.Props.C68_valid_possible",
    "Verif.Props.C68_needed"
   ],
   "note": "A valid number is possible for its own type, with five exceptional pairs of country code and type, each shown necessary by a witness."
  },
  {
   "property": "C69",
   "status": "proved",
   "theorems": [
    "Verif.Props.C69_international",
    "Verif.Props.C69_parsed",
    "Verif.Props.C69_national"
   ],
   "note": "EXACT_MATCH for the international forms, also against the parsed number; NSN_MATCH against the NATIONAL form, by C10, C65 and C66."
  },
  {
   "property": "C70",
   "status": "proved",
   "theorems": [
    "Verif.Props.C70_letters",
    "Verif.Props.C70_few",
    "Verif.Props.C70_isAlpha",
    "Verif.Props.C70_isAlpha_only",
    "Verif.Props.C70_digits",
    "Verif.Props.C70_end_needed"
   ],
   "note": "For every metadata table and default region; the condition that the text ends in a letter is shown necessary."
  },
  {
   "property": "C71",
   "status": "proved",
   "theorems": [
    "Verif.Props.C71_format",
    "Verif.Props.C71_shipped",
    "Verif.Props.C71_carrier",
    "Verif.Props.C71_unique",
    "Verif.Props.C71_cut"
   ],
   "note": "Generic in the container (decidable well-formedness layoutOk, checked for the whole shipped metadata); the specification LaidOut is shown to determine the output. E164 is C15."
  },
  {
   "property": "C72",
   "status": "proved",
   "theorems": [
    "Verif.Props.C72_userRules",
    "Verif.Props.C72_shipped",
    "Verif.Props.C72_none"
   ],
   "note": "Generic in the container; the rules must be sequences of digit groups with templates mentioning them."
  },
  {
   "property": "C73",
   "status": "proved",
   "theorems": [
    "Verif.Props.C73_carrier_region_iff",
    "Verif.Props.C73_sms_region_iff",
    "Verif.Props.C73_carrier_iff",
    "Verif.Props.C73_possible",
    "Verif.Props.C73_not_valid",
    "Verif.Props.C73_home_differs",
    "Verif.Props.C73_emergency",
    "Verif.Props.C73_cost",
    "Verif.Props.C73_carrier_shipped"
   ],
   "note": "Exact conditions for the carrier-specific and SMS services, possibility of those numbers, validity and price of emergency numbers and the exclusiveness of the cost categories. Two non-properties are shown with witnesses."
  },
  {
   "property": "C74",
   "status": "proved",
   "theorems": [
    "Verif.Props.C74_region",
    "Verif.Props.C74_valid",
    "Verif.Props.C74_shipped"
   ],
   "note": "GetRegionCodeForNumber against the specification RegionOf for all well-formed metadata; IsValidNumber iff valid for some region for the shipped metadata, by a kernel-checked emptiness check of pattern differences over all shared country codes."
  },
  {
   "property": "C75",
   "status": "proved",
   "theorems": [
    "Verif.Props.C75_ndc",
    "Verif.Props.C75_geographical",
    "Verif.Props.C75_area",
    "Verif.Props.C75_dialled",
    "Verif.Props.C75_shipped"
   ],
   "note": "All numbers; the destination code as the first digit group of the INTERNATIONAL layout of C71."
  },
  {
   "property": "C76",
   "status": "proved",
   "theorems": [
    "Verif.Props.C76_abroad",
    "Verif.Props.C76_unsupported",
    "Verif.Props.C76_home",
    "Verif.Props.C76_nanpa",
    "Verif.Props.C76_hongkong",
    "Verif.Props.C76_seven_digits"
   ],
   "note": "Unconditional for the shipped metadata, with the exceptions named in the statement; C76_hongkong and C76_seven_digits show two of them are needed, C10 and C66 the others."
  },
  {
   "property": "C77",
   "status": "proved",
   "theorems": [
    "Verif.Props.C77_abroad",
    "Verif.Props.C77_abroad_nothing",
    "Verif.Props.C77_home",
    "Verif.Props.C77_brazil",
    "Verif.Props.C77_nonGeo"
   ],
   "note": "Unconditional for the shipped metadata, with the exceptions named in the statement. The Brazilian numbers with a preferred carrier are C20."
  },
  {
   "property": "C78",
   "status": "proved",
   "theorems": [
    "Verif.Props.C78_texts",
    "Verif.Props.C78_e164",
    "Verif.Props.C78_one_exact",
    "Verif.Props.C78_one_nsn",
    "Verif.Props.C78_nonGeo"
   ],
   "note": "Unconditional for the shipped metadata."
  },
  {
   "property": "C79",
   "status": "proved",
   "theorems": [
    "Verif.Props.C79_plus",
    "Verif.Props.C79_idd",
    "Verif.Props.C79_noPlus",
    "Verif.Props.C79_default",
    "Verif.Props.C79_international",
    "Verif.Props.C79_national",
    "Verif.Props.C79_abroad",
    "Verif.Props.C79_zero"
   ],
   "note": "Unconditional for the shipped metadata, with the exceptions of C65/C66/C76 for the reproduction theorems. Numbers whose national number is 0 are excluded in `C79_noPlus`; `C79_zero` shows why."
  },
  {
   "property": "C80",
   "status": "proved",
   "theorems": [
    "Verif.Props.C80_bare",
    "Verif.Props.C80_prefix",
    "Verif.Props.C80_nanpa",
    "Verif.Props.C80_needed_bare",
    "Verif.Props.C80_needed_prefix"
   ],
   "note": "Unconditional for the shipped metadata. Exceptions are listed by country code in Spec/Typed.lean (`bareAmbiguous`, `prefixAmbiguous`) and, for the form with the national prefix, Argentina; `C80_needed_bare` and `C80_needed_prefix` give numbers that are misread."
  },
  {
   "property": "C81",
   "status": "proved",
   "theorems": [
    "Verif.Props.C81_iff",
    "Verif.Props.C81_valid",
    "Verif.Props.C81_written",
    "Verif.Props.C81_typed"
   ],
   "note": "Unconditional for the shipped metadata."
  },
  {
   "property": "C82",
   "status": "proved",
   "theorems": [
    "Verif.Props.C82_part",
    "Verif.Props.C82_noText",
    "Verif.Props.C82_unknown",
    "Verif.Props.C82_nanpa",
    "Verif.Props.C82_home",
    "Verif.Props.C82_abroad",
    "Verif.Props.C82_reads_letters",
    "Verif.Props.C82_reads_digits",
    "Verif.Props.C82_reads_nanpa",
    "Verif.Props.C82_code_twice",
    "Verif.Props.C82_extension_twice",
    "Verif.Props.C82_wide_digits"
   ],
   "note": "Unconditional for the shipped metadata, Hong Kong excepted as calling region in the readback. `C82_code_twice`, `C82_extension_twice` and `C82_wide_digits` show texts for which the part found is not the number."
  },
  {
   "property": "C83",
   "status": "proved",
   "theorems": [
    "Verif.Props.C83_example",
    "Verif.Props.C83_unknown",
    "Verif.Props.C83_fixedLine",
    "Verif.Props.C83_codes",
    "Verif.Props.C83_order"
   ],
   "note": "Unconditional for the shipped metadata."
  },
  {
   "property": "C84",
   "status": "proved",
   "theorems": [
    "Verif.Props.C84_user",
    "Verif.Props.C84_only"
   ],
   "note": "Unconditional for the shipped metadata; the description table has distinct keys, as loaded."
  },
  {
   "property": "C85",
   "status": "proved",
   "theorems": [
    "Verif.Props.C85_valid",
    "Verif.Props.C85_strict",
    "Verif.Props.C85_exact",
    "Verif.Props.C85_grouping",
    "Verif.Props.C85_found",
    "Verif.Props.C85_cases"
   ],
   "note": "Unconditional for the shipped metadata and every list of alternate formats; for STRICT_GROUPING the text must be at least as long as the country code less one, which holds for the text the number was read from. C85_cases shows eight texts and the answers of the three levels."
  },
  {
   "property": "C86",
   "status": "proved",
   "theorems": [
    "Verif.Props.C86_written",
    "Verif.Props.C86_international"
   ],
   "note": "Unconditional for the shipped metadata. Numbers with extension are excluded."
  },
  {
   "property": "C87",
   "status": "proved",
   "theorems": [
    "Verif.Props.C87_reads",
    "Verif.Props.C87_table",
    "Verif.Props.C87_loaded",
    "Verif.Props.C87_lookup",
    "Verif.Props.C87_zones_read",
    "Verif.Props.C87_zones_table",
    "Verif.Props.C87_zones_loaded",
    "Verif.Props.C87_zones_negative",
    "Verif.Props.C87_cases"
   ],
   "note": "Opening files and compression are not modelled. The hypotheses on sizes are those of C44."
  },
  {
   "property": "C88",
   "status": "proved",
   "theorems": [
    "Verif.Props.C88_same",
    "Verif.Props.C88_raw",
    "Verif.Props.C88_plain",
    "Verif.Props.C88_shown",
    "Verif.Props.C88_two"
   ],
   "note": "Texts with an extension, with x or a tilde between the digits, or with ';' in the words are not covered."
  },
  {
   "property": "C89",
   "status": "proved",
   "theorems": [
    "Verif.Props.C89_extension",
    "Verif.Props.C89_same",
    "Verif.Props.C89_raw",
    "Verif.Props.C89_verbatim"
   ],
   "note": "Extensions longer than the label allows, and texts with ';' outside the label, are not covered."
  },
  {
   "property": "C90",
   "status": "proved",
   "theorems": [
    "Verif.Props.C90_texts",
    "Verif.Props.C90_stale",
    "Verif.Props.C90_bytes"
   ],
   "note": "Covers the calls with valid indices; with indices behind the text see C90_stale. The runtime's append and slices.Insert are modelled as documented (arguments are read before they are written)."
  },
  {
   "property": "C91",
   "status": "partial",
   "theorems": [
    "Verif.Props.C91_deleted",
    "Verif.Props.C91_written",
    "Verif.Props.C91_false",
    "Verif.Props.C91_codes_partial",
    "Verif.Props.C91_e164",
    "Verif.Props.C91_sets"
   ],
   "note": "False as stated: the accessors return the library's own tables (C91_deleted, C91_written, C91_false). Proved: writes into the two sets of calling codes change no other answer (C91_codes_partial), and no write changes E164 output, the known codes or IsNANPACountry (C91_e164)."
  },
  {
   "property": "C92",
   "status": "proved",
   "theorems": [
    "Verif.Props.C92_one",
    "Verif.Props.C92_texts",
    "Verif.Props.C92_possible",
    "Verif.Props.C92_one_ext",
    "Verif.Props.C92_ext"
   ],
   "note": ""
  },
  {
   "property": "C93",
   "status": "proved",
   "theorems": [
    "Verif.Props.C93_shown",
    "Verif.Props.C93_same",
    "Verif.Props.C93_no_rule"
   ],
   "note": ""
  },
  {
   "property": "C94",
   "status": "proved",
   "theorems": [
    "Verif.Props.C94_history",
    "Verif.Props.C94_region",
    "Verif.Props.C94_shipped",
    "Verif.Props.C94_shipped_plus",
    "Verif.Props.C94_position",
    "Verif.Props.C94_region_matters"
   ],
   "note": "C94_region_matters shows that without a plus sign the region does matter."
  },
  {
   "property": "C95",
   "status": "proved",
   "theorems": [
    "Verif.Props.C95_number",
    "Verif.Props.C95_required",
    "Verif.Props.C95_required_collection",
    "Verif.Props.C95_injective",
    "Verif.Props.C95_parsed",
    "Verif.Props.C95_collection",
    "Verif.Props.C95_concat",
    "Verif.Props.C95_unknown"
   ],
   "note": "The wire format is that of the protobuf runtime (a dependency, not in /repo), modelled from its specification; groups are rejected by the model. gzip is not modelled."
  },
  {
   "property": "C96",
   "status": "proved",
   "theorems": [
    "Verif.Props.C96_collection",
    "Verif.Props.C96_short",
    "Verif.Props.C96_alternate",
    "Verif.Props.C96_load",
    "Verif.Props.C96_sizes"
   ],
   "note": "gzip is not modelled: the bytes are those of the uncompressed files. The order of the association lists of the container is left open (SameContainer)."
  },
  {
   "property": "C97",
   "status": "proved",
   "theorems": [
    "Verif.Props.C97_e164",
    "Verif.Props.C97_rfc3966",
    "Verif.Props.C97_fixed",
    "Verif.Props.C97_forms",
    "Verif.Props.C97_drifts"
   ],
   "note": "For numbers that are not valid reading the written form may change the number (C97_drifts)."
  },
  {
   "property": "C98",
   "status": "proved",
   "theorems": [
    "Verif.Props.C98_total",
    "Verif.Props.C98_output",
    "Verif.Props.C98_error",
    "Verif.Props.C98_again"
   ],
   "note": "The output is what is written to the standard output; a failing write is not modelled."
  },
  {
   "property": "C99",
   "status": "proved",
   "theorems": [
    "Verif.Props.C99_raw",
    "Verif.Props.C99_parse",
    "Verif.Props.C99_plus",
    "Verif.Props.C99_noPlus",
    "Verif.Props.C99_suffix"
   ],
   "note": "The regions with rewriting rules are listed in the theorem file (C99_suffix)."
  },
  {
   "property": "C100",
   "status": "proved",
   "theorems": [
    "Verif.Props.C100_collection",
    "Verif.Props.C100_written",
    "Verif.Props.C100_load",
    "Verif.Props.C100_parse",
    "Verif.Props.C100_short",
    "Verif.Props.C100_code"
   ],
   "note": "Compression and the XML decoder are not modelled. The compiler of patterns is the model's (`parseRe`), which knows the syntax used in the metadata."
  },
  {
   "property": "C101",
   "status": "proved",
   "theorems": [
    "Verif.Props.C101_files",
    "Verif.Props.C101_program",
    "Verif.Props.C101_tables",
    "Verif.Props.C101_done",
    "Verif.Props.C101_stop",
    "Verif.Props.C101_version",
    "Verif.Props.C101_again",
    "Verif.Props.C101_mixed",
    "Verif.Props.C101_stale",
    "Verif.Props.C101_release"
   ],
   "note": "The compression is a parameter with an inverse; failing file operations are stops; `%q` on the version is taken to put quotes around it; the clone and `os.MkdirAll` are not modelled."
  },
  {
   "property": "C102",
   "status": "proved",
   "theorems": [
    "Verif.Props.C102_returns",
    "Verif.Props.C102_needs_metadata"
   ],
   "note": "C102_returns: every request returns. C102_needs_metadata: with a country lacking descriptions the same calls panic, so the facts about the shipped metadata are what is used."
  },
  {
   "property": "C103",
   "status": "proved",
   "theorems": [
    "Verif.Props.C103_written",
    "Verif.Props.C103_national"
   ],
   "note": "C103_written: any number written in blocks with gaps and a pair of parentheses. C103_national: the NATIONAL form of every number valid for a region, at POSSIBLE and VALID. The grouping levels are not covered: national formats group some numbers in another way than the international formats the grouping is compared with."
  },
  {
   "property": "C104",
   "status": "proved",
   "theorems": [
    "Verif.Props.C104_all",
    "Verif.Props.C104_forms"
   ],
   "note": "C104_all: numbers written in blocks with or without plus sign, for any data. C104_forms: E164 and INTERNATIONAL forms with the shipped data, at all levels. Brackets before a number and extensions are not covered."
  },
  {
   "property": "C105",
   "status": "proved",
   "theorems": [
    "Verif.Props.C105_loads",
    "Verif.Props.C105_concurrent",
    "Verif.Props.C105_carrier",
    "Verif.Props.C105_area",
    "Verif.Props.C105_no_fallback"
   ],
   "note": "C105_loads, C105_concurrent, C105_carrier, C105_area, C105_no_fallback. The bytes are those after gzip decompression, which is not modelled; messages with national number 0 and raw input are excluded for carriers (C56 shows the error)."
  },
  {
   "property": "C106",
   "status": "proved",
   "theorems": [
    "Verif.Props.C106_written",
    "Verif.Props.C106_blocks",
    "Verif.Props.C106_international"
   ],
   "note": "All four leniency levels. Excluded: a text after it that begins with '#', which the pattern takes as the end of an extension; numbers with one of the two ambiguous beginnings of C10; national number 0. Not covered: labels outside the list, extension at an auto-dialled ',,' or ';'."
  },
  {
   "property": "C107",
   "status": "proved",
   "theorems": [
    "Verif.Props.C107_all",
    "Verif.Props.C107_forms"
   ],
   "note": "Generalises C104 by extensions, forms used within a country and lists with commas. Excluded: a number sign directly after a number; the numbers excluded in C64, C86, C103 and C106. The NATIONAL form is covered at POSSIBLE and VALID."
  },
  {
   "property": "C108",
   "status": "proved",
   "theorems": [
    "Verif.Props.C108_named",
    "Verif.Props.C108_format",
    "Verif.Props.C108_pattern",
    "Verif.Props.C108_rest",
    "Verif.Props.C108_type"
   ],
   "note": "Levels of the search outside the declared range are treated in C110."
  },
  {
   "property": "C109",
   "status": "proved",
   "theorems": [
    "Verif.Props.C109_found",
    "Verif.Props.C109_grouped",
    "Verif.Props.C109_exact",
    "Verif.Props.C109_noIntl",
    "Verif.Props.C109_shared",
    "Verif.Props.C109_kept",
    "Verif.Props.C109_strict",
    "Verif.Props.C109_forms"
   ],
   "note": "Argentina and Gabon are left out; for Argentina the statement is false, as an example shows. Numbers whose rule is withheld from the INTERNATIONAL form need the grouping condition as a hypothesis, as in C109_found."
  },
  {
   "property": "C110",
   "status": "proved",
   "theorems": [
    "Verif.Props.C110_named",
    "Verif.Props.C110_nothing",
    "Verif.Props.C110_total"
   ],
   "note": "Complements C108, which treats formats and types."
  },
  {
   "property": "C111",
   "status": "proved",
   "theorems": [
    "Verif.Props.C111_zones_loaded",
    "Verif.Props.C111_zones_failed",
    "Verif.Props.C111_zones_cause",
    "Verif.Props.C111_alternate_loaded",
    "Verif.Props.C111_alternate_failed",
    "Verif.Props.C111_alternate_panic",
    "Verif.Props.C111_ends",
    "Verif.Props.C111_bounded"
   ],
   "note": "Decompression is not modelled: for the alternate formats a file that does not decompress is a separate case, for the time zones the file starts after it."
  },
  {
   "property": "C112",
   "status": "proved",
   "theorems": [
    "Verif.Props.C112_regex_ends",
    "Verif.Props.C112_regex_bounded",
    "Verif.Props.C112_prefixes_ends",
    "Verif.Props.C112_prefixes_bounded"
   ],
   "note": "C111 has the same for the tables loaded once. The scheduler is not modelled: that every goroutine is scheduled again and again is an assumption on it."
  },
  {
   "property": "C113",
   "status": "proved",
   "theorems": [
    "Verif.Props.C113_range",
    "Verif.Props.C113_range_shipped",
    "Verif.Props.C113_first",
    "Verif.Props.C113_limit",
    "Verif.Props.C113_limit_shipped",
    "Verif.Props.C113_enough",
    "Verif.Props.C113_unlimited"
   ],
   "note": "C43 has the other direction: how many pieces of text a limit allows to be tried."
  },
  {
   "property": "C114",
   "status": "proved",
   "theorems": [
    "Verif.Props.C114_parse",
    "Verif.Props.C114_parse_shipped",
    "Verif.Props.C114_possible",
    "Verif.Props.C114_find",
    "Verif.Props.C114_find_shipped",
    "Verif.Props.C114_facts",
    "Verif.Props.C114_format",
    "Verif.Props.C114_format_shipped",
    "Verif.Props.C114_mobile",
    "Verif.Props.C114_mobile_shipped",
    "Verif.Props.C114_typing",
    "Verif.Props.C114_typing_shipped",
    "Verif.Props.C114_short",
    "Verif.Props.C114_short_shipped"
   ],
   "note": "C09 compares ZZ with supported regions for texts that parse; here errors and searches are included."
  },
  {
   "property": "C115",
   "status": "partial",
   "theorems": [
    "Verif.Props.C115_false",
    "Verif.Props.C115_partial",
    "Verif.Props.C115_national_partial",
    "Verif.Props.C115_national_shipped_partial",
    "Verif.Props.C115_shipped_partial"
   ],
   "note": "False as stated: the formatter of the main region can keep the formats of another country (C115_false). Proved for all sequences of calls if neither region is the main region of a code, and for every two regions of a code as long as no international prefix is typed; C94 has every pair of regions after a plus sign."
  },
  {
   "property": "C116",
   "status": "proved",
   "theorems": [
    "Verif.Props.C116_classify",
    "Verif.Props.C116_truncate",
    "Verif.Props.C116_short",
    "Verif.Props.C116_lookup",
    "Verif.Props.C116_match",
    "Verif.Props.C116_exact",
    "Verif.Props.C116_mobile",
    "Verif.Props.C116_format",
    "Verif.Props.C116_verify"
   ],
   "note": "For any metadata and tables, not only the shipped ones."
  },
  {
   "property": "C117",
   "status": "proved",
   "theorems": [
    "Verif.Props.C117_classify",
    "Verif.Props.C117_format",
    "Verif.Props.C117_abroad",
    "Verif.Props.C117_lookup",
    "Verif.Props.C117_short",
    "Verif.Props.C117_carrier_specific",
    "Verif.Props.C117_edit"
   ],
   "note": "For any containers. Reading a text is not covered: which calling codes exist decides where the code ends."
  }
 ]
}