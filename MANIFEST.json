{
 "claims": [
  {
   "property": "C01",
   "status": "proved",
   "theorems": [
    "Verif.Props.C01_pack_layout",
    "Verif.Props.C01_pack_empty"
   ],
   "note": "All septet strings, fill 0..7."
  },
  {
   "property": "C02",
   "status": "proved",
   "theorems": [
    "Verif.Props.C02_unpack_layout",
    "Verif.Props.C02_unpack_pack"
   ],
   "note": "All septet strings, fill 0..7; layout for all octet strings."
  },
  {
   "property": "C03",
   "status": "partial",
   "theorems": [
    "Verif.Props.C03_ussd_counterexample",
    "Verif.Props.C03_ussd_counterexample_at",
    "Verif.Props.C03_ussd_roundtrip_partial",
    "Verif.Props.C03_exact",
    "Verif.Props.C03_empty"
   ],
   "note": "False in general (counterexamples proved). C03_exact says for every message and every number of fill bits whether it round-trips; the partial theorem is the case of 8n-1 septets not ending in septet 0 and 8n septets not ending in septet 6, fill 0."
  },
  {
   "property": "C04",
   "status": "proved",
   "theorems": [
    "Verif.Props.C04_encode",
    "Verif.Props.C04_encode_error",
    "Verif.Props.C04_roundtrip",
    "Verif.Props.C04_decode",
    "Verif.Props.C04_decode_encode",
    "Verif.Props.C04_encodeSigned",
    "Verif.Props.C04_encodeSigned_error",
    "Verif.Props.C04_roundtripSigned",
    "Verif.Props.C04_decodeSigned",
    "Verif.Props.C04_decodeSigned_encode"
   ],
   "note": "All integers and all octets."
  },
  {
   "property": "C05",
   "status": "proved",
   "theorems": [
    "Verif.Props.C05_encode",
    "Verif.Props.C05_encode_error",
    "Verif.Props.C05_roundtrip",
    "Verif.Props.C05_roundtrip_exact"
   ],
   "note": "All digit strings and buffer sizes."
  },
  {
   "property": "C06",
   "status": "proved",
   "theorems": [
    "Verif.Props.C06_decode_safe"
   ],
   "note": "All inputs and buffer sizes; exact description of the result."
  },
  {
   "property": "C07",
   "status": "proved",
   "theorems": [
    "Verif.Props.C07_roundtrip",
    "Verif.Props.C07_encode_append",
    "Verif.Props.C07_encode_bmp",
    "Verif.Props.C07_encode_supplementary"
   ],
   "note": "All rune lists."
  },
  {
   "property": "C08",
   "status": "proved",
   "theorems": [
    "Verif.Props.C08_invalid_length",
    "Verif.Props.C08_success",
    "Verif.Props.C08_dangling"
   ],
   "note": "All byte strings; success and both errors characterised exactly."
  },
  {
   "property": "C09",
   "status": "partial",
   "theorems": [
    "Verif.Props.C09_counterexample",
    "Verif.Props.C09_roundtrip_partial",
    "Verif.Props.C09_exact"
   ],
   "note": "False for text containing U+001B (counterexample proved); proved for all other text, and the exception is shown to be exact."
  },
  {
   "property": "C10",
   "status": "proved",
   "theorems": [
    "Verif.Props.C10_succeeds",
    "Verif.Props.C10_output",
    "Verif.Props.C10_error",
    "Verif.Props.C10_without_ext"
   ],
   "note": "All byte strings and all table pairs; C10_without_ext: an encoder without extension table."
  },
  {
   "property": "C11",
   "status": "proved",
   "theorems": [
    "Verif.Props.C11_total",
    "Verif.Props.C11_strict",
    "Verif.Props.C11_strict_exact",
    "Verif.Props.C11_compositional",
    "Verif.Props.C11_character",
    "Verif.Props.C11_options",
    "Verif.Props.C11_without_ext"
   ],
   "note": "All byte strings and all tables, with the meaning of each character; C11_options, C11_without_ext: for the options and methods that make a decoder strict or take away its extension table."
  },
  {
   "property": "C12",
   "status": "proved",
   "theorems": [
    "Verif.Props.C12_section",
    "Verif.Props.C12_complete",
    "Verif.Props.C12_functional",
    "Verif.Props.C12_unknown",
    "Verif.Props.C12_order"
   ],
   "note": "All language identifiers; map traversal order shown irrelevant."
  },
  {
   "property": "C13",
   "status": "proved",
   "theorems": [
    "Verif.Props.C13_numeric_roundtrip",
    "Verif.Props.C13_invalid_digit",
    "Verif.Props.C13_bound"
   ],
   "note": "All digit strings up to 255 digits and all trailing bytes; invalid digits rejected."
  },
  {
   "property": "C14",
   "status": "proved",
   "theorems": [
    "Verif.Props.C14_alphanumeric_roundtrip",
    "Verif.Props.C14_bound"
   ],
   "note": "All representable texts of at most 145 septets; the bound is exact. The code's length octet overflows above it."
  },
  {
   "property": "C15",
   "status": "proved",
   "theorems": [
    "Verif.Props.C15_udh_roundtrip",
    "Verif.Props.C15_empty",
    "Verif.Props.C15_ie_some",
    "Verif.Props.C15_ie_none",
    "Verif.Props.C15_ies"
   ],
   "note": "All headers of total length at most 255; IE and IEs for all headers."
  },
  {
   "property": "C16",
   "status": "partial",
   "theorems": [
    "Verif.Props.C16_counterexample",
    "Verif.Props.C16_counterexample_empty",
    "Verif.Props.C16_within_partial",
    "Verif.Props.C16_only_last_overruns_partial",
    "Verif.Props.C16_exact_partial",
    "Verif.Props.C16_accepts_exact",
    "Verif.Props.C16_reproduced_exact"
   ],
   "note": "False: the last element may run past the declared header length, and an empty header is read as no elements (counterexamples proved). Proved: only the last element can overrun; when none does, re-marshalling reproduces the bytes. C16_accepts_exact and C16_reproduced_exact say exactly which octets are accepted and which are reproduced."
  },
  {
   "property": "C17",
   "status": "proved",
   "theorems": [
    "Verif.Props.C17_roundtrip",
    "Verif.Props.C17_accepts",
    "Verif.Props.C17_calendar",
    "Verif.Props.C17_clock",
    "Verif.Props.C17_window"
   ],
   "note": "All instants 1970-2069 and offsets up to 79 quarters; acceptance characterised exactly for all byte strings; calendar validity proved."
  },
  {
   "property": "C18",
   "status": "partial",
   "theorems": [
    "Verif.Props.C18_counterexample_overshoot",
    "Verif.Props.C18_counterexample_code",
    "Verif.Props.C18_codes",
    "Verif.Props.C18_floor_partial",
    "Verif.Props.C18_step_partial",
    "Verif.Props.C18_monotone",
    "Verif.Props.C18_decode_monotone",
    "Verif.Props.C18_code_roundtrip_partial",
    "Verif.Props.C18_floor_exact",
    "Verif.Props.C18_code_exact"
   ],
   "note": "False for periods from 5 to under 10 minutes and for code 0 (counterexamples proved), and these exceptions are exact (C18_floor_exact for every integer duration, C18_code_exact). Floor and step loss proved on the range where they hold; monotonicity for all durations and codes."
  },
  {
   "property": "C19",
   "status": "proved",
   "theorems": [
    "Verif.Props.C19_roundtrip"
   ],
   "note": "Every representable period in every format and all trailing bytes."
  },
  {
   "property": "C20",
   "status": "proved",
   "theorems": [
    "Verif.Props.C20_with_alphabet",
    "Verif.Props.C20_reserved",
    "Verif.Props.C20_int",
    "Verif.Props.C20_int_fails",
    "Verif.Props.C20_int_kept",
    "Verif.Props.C20_alphabet_of_group"
   ],
   "note": "All 256 octets and all alphabets."
  },
  {
   "property": "C21",
   "status": "proved",
   "theorems": [
    "Verif.Props.C21_with_class",
    "Verif.Props.C21_unknown"
   ],
   "note": "All 256 octets and classes 0..3."
  },
  {
   "property": "C22",
   "status": "proved",
   "theorems": [
    "Verif.Props.C22_set_smsType",
    "Verif.Props.C22_set_smsType_invalid",
    "Verif.Props.C22_set_vp",
    "Verif.Props.C22_set_udh_some",
    "Verif.Props.C22_set_udh_none",
    "Verif.Props.C22_set_ud",
    "Verif.Props.C22_set_pid_dcs",
    "Verif.Props.C22_indicators"
   ],
   "note": "All TPDU states."
  },
  {
   "property": "C23",
   "status": "proved",
   "theorems": [
    "Verif.Props.C23_submit_roundtrip"
   ],
   "note": "Every well-formed SMS-SUBMIT: all alphabets, headers and validity formats. That no others round-trip is C105."
  },
  {
   "property": "C24",
   "status": "proved",
   "theorems": [
    "Verif.Props.C24_deliver_roundtrip"
   ],
   "note": "Every well-formed SMS-DELIVER. That no others round-trip is C105."
  },
  {
   "property": "C25",
   "status": "proved",
   "theorems": [
    "Verif.Props.C25_status_report_roundtrip"
   ],
   "note": "Every well-formed SMS-STATUS-REPORT and every parameter indicator. That no others round-trip is C105."
  },
  {
   "property": "C26",
   "status": "partial",
   "theorems": [
    "Verif.Props.C26_command_roundtrip_partial",
    "Verif.Props.C26_counterexample",
    "Verif.Props.C26_exact"
   ],
   "note": "False with a user data header, which marshalCommand drops (counterexample proved). C26_exact says which commands round-trip."
  },
  {
   "property": "C27",
   "status": "partial",
   "theorems": [
    "Verif.Props.C27_deliver_report_roundtrip_partial",
    "Verif.Props.C27_submit_report_roundtrip_partial",
    "Verif.Props.C27_deliver_report_exact",
    "Verif.Props.C27_submit_report_exact",
    "Verif.Props.C27_counterexample"
   ],
   "note": "False for FCS 0, whose octet is written by neither report but read by both (counterexamples proved). The exact theorems say that the others, and only they, round-trip."
  },
  {
   "property": "C28",
   "status": "proved",
   "theorems": [
    "Verif.Props.C28_no_panic",
    "Verif.Props.C28_sms_no_panic"
   ],
   "note": "Every byte string and every prior receiver contents."
  },
  {
   "property": "C29",
   "status": "proved",
   "theorems": [
    "Verif.Props.C29_submit_truncated",
    "Verif.Props.C29_deliver_truncated"
   ],
   "note": "Every well-formed SMS-SUBMIT and SMS-DELIVER, every cut point."
  },
  {
   "property": "C30",
   "status": "partial",
   "theorems": [
    "Verif.Props.C30_counterexample",
    "Verif.Props.C30_submit_partial",
    "Verif.Props.C30_deliver_partial",
    "Verif.Props.C30_submit_exact",
    "Verif.Props.C30_deliver_exact"
   ],
   "note": "False when the user data length is 0: whatever follows is ignored (counterexample proved). C30_submit_exact and C30_deliver_exact say that this is the only case, for every accepted byte string, and that the result is then the same; the partial theorems are weaker forms. Reports and commands: C77."
  },
  {
   "property": "C31",
   "status": "proved",
   "theorems": [
    "Verif.Props.C31_offset",
    "Verif.Props.C31_field"
   ],
   "note": "Every rejected byte string; exact field prefix for both directions."
  },
  {
   "property": "C32",
   "status": "proved",
   "theorems": [
    "Verif.Props.C32_exact",
    "Verif.Props.C32_encodes"
   ],
   "note": "UDBlockSize and encodeUserData for SUBMIT/DELIVER, all alphabets, headers and lengths."
  },
  {
   "property": "C33",
   "status": "proved",
   "theorems": [
    "Verif.Props.C33_pieces",
    "Verif.Props.C33_single",
    "Verif.Props.C33_empty",
    "Verif.Props.C33_multi"
   ],
   "note": "For every template with room for content (Room: at least 2 septets, 1 octet or 2 units per segment)."
  },
  {
   "property": "C34",
   "status": "partial",
   "theorems": [
    "Verif.Props.C34_boundaries_partial",
    "Verif.Props.C34_exact",
    "Verif.Props.C34_decode7_partial",
    "Verif.Props.C34_text_partial",
    "Verif.Props.C34_ucs2",
    "Verif.Props.C34_counterexample"
   ],
   "note": "C34_exact says for every message which cuts split a character: those in septets after an odd number of escapes, three or more (C34_counterexample has one). Hence proved for UCS-2 and for 7-bit messages without three escapes in a row, which includes all encoded text without U+001B."
  },
  {
   "property": "C35",
   "status": "partial",
   "theorems": [
    "Verif.Props.C35_concat_partial",
    "Verif.Props.C35_too_many",
    "Verif.Props.C35_counterexample",
    "Verif.Props.C35_counterexample_template",
    "Verif.Props.C35_exact"
   ],
   "note": "False beyond 255 segments (C35_too_many, C35_counterexample), and when 16-bit references are used with a template that holds an 8-bit concatenation element. Proved otherwise; C35_exact says these are the only exceptions."
  },
  {
   "property": "C36",
   "status": "proved",
   "theorems": [
    "Verif.Props.C36_multi",
    "Verif.Props.C36_single"
   ],
   "note": "Exact form of every segment, including the message references taken from the counter and the counters afterwards."
  },
  {
   "property": "C37",
   "status": "partial",
   "theorems": [
    "Verif.Props.C37_returns_partial",
    "Verif.Props.C37_submit_deliver",
    "Verif.Props.C37_exact",
    "Verif.Props.C37_counterexample",
    "Verif.Props.C37_counterexample_type"
   ],
   "note": "False: panics or loops for headers that leave no room and for reserved MTIs (C37_counterexample). C37_exact characterises exactly when Segment returns; C37_submit_deliver shows SUBMIT/DELIVER with header up to 129 octets always have room."
  },
  {
   "property": "C38",
   "status": "partial",
   "theorems": [
    "Verif.Props.C38_text_partial",
    "Verif.Props.C38_counterexample",
    "Verif.Props.C38_matching",
    "Verif.Props.C38_octets",
    "Verif.Props.C38_utf16",
    "Verif.Props.C38_as",
    "Verif.Props.C38_submit_partial",
    "Verif.Props.C38_no_escape",
    "Verif.Props.C38_exact",
    "Verif.Props.C38_replaced"
   ],
   "note": "Proved for UTF-8 text with any charset option list and SMS template with room, decoding with any matching options (C38_text_partial, C38_submit_partial), for octets with an 8-bit template and UTF-16 with a UCS-2 template. False for text with U+001B sent in a 7-bit alphabet; C38_exact shows that text is recovered if and only if the coding group can carry the alphabet, the text is UTF-8 and is in UCS-2 or without U+001B; C38_replaced says what comes back, sent in UCS-2, of what is not UTF-8. Also false for templates whose own header announces a national language (C38_counterexample)."
  },
  {
   "property": "C39",
   "status": "partial",
   "theorems": [
    "Verif.Props.C39_text_partial",
    "Verif.Props.C39_octets",
    "Verif.Props.C39_utf16",
    "Verif.Props.C39_submit_partial",
    "Verif.Props.C39_counterexample",
    "Verif.Props.C39_exact",
    "Verif.Props.C39_submit_exact"
   ],
   "note": "Proved for submissions and deliveries with representable fields: text in an automatically chosen alphabet (C39_text_partial), octets and UTF-16 with an explicit one, and the plain library call (C39_submit_partial). Missing, because false (C39_counterexample): text with U+001B in septets; C39_exact and C39_submit_exact show that this and text that is not UTF-8 are the only texts that do not arrive. Templates announcing a national language are excluded."
  },
  {
   "property": "C40",
   "status": "proved",
   "theorems": [
    "Verif.Props.C40_default",
    "Verif.Props.C40_language",
    "Verif.Props.C40_fallback",
    "Verif.Props.C40_alphabet",
    "Verif.Props.C40_decodes"
   ],
   "note": "All texts and option lists: default alphabet (C40_default), the first applicable language in the order offered (C40_language), UCS-2 only when none applies (C40_fallback), and the header decodes it (C40_decodes)."
  },
  {
   "property": "C41",
   "status": "proved",
   "theorems": [
    "Verif.Props.C41_chosen",
    "Verif.Props.C41_error_iff"
   ],
   "note": "Chosen is the specification of the alphabet selection; the theorem is an iff for every template type."
  },
  {
   "property": "C42",
   "status": "partial",
   "theorems": [
    "Verif.Props.C42_counterexample",
    "Verif.Props.C42_header_kept_partial",
    "Verif.Props.C42_header_replaced"
   ],
   "note": "False as stated: C42_counterexample; a national language header replaces the template's. C42_header_kept_partial proves it in all other cases, C42_header_replaced says what happens in that case."
  },
  {
   "property": "C43",
   "status": "proved",
   "theorems": [
    "Verif.Props.C43_mr",
    "Verif.Props.C43_concat",
    "Verif.Props.C43_distinct"
   ],
   "note": "Stated over every sequence of Encode calls on one encoder; failing calls do not count."
  },
  {
   "property": "C44",
   "status": "partial",
   "theorems": [
    "Verif.Props.C44_distinct_partial",
    "Verif.Props.C44_values_partial",
    "Verif.Props.C44_read_partial",
    "Verif.Props.C44_read_quiet_partial",
    "Verif.Props.C44_wraps"
   ],
   "note": "Interleaving model with separate call, atomic access and return steps, any number of goroutines, int of w bits. Distinctness holds up to 2^w calls (C44_wraps shows it then fails), so the theorems are named partial."
  },
  {
   "property": "C45",
   "status": "proved",
   "theorems": [
    "Verif.Props.C45_rejoin",
    "Verif.Props.C45_any_cut"
   ],
   "note": "All UCS-2 segments of even length and every cut, also inside a surrogate pair."
  },
  {
   "property": "C46",
   "status": "proved",
   "theorems": [
    "Verif.Props.C46_exact",
    "Verif.Props.C46_errors",
    "Verif.Props.C46_no_ucs2"
   ],
   "note": "All segment lists and options: C46_exact is an iff, C46_errors says which error."
  },
  {
   "property": "C47",
   "status": "proved",
   "theorems": [
    "Verif.Props.C47_complete_iff"
   ],
   "note": "All TPDU lists: an iff with a specification in terms of the concatenation elements."
  },
  {
   "property": "C48",
   "status": "proved",
   "theorems": [
    "Verif.Props.C48_any_order",
    "Verif.Props.C48_repeated"
   ],
   "note": "From any reachable open state with nothing pending of the message; any permutation (C48_any_order), also with repetitions (C48_repeated)."
  },
  {
   "property": "C49",
   "status": "proved",
   "theorems": [
    "Verif.Props.C49_complete"
   ],
   "note": "Every history of Collect calls, timer steps and Close with SUBMIT/DELIVER TPDUs (other types if single)."
  },
  {
   "property": "C50",
   "status": "proved",
   "theorems": [
    "Verif.Props.C50_balance",
    "Verif.Props.C50_one_place",
    "Verif.Props.C50_rejected",
    "Verif.Props.C50_genuine",
    "Verif.Props.C50_duplicate",
    "Verif.Props.C50_errors"
   ],
   "note": "Exactly one place for every accepted call, none for rejected ones; duplicate rejection characterised by an iff."
  },
  {
   "property": "C51",
   "status": "proved",
   "theorems": [
    "Verif.Props.C51_once",
    "Verif.Props.C51_incomplete",
    "Verif.Props.C51_not_returned",
    "Verif.Props.C51_never",
    "Verif.Props.C51_timer",
    "Verif.Props.C51_expired",
    "Verif.Props.C51_restart"
   ],
   "note": "Timers fire, run their critical section and call the handler in three separate steps interleaved with anything."
  },
  {
   "property": "C52",
   "status": "proved",
   "theorems": [
    "Verif.Props.C52_closed",
    "Verif.Props.C52_unchanged",
    "Verif.Props.C52_idempotent"
   ],
   "note": "Arbitrary TPDUs of all types before and after Close."
  },
  {
   "property": "C53",
   "status": "proved",
   "theorems": [
    "Verif.Props.C53_alone",
    "Verif.Props.C53_isolated",
    "Verif.Props.C53_keys",
    "Verif.Props.C53_pipes"
   ],
   "note": "Refinement: what one message sees equals the run of a stand-alone specification of one reassembly (Spec/Reassembly.lean)."
  },
  {
   "property": "C54",
   "status": "partial",
   "theorems": [
    "Verif.Props.C54_supported_partial",
    "Verif.Props.C54_exact",
    "Verif.Props.C54_counterexample"
   ],
   "note": "False for unsupported TPDU types (C54_counterexample). Proved for all histories of supported TPDUs; C54_exact characterises exactly when Collect panics for arbitrary TPDUs."
  },
  {
   "property": "C55",
   "status": "partial",
   "theorems": [
    "Verif.Props.C55_exact",
    "Verif.Props.C55_roundtrip_partial",
    "Verif.Props.C55_hex_partial",
    "Verif.Props.C55_invalid_digit",
    "Verif.Props.C55_counterexample",
    "Verif.Props.C55_bound"
   ],
   "note": "False of an address with a type but no digits (C55_counterexample); C55_exact says what is returned in every case up to 508 digits, C55_bound shows that bound is needed."
  },
  {
   "property": "C56",
   "status": "proved",
   "theorems": [
    "Verif.Props.C56_no_smsc",
    "Verif.Props.C56_smsc",
    "Verif.Props.C56_short",
    "Verif.Props.C56_safe",
    "Verif.Props.C56_hex",
    "Verif.Props.C56_hex_reject",
    "Verif.Props.C56_hex_safe"
   ],
   "note": "Exact: which octet strings and texts are accepted and what they give."
  },
  {
   "property": "C57",
   "status": "proved",
   "theorems": [
    "Verif.Props.C57_number"
   ],
   "note": "Every string."
  },
  {
   "property": "C58",
   "status": "partial",
   "theorems": [
    "Verif.Props.C58_minimal_partial",
    "Verif.Props.C58_encoded",
    "Verif.Props.C58_minimal_septets_octets",
    "Verif.Props.C58_counterexample",
    "Verif.Props.C58_malformed_partial"
   ],
   "note": "False for malformed UCS-2 (C58_counterexample). Proved for all 7-bit and 8-bit messages and for UCS-2 with paired surrogates (includes all encoded text). For any other UCS-2 message C58_malformed_partial: no cutting whose pieces but the last are whole units and do not end in a high surrogate has fewer pieces."
  },
  {
   "property": "C59",
   "status": "partial",
   "theorems": [
    "Verif.Props.C59_once",
    "Verif.Props.C59_once_no_timeout",
    "Verif.Props.C59_always_exact",
    "Verif.Props.C59_few",
    "Verif.Props.C59_limit",
    "Verif.Props.C59_messages",
    "Verif.Props.C59_texts_partial",
    "Verif.Props.C59_submit_partial",
    "Verif.Props.C59_as_encoded",
    "Verif.Props.C59_exact",
    "Verif.Props.C59_submit_exact"
   ],
   "note": "Segments: any number of messages, any order, also amid other events (C59_messages, C59_once). Texts end to end (Encoder, wire, Collector, Decode) except those C38 excludes (C59_texts_partial, C59_submit_partial). C59_exact and C59_submit_exact show that exactly those come back that are UTF-8 and in UCS-2 or without U+001B; C59_as_encoded says what comes back of any text. References are counted modulo 256: C59_always_exact says for any number of texts when all orders of arrival work (C59_few: up to 256 long texts always do); with 257 long texts of equal size to one number one can get lost (C59_limit)."
  },
  {
   "property": "C60",
   "status": "proved",
   "theorems": [
    "Verif.Props.C60_count",
    "Verif.Props.C60_empty",
    "Verif.Props.C60_total_not_exact"
   ],
   "note": "Every non-empty message and every language argument: NewCount succeeds and its fields are those of the TPDUs Encode produces for the same message; Remaining >= 0; Tlen bounds the encoded length (C60_total_not_exact shows it can exceed it). Empty messages panic in NewCount (the command rejects them first)."
  },
  {
   "property": "C61",
   "status": "partial",
   "theorems": [
    "Verif.Props.C61_counterexample",
    "Verif.Props.C61_pipes_partial",
    "Verif.Props.C61_unrelated_partial",
    "Verif.Props.C61_removed"
   ],
   "note": "False as stated: Pipes returns slices sharing memory with the Collector, so a segment collected later shows up in them (C61_counterexample). Proved: nothing else can change, i.e. filled slots are kept, empty slots are only filled by segments of the same message collected since, unrelated traffic changes nothing, and slices of messages that left the map (as returned by Collect or given to the handler) never change."
  },
  {
   "property": "C62",
   "status": "partial",
   "theorems": [
    "Verif.Props.C62_decode_counterexample",
    "Verif.Props.C62_decode_partial",
    "Verif.Props.C62_segment_counterexample",
    "Verif.Props.C62_segment_partial",
    "Verif.Props.C62_segment_exact"
   ],
   "note": "False as stated, both for Decode (append to a dangling surrogate writes into the spare capacity of the previous segment's UD; C62_decode_counterexample: another segment sharing the array is overwritten and the text is wrong) and Segment (C62_segment_counterexample: the element after the template's UDH is overwritten). Proved: with slices in disjoint capacity Decode returns what it returns on values and changes no segment; only spare capacity is ever written; Segment returns the TPDUs of the value model and never changes the template's own header. C62_segment_exact says exactly what Segment writes: the element after the header, if the header has spare capacity and the message is too long for one TPDU."
  },
  {
   "property": "C63",
   "status": "partial",
   "theorems": [
    "Verif.Props.C63_user_data_shared",
    "Verif.Props.C63_counterexample",
    "Verif.Props.C63_headers_partial"
   ],
   "note": "False as stated: for every message in several parts, appending an octet to the UD of one TPDU overwrites the first octet of the next (C63_user_data_shared, C63_counterexample). Proved for headers of multi-part messages (C63_headers_partial); a message that fits keeps the template's header slice."
  },
  {
   "property": "C64",
   "status": "partial",
   "theorems": [
    "Verif.Props.C64_counterexample",
    "Verif.Props.C64_calls_partial",
    "Verif.Props.C64_exact"
   ],
   "note": "False as stated when the encoder's option slice has spare capacity, e.g. after three charset options given to NewEncoder (C64_counterexample). Proved for every schedule and any number of calls when it has none, or when at most one of the calls has charset options. C64_exact says exactly when calls cannot disturb each other: when their options do not differ at a position for which there is spare capacity."
  },
  {
   "property": "C65",
   "status": "partial",
   "theorems": [
    "Verif.Props.C65_submit_partial",
    "Verif.Props.C65_invalid_number",
    "Verif.Props.C65_counterexample_long",
    "Verif.Props.C65_exact",
    "Verif.Props.C65_usage"
   ],
   "note": "Proved for numbers of up to 255 digits and UTF-8 texts without ESC, and C65_exact shows that these are exactly the arguments for which it holds. False otherwise: with a number that is not digits every printed line is empty (C65_invalid_number), and a number of 256 digits gives a TPDU that Unmarshal rejects (C65_counterexample_long). C65_usage: the usage is shown exactly when the number or the message is empty."
  },
  {
   "property": "C66",
   "status": "partial",
   "theorems": [
    "Verif.Props.C66_deliver_partial",
    "Verif.Props.C66_plain_partial",
    "Verif.Props.C66_counterexample",
    "Verif.Props.C66_exact",
    "Verif.Props.C66_plain_exact"
   ],
   "note": "Proved for every text that C59_texts_partial is about, in any order, with and without -p. False of texts with ESC (C66_counterexample); C66_exact and C66_plain_exact show that texts that are UTF-8 and in UCS-2 or without U+001B are exactly those printed."
  },
  {
   "property": "C67",
   "status": "partial",
   "theorems": [
    "Verif.Props.C67_decode",
    "Verif.Props.C67_deliver_partial",
    "Verif.Props.C67_counterexample",
    "Verif.Props.C67_fed",
    "Verif.Props.C67_exact"
   ],
   "note": "smsdecode: proved for all arguments (C67_decode). smsdeliver: false, it can panic (C67_counterexample). Proved unless an argument is a TPDU other than SMS-DELIVER that says it is a segment (C67_deliver_partial). C67_exact says exactly which arguments make it panic: those whose segments of unsupported types collide in the one place where all of them are kept."
  },
  {
   "property": "C68",
   "status": "partial",
   "theorems": [
    "Verif.Props.C68_locking_partial",
    "Verif.Props.C68_counterexample",
    "Verif.Props.C68_shift",
    "Verif.Props.C68_decode_partial",
    "Verif.Props.C68_encoder_partial"
   ],
   "note": "Proved of every table and of gsm7.Decode for all octets, except three septets of the Hindi locking table, where it is false: hindi.go gives septets 0..2 the Bengali signs U+0981..U+0983 instead of U+0901..U+0903 (C68_counterexample). The standard is transcribed in Spec/Alphabet.lean. CR2 (0x0d of a shift table) is a control without a character in the standard."
  },
  {
   "property": "C69",
   "status": "partial",
   "theorems": [
    "Verif.Props.C69_alphabet",
    "Verif.Props.C69_class",
    "Verif.Props.C69_compressed",
    "Verif.Props.C69_errors_partial",
    "Verif.Props.C69_counterexample_reserved",
    "Verif.Props.C69_counterexample_class",
    "Verif.Props.C69_compression_ignored"
   ],
   "note": "False as stated in three respects, each with a counterexample: the reserved groups 8 to B are rejected instead of read as GSM 7 bit, Class reports an error for group 00 without a class, and Decode ignores compression. Everything else is proved for all 256 octets against a separate table of the standard."
  },
  {
   "property": "C70",
   "status": "partial",
   "theorems": [
    "Verif.Props.C70_flags",
    "Verif.Props.C70_vpf",
    "Verif.Props.C70_type",
    "Verif.Props.C70_reserved_partial",
    "Verif.Props.C70_counterexample",
    "Verif.Props.C70_single"
   ],
   "note": "Every accessor is proved for all octets. False as stated for the reserved MTI 3, which is rejected in both directions (counterexample)."
  },
  {
   "property": "C71",
   "status": "proved",
   "theorems": [
    "Verif.Props.C71_no_panic",
    "Verif.Props.C71_exact",
    "Verif.Props.C71_period",
    "Verif.Props.C71_rounding"
   ],
   "note": "Proved for all TPDU values; the panic case is excluded and success is characterised exactly."
  },
  {
   "property": "C72",
   "status": "partial",
   "theorems": [
    "Verif.Props.C72_stable_partial",
    "Verif.Props.C72_settles_partial",
    "Verif.Props.C72_exact",
    "Verif.Props.C72_counterexample_dcs",
    "Verif.Props.C72_counterexample_header",
    "Verif.Props.C72_counterexample_overrun",
    "Verif.Props.C72_counterexample_period",
    "Verif.Props.C72_counterexample_time",
    "Verif.Props.C72_counterexample_reports"
   ],
   "note": "False as stated. C72_exact says exactly which TPDUs survive, for every accepted octet string: those of Spec.Kept and no others; each condition of Kept also has a counterexample: reserved DCS, empty header before user data, overlong header overrun, five minute and 100 hour periods, years outside the window, FCS 0, commands with a header."
  },
  {
   "property": "C73",
   "status": "partial",
   "theorems": [
    "Verif.Props.C73_layout_partial",
    "Verif.Props.C73_exact_partial",
    "Verif.Props.C73_unique",
    "Verif.Props.C73_counterexample_header",
    "Verif.Props.C73_counterexample_address",
    "Verif.Props.C73_counterexample_period",
    "Verif.Props.C73_counterexample_command",
    "Verif.Props.C73_counterexample_septets"
   ],
   "note": "For fields that fit their octets MarshalBinary succeeds with p exactly when the TPDU is encodable and p is laid out as Spec.Wire says, and no TPDU has two layouts. False otherwise: a 7-bit header alone is counted one septet short, a 256 digit number gets length 0, periods under ten minutes (and negative ones) are written as others, a command's header is left out, and 7-bit data over 127 run into the next septet."
  },
  {
   "property": "C74",
   "status": "partial",
   "theorems": [
    "Verif.Props.C74_submit_partial",
    "Verif.Props.C74_deliver_partial",
    "Verif.Props.C74_status_report_partial",
    "Verif.Props.C74_command_partial",
    "Verif.Props.C74_deliver_report_partial",
    "Verif.Props.C74_submit_report_partial",
    "Verif.Props.C74_counterexample",
    "Verif.Props.C74_deliver_report_exact",
    "Verif.Props.C74_submit_report_exact",
    "Verif.Props.C74_command_exact"
   ],
   "note": "Proved for all six types, for fields that fit (C73) and that the TPDU can hold (C23 to C27). Reports without a failure cause are misread (C74_counterexample); the exact theorems say that of conforming reports and commands those with a failure cause, and those without a header, are read as what they say, and no others."
  },
  {
   "property": "C75",
   "status": "partial",
   "theorems": [
    "Verif.Props.C75_counterexample",
    "Verif.Props.C75_results_partial",
    "Verif.Props.C75_no_panic_partial",
    "Verif.Props.C75_progress_partial",
    "Verif.Props.C75_exact",
    "Verif.Props.C75_after_first_use_partial"
   ],
   "note": "False as stated: tables are built on first use without synchronisation, so two goroutines can race (C75_counterexample); C75_exact says exactly when. Proved: under sequential consistency every call returns the right and complete table, never panics and takes at most three steps; no race once the tables used have been built (C75_after_first_use_partial). The Go memory model in the presence of the race is not modelled."
  },
  {
   "property": "C76",
   "status": "partial",
   "theorems": [
    "Verif.Props.C76_last_writer",
    "Verif.Props.C76_fields",
    "Verif.Props.C76_new",
    "Verif.Props.C76_build_exact",
    "Verif.Props.C76_announced_partial",
    "Verif.Props.C76_submit_roundtrip_partial",
    "Verif.Props.C76_deliver_roundtrip_partial",
    "Verif.Props.C76_counterexample",
    "Verif.Props.C76_submit_exact",
    "Verif.Props.C76_deliver_exact",
    "Verif.Props.C76_status_exact"
   ],
   "note": "False as stated (C76_counterexample): WithUDH gives a header without setting UDHI, so the header of a submit is read back as text; SetUD(nil) after SetUDH clears the PI bit though the header stays, so a status report loses it. Proved for every list of options and setter calls: C76_last_writer says what each field and flag is (message type options below 4 and validity period formats below 4), C76_build_exact says when building fails and that it never panics. Without WithUDH, SetUD(nil) and empty headers everything present is announced (C76_announced_partial), and submits and delivers built without WithUDH round-trip. Missing: the same with WithUDH, where it is false. C76_fields says which option or setter gives each of the fields, and C76_new what NewSubmit and NewDeliver make. C76_submit_exact, C76_deliver_exact and C76_status_exact say exactly which of those built come back: those whose values can be written and whose header was announced (HeaderSaid)."
  },
  {
   "property": "C77",
   "status": "partial",
   "theorems": [
    "Verif.Props.C77_command_exact",
    "Verif.Props.C77_deliver_report_exact",
    "Verif.Props.C77_submit_report_exact",
    "Verif.Props.C77_status_report_exact",
    "Verif.Props.C77_status_report_bare",
    "Verif.Props.C77_counterexample"
   ],
   "note": "False as stated (C77_counterexample): whatever follows a report that announces no user data, or a command or report whose user data length is 0, is ignored. The exact theorems say for every accepted string of each type that octets may follow just in these cases and that they then change nothing; what follows a status report without a parameter indicator is read as its parameter indicator (C77_status_report_bare)."
  },
  {
   "property": "C78",
   "status": "partial",
   "theorems": [
    "Verif.Props.C78_command_partial",
    "Verif.Props.C78_deliver_report_partial",
    "Verif.Props.C78_submit_report_partial",
    "Verif.Props.C78_status_report_exact",
    "Verif.Props.C78_counterexample",
    "Verif.Props.C78_accepted"
   ],
   "note": "Proved for commands and reports that round-trip (C26, C27). False of status reports with an optional part (C78_counterexample): cut off after the status they are accepted as reports without it, as the standard allows; C78_status_report_exact says this is the only accepted cut. C78_accepted: any octets that are accepted whole and cut short say the same but for that."
  },
  {
   "property": "C79",
   "status": "proved",
   "theorems": [
    "Verif.Props.C79_utf8",
    "Verif.Props.C79_octets"
   ],
   "note": "Proved for every list of segments and every option list: UTF-8 by the table of the Unicode standard (C79_utf8), and 8-bit segments unchanged (C79_octets)."
  },
  {
   "property": "C80",
   "status": "proved",
   "theorems": [
    "Verif.Props.C80_mr",
    "Verif.Props.C80_mr_distinct",
    "Verif.Props.C80_concat",
    "Verif.Props.C80_distinct"
   ],
   "note": "Proved for every interleaving of the atomic counter accesses, for int of 8 to 64 bits."
  },
  {
   "property": "C81",
   "status": "partial",
   "theorems": [
    "Verif.Props.C81_exact",
    "Verif.Props.C81_texts_partial",
    "Verif.Props.C81_counterexample"
   ],
   "note": "False: every call uses reference 1, so two texts to the same number that need the same number of TPDUs, more than one, are mixed up (C81_counterexample). Proved when no two such texts have the same number and count, for the texts that C39 covers; C81_exact shows that these conditions are necessary: otherwise some order of arrival loses a text."
  },
  {
   "property": "C82",
   "status": "partial",
   "theorems": [
    "Verif.Props.C82_exact",
    "Verif.Props.C82_idents",
    "Verif.Props.C82_texts_partial"
   ],
   "note": "Proved with charset options given to the encoder (C64), for the texts that C39 covers, at most 255 TPDUs each, and at most 256 texts of more than one TPDU. C82_exact says when all texts arrive in every order, for any number of texts; C82_idents shows that up to 256 long texts never collide."
  },
  {
   "property": "C83",
   "status": "partial",
   "theorems": [
    "Verif.Props.C83_exact",
    "Verif.Props.C83_standard_partial",
    "Verif.Props.C83_counterexample_kinds",
    "Verif.Props.C83_counterexample_ignored",
    "Verif.Props.C83_counterexample_hidden"
   ],
   "note": "C83_exact says what is reported for every header. False as stated: elements of the one octet kind take precedence wherever they are, elements that the standard tells the receiver to ignore are reported (Collect rejects them), and one of a wrong length hides a valid one (counterexamples). Proved for every header with valid elements of one kind (C83_standard_partial)."
  },
  {
   "property": "C84",
   "status": "proved",
   "theorems": [
    "Verif.Props.C84_exact"
   ],
   "note": "Text is compared octet by octet, for arguments that are decoded; what is not shown (numbering plan, reserved bits, parts of PI and of the enhanced validity indicator) is listed in Spec/Dump."
  },
  {
   "property": "C85",
   "status": "partial",
   "theorems": [
    "Verif.Props.C85_partial",
    "Verif.Props.C85_exact",
    "Verif.Props.C85_counterexample"
   ],
   "note": "False: an alphanumeric originator with an LF forges a line (C85_counterexample). C85_exact: true exactly of the TPDUs whose address has no LF. The validity period, the header and the user data, which take several forms or lines, are left to C84."
  },
  {
   "property": "C86",
   "status": "partial",
   "theorems": [
    "Verif.Props.C86_errors",
    "Verif.Props.C86_partial",
    "Verif.Props.C86_exact",
    "Verif.Props.C86_counterexample"
   ],
   "note": "False: a segment of a type that is not supported is kept although ErrUnsupportedSmsType is returned, and the last one completes the message without an error (C86_counterexample). C86_errors says which error is returned in any state, C86_exact that the error tells whether the TPDU was taken unless it is ErrUnsupportedSmsType."
  },
  {
   "property": "C87",
   "status": "proved",
   "theorems": [
    "Verif.Props.C87_exact",
    "Verif.Props.C87_octets",
    "Verif.Props.C87_inverse"
   ],
   "note": "Both directions: the exact condition on the tables, for UTF-8 texts and for all octets."
  },
  {
   "property": "C88",
   "status": "proved",
   "theorems": [
    "Verif.Props.C88_exact",
    "Verif.Props.C88_page",
    "Verif.Props.C88_package",
    "Verif.Props.C88_command"
   ],
   "note": "All tables; %04x of a negative rune is not modelled."
  },
  {
   "property": "C89",
   "status": "proved",
   "theorems": [
    "Verif.Props.C89_printed",
    "Verif.Props.C89_exact"
   ],
   "note": "After flag parsing, which is not modelled."
  },
  {
   "property": "C90",
   "status": "proved",
   "theorems": [
    "Verif.Props.C90_exact",
    "Verif.Props.C90_total"
   ],
   "note": "exact: for each first octet of a known type the fields and causes reported are those of the list, all of them and no others"
  },
  {
   "property": "C91",
   "status": "proved",
   "theorems": [
    "Verif.Props.C91_exact",
    "Verif.Props.C91_unmarshal",
    "Verif.Props.C91_marshal",
    "Verif.Props.C91_utf8",
    "Verif.Props.C91_printable"
   ],
   "note": "exact for errors whose fields have names of letters, digits and dots, which all errors of Unmarshal and MarshalBinary do"
  },
  {
   "property": "C92",
   "status": "proved",
   "theorems": [
    "Verif.Props.C92_exact",
    "Verif.Props.C92_ok"
   ],
   "note": "exact for all TPDUs: which error is returned, and when none is"
  },
  {
   "property": "C93",
   "status": "partial",
   "theorems": [
    "Verif.Props.C93_exact_partial",
    "Verif.Props.C93_again_partial",
    "Verif.Props.C93_new_partial",
    "Verif.Props.C93_udl_false",
    "Verif.Props.C93_header_false",
    "Verif.Props.C93_pi_false",
    "Verif.Props.C93_dcs_false",
    "Verif.Props.C93_smsc_partial"
   ],
   "note": "The claim as stated is false of the code (C93_udl_false, C93_header_false, C93_pi_false, C93_dcs_false). C93_exact_partial says exactly what is kept, for every receiver and input; C93_again_partial: a second decoding of the same octets changes nothing; C93_smsc_partial: the same for PDU mode."
  },
  {
   "property": "C94",
   "status": "partial",
   "theorems": [
    "Verif.Props.C94_segments_exact",
    "Verif.Props.C94_decoder_exact",
    "Verif.Props.C94_exact",
    "Verif.Props.C94_segments_partial",
    "Verif.Props.C94_counterexample"
   ],
   "note": "False: an escape at the end of a segment is read as a space (C94_counterexample). Exact for two segments (C94_exact, and C94_decoder_exact for any tables) and for any number (C94_segments_exact)."
  },
  {
   "property": "C95",
   "status": "partial",
   "theorems": [
    "Verif.Props.C95_reads_partial",
    "Verif.Props.C95_default_partial",
    "Verif.Props.C95_decode_counterexample",
    "Verif.Props.C95_never_announced",
    "Verif.Props.C95_encode_exact",
    "Verif.Props.C95_encode_counterexample"
   ],
   "note": "False: the code has 24 and 25 in decimal for the elements 0x24 and 0x25 (counterexamples for decoding and encoding). Septets are read by the standard if these numbers are taken for the elements (C95_reads_partial; Hindi as in C68), agreement with neither of the elements (C95_default_partial). What is sent: the elements of the standard are never written (C95_never_announced), and a receiver by the standard reads the text exactly if it needs no language (C95_encode_exact)."
  },
  {
   "property": "C96",
   "status": "proved",
   "theorems": [
    "Verif.Props.C96_lines",
    "Verif.Props.C96_exact",
    "Verif.Props.C96_usage"
   ],
   "note": "Every output is pairs of lines (C96_lines); C96_exact says for which arguments the output can be read back to the text."
  },
  {
   "property": "C97",
   "status": "partial",
   "theorems": [
    "Verif.Props.C97_exact",
    "Verif.Props.C97_unique",
    "Verif.Props.C97_counterexample",
    "Verif.Props.C97_order",
    "Verif.Props.C97_plain_partial"
   ],
   "note": "False: a text with a line feed is printed like two messages (C97_counterexample). C97_exact says which messages are read back as they were collected, C97_unique that reading is unambiguous, C97_order that what is incomplete comes last; C97_plain_partial is the plain use end to end."
  },
  {
   "property": "C98",
   "status": "proved",
   "theorems": [
    "Verif.Props.C98_refines",
    "Verif.Props.C98_partially"
   ],
   "note": "C98_refines links the model with the receiver after an error to the model of the other properties."
  },
  {
   "property": "C99",
   "status": "proved",
   "theorems": [
    "Verif.Props.C99_never_more",
    "Verif.Props.C99_encode",
    "Verif.Props.C99_counterexample"
   ],
   "note": "C99_counterexample shows that tables offered in addition to others can take more TPDUs."
  },
  {
   "property": "C100",
   "status": "proved",
   "theorems": [
    "Verif.Props.C100_named",
    "Verif.Props.C100_submit",
    "Verif.Props.C100_encoder",
    "Verif.Props.C100_same",
    "Verif.Props.C100_tpdus",
    "Verif.Props.C100_counterexample"
   ],
   "note": "C100_counterexample: a message type of more than two bits leaves bits behind in the first octet, so that the last word does not count."
  },
  {
   "property": "C101",
   "status": "partial",
   "theorems": [
    "Verif.Props.C101_set",
    "Verif.Props.C101_absolute",
    "Verif.Props.C101_relative_partial",
    "Verif.Props.C101_enhanced_relative_partial",
    "Verif.Props.C101_seconds_partial",
    "Verif.Props.C101_seconds_exact",
    "Verif.Props.C101_hms_partial",
    "Verif.Props.C101_hms_wraps",
    "Verif.Props.C101_other_kinds",
    "Verif.Props.C101_float_partial",
    "Verif.Props.C101_counterexample"
   ],
   "note": "False as stated (C101_counterexample): five minutes arrive as ten, minus one second as 255 seconds, 100 hours as none, and double precision makes 4097 hours of a nanosecond less. Proved: what each kind of period arrives as (C101_absolute, C101_relative_partial, C101_enhanced_relative_partial, C101_seconds_partial, C101_hms_partial, C101_hms_wraps, C101_other_kinds); for seconds it is no longer exactly if not negative (C101_seconds_exact), for relative periods exactly from ten minutes (C18_floor_exact); the floating point arithmetic is exact below 100 hours and for whole seconds (C101_float_partial)."
  },
  {
   "property": "C102",
   "status": "partial",
   "theorems": [
    "Verif.Props.C102_toa",
    "Verif.Props.C102_type_of_number",
    "Verif.Props.C102_numbering_plan",
    "Verif.Props.C102_set_number",
    "Verif.Props.C102_bit7_partial",
    "Verif.Props.C102_first_octet_partial",
    "Verif.Props.C102_first_octet_exact",
    "Verif.Props.C102_names",
    "Verif.Props.C102_counterexample"
   ],
   "note": "False as stated (C102_counterexample): a zero Address given a number lacks bit 7, and WithVPF and WithMTI do not mask the value. Proved: the parts of the type-of-address and the names without restriction; WithVPF and WithMTI exactly for values that fit (C102_first_octet_exact); bit 7 for addresses made by NewAddress."
  },
  {
   "property": "C103",
   "status": "proved",
   "theorems": [
    "Verif.Props.C103_grammar",
    "Verif.Props.C103_unambiguous",
    "Verif.Props.C103_refused",
    "Verif.Props.C103_submit",
    "Verif.Props.C103_counter",
    "Verif.Props.C103_deliver",
    "Verif.Props.C103_decode",
    "Verif.Props.C103_pdus",
    "Verif.Props.C103_any_message",
    "Verif.Props.C103_traps"
   ],
   "note": "The grammar is that of package flag, for all sets of flags (C103_grammar, C103_unambiguous). C103_traps shows what may surprise: 010 is the language 8, 09 none, and -p behind a PDU is no flag."
  },
  {
   "property": "C104",
   "status": "partial",
   "theorems": [
    "Verif.Props.C104_decode",
    "Verif.Props.C104_counter",
    "Verif.Props.C104_submit",
    "Verif.Props.C104_submit_exact",
    "Verif.Props.C104_pipeline",
    "Verif.Props.C104_deliver",
    "Verif.Props.C104_counterexample"
   ],
   "note": "False: smssubmit and smsdeliver end with status 0 though no TPDU could be made or read (C104_counterexample). C104_decode and C104_counter are as stated; C104_submit, C104_submit_exact and C104_deliver say exactly when the status is 0 and when the output brings the message."
  },
  {
   "property": "C105",
   "status": "proved",
   "theorems": [
    "Verif.Props.C105_exact",
    "Verif.Props.C105_submit",
    "Verif.Props.C105_deliver",
    "Verif.Props.C105_command",
    "Verif.Props.C105_status",
    "Verif.Props.C105_deliver_report",
    "Verif.Props.C105_submit_report"
   ],
   "note": "C105_exact: a TPDU equals what is read back if and only if Spec.Writable. The others say the same of the fields of each type; for reports and status reports with user data the DCS is announced or 0 (an unannounced DCS of another coding may happen to write the same octets)."
  },
  {
   "property": "C106",
   "status": "partial",
   "theorems": [
    "Verif.Props.C106_answers",
    "Verif.Props.C106_deliveries",
    "Verif.Props.C106_repeats_partial",
    "Verif.Props.C106_once",
    "Verif.Props.C106_false",
    "Verif.Props.C106_mixed"
   ],
   "note": "Exact (C106_answers, C106_deliveries, C106_once). Partial as the property is false if TPDUs arrive after their message is complete (C106_false, C106_mixed)."
  },
  {
   "property": "C107",
   "status": "proved",
   "theorems": [
    "Verif.Props.C107_injective",
    "Verif.Props.C107_prefix",
    "Verif.Props.C107_stream",
    "Verif.Props.C107_ambiguous"
   ],
   "note": "C107_injective, C107_prefix (exact), C107_stream; C107_ambiguous shows the exception is one."
  },
  {
   "property": "C108",
   "status": "partial",
   "theorems": [
    "Verif.Props.C108_texts_partial",
    "Verif.Props.C108_separate_partial",
    "Verif.Props.C108_false"
   ],
   "note": "Encoded concurrently by one encoder or by a call of Encode each. Partial as the property is false of messages that share type, other party, reference and number of TPDUs (C108_false), and of the texts that C38 and C39 exclude."
  },
  {
   "property": "C109",
   "status": "proved",
   "theorems": [
    "Verif.Props.C109_answers",
    "Verif.Props.C109_kept",
    "Verif.Props.C109_within",
    "Verif.Props.C109_chained",
    "Verif.Props.C109_reuse",
    "Verif.Props.C109_forgotten",
    "Verif.Props.C109_settled",
    "Verif.Props.C109_repeat"
   ],
   "note": "Events carry times. Timers are assumed to fire no earlier than the timeout after time.AfterFunc (Timely), which package time documents, and for the second half to be dealt with within lag (Prompt). C109_repeat: repeated segments do not restart the timeout."
  },
  {
   "property": "C110",
   "status": "partial",
   "theorems": [
    "Verif.Props.C110_epochs",
    "Verif.Props.C110_messages",
    "Verif.Props.C110_texts_partial",
    "Verif.Props.C110_false",
    "Verif.Props.C110_reuse",
    "Verif.Props.C110_paced_partial"
   ],
   "note": "The Collector's side is proved for all messages (C110_messages) and all arrivals (C110_epochs). One encoder makes texts alike only if a multiple of 256 texts of several TPDUs are encoded in between (C110_reuse), so only those need be apart (C110_paced_partial). Partial for texts that C38 and C39 exclude. Alike messages that arrive nearer to each other than lag may be mixed: C110_false."
  },
  {
   "property": "C111",
   "status": "proved",
   "theorems": [
    "Verif.Props.C111_pack_layout",
    "Verif.Props.C111_pack_over",
    "Verif.Props.C111_pack_under",
    "Verif.Props.C111_same",
    "Verif.Props.C111_unpack_over",
    "Verif.Props.C111_unpack_under",
    "Verif.Props.C111_empty",
    "Verif.Props.C111_round",
    "Verif.Props.C111_octets",
    "Verif.Props.C111_ussd"
   ],
   "note": "Layout for 0 to 8 fill bits, exact results for every other int, agreement with the model of C01-C03 for 0 to 7, round trip, octets that are not septets, no other panic in the USSD forms."
  },
  {
   "property": "C112",
   "status": "proved",
   "theorems": [
    "Verif.Props.C112_exact",
    "Verif.Props.C112_skip",
    "Verif.Props.C112_fatal"
   ],
   "note": "Exact (if and only if) for every list of arguments on which the program does not panic; C67_exact says when it panics."
  },
  {
   "property": "C113",
   "status": "proved",
   "theorems": [
    "Verif.Props.C113_exact"
   ],
   "note": "Exact, for every argument that is accepted."
  },
  {
   "property": "C114",
   "status": "partial",
   "theorems": [
    "Verif.Props.C114_size",
    "Verif.Props.C114_limit_partial",
    "Verif.Props.C114_tight",
    "Verif.Props.C114_encode",
    "Verif.Props.C114_counterexample"
   ],
   "note": "False of commands (C114_counterexample): their data are written as octets, but UDBlockSize counts septets unless the DCS says otherwise. Proved for all other TPDUs (C114_limit_partial) and tight when the other fields are at their longest (C114_tight); C114_size gives the length for all TPDUs, C114_encode for all calls of Encode."
  },
  {
   "property": "C115",
   "status": "proved",
   "theorems": [
    "Verif.Props.C115_returned",
    "Verif.Props.C115_handled",
    "Verif.Props.C115_fired",
    "Verif.Props.C115_given",
    "Verif.Props.C115_pipes_false"
   ],
   "note": "for every history and every interleaving of writes by the receiver; the slices that Pipes returns are excluded by the statement, with a witness that they have to be"
  },
  {
   "property": "C116",
   "status": "partial",
   "theorems": [
    "Verif.Props.C116_segment",
    "Verif.Props.C116_given",
    "Verif.Props.C116_ucs2",
    "Verif.Props.C116_longer_partial",
    "Verif.Props.C116_same_tables",
    "Verif.Props.C116_language_partial",
    "Verif.Props.C116_counterexample",
    "Verif.Props.C116_half"
   ],
   "note": "False as stated when tables of other languages are offered (C116_counterexample: adding a character for which the Portuguese tables are needed halves the number of TPDUs) and when half a character is left (C116_half). Proved: for Segment with any template and any cut; for Encode with a given alphabet; for Encode without tables offered; with tables offered if the text needs UCS-2 or both texts use the same tables. Headers of the template up to 110 octets where the alphabets differ."
  },
  {
   "property": "C117",
   "status": "proved",
   "theorems": [
    "Verif.Props.C117_received",
    "Verif.Props.C117_septets",
    "Verif.Props.C117_settles",
    "Verif.Props.C117_exact",
    "Verif.Props.C117_escape_false"
   ],
   "note": "Proved as stated (C117_received, C117_septets, C117_settles); C117_exact gives the exact condition for a chain of stretches, and C117_escape_false shows that the exception for U+001B is needed."
  },
  {
   "property": "C118",
   "status": "proved",
   "theorems": [
    "Verif.Props.C118_unmarshal",
    "Verif.Props.C118_apart",
    "Verif.Props.C118_one_buffer",
    "Verif.Props.C118_decode",
    "Verif.Props.C118_pdumode",
    "Verif.Props.C118_modem",
    "Verif.Props.C118_pdumode_shared"
   ],
   "note": "Unmarshal in memory refines Unmarshal as a value, writes to no existing array and returns slices of new, non-overlapping arrays (C118_unmarshal, C118_apart); a receiver with one buffer keeps every TPDU right (C118_one_buffer, C118_modem) and decodes them without changing any (C118_decode); pdumode does not copy, stated exactly with a witness (C118_pdumode, C118_pdumode_shared)."
  },
  {
   "property": "C119",
   "status": "proved",
   "theorems": [
    "Verif.Props.C119_append",
    "Verif.Props.C119_messages",
    "Verif.Props.C119_error",
    "Verif.Props.C119_cut",
    "Verif.Props.C119_each"
   ],
   "note": "Exact for every outcome of the first part (C119_append, C119_error, C119_cut); any number of messages by induction (C119_messages); without UCS-2 TPDU by TPDU (C119_each)."
  },
  {
   "property": "C120",
   "status": "proved",
   "theorems": [
    "Verif.Props.C120_decode",
    "Verif.Props.C120_complete",
    "Verif.Props.C120_collect",
    "Verif.Props.C120_text",
    "Verif.Props.C120_element"
   ],
   "note": "Related TPDUs give equal texts and completeness (C120_decode, C120_complete, C120_text); related histories of the Collector give related answers (C120_collect); an added element of another kind is such a difference (C120_element)."
  },
  {
   "property": "C121",
   "status": "proved",
   "theorems": [
    "Verif.Props.C121_idle",
    "Verif.Props.C121_handler"
   ],
   "note": "C121_idle: without a timer running out, timeout and handler make no difference; C121_handler: with timers running out, the handler only gets called."
  },
  {
   "property": "C122",
   "status": "proved",
   "theorems": [
    "Verif.Props.C122_fresh",
    "Verif.Props.C122_calls"
   ],
   "note": "C122_fresh: any history after, with timers old and new; C122_calls: for calls of Collect only."
  },
  {
   "property": "C123",
   "status": "proved",
   "theorems": [
    "Verif.Props.C123_numbers",
    "Verif.Props.C123_failure"
   ],
   "note": "Equality of all results, references included. Sharing of memory between templates and results is the matter of C62 and C63."
  },
  {
   "property": "C124",
   "status": "proved",
   "theorems": [
    "Verif.Props.C124_tables",
    "Verif.Props.C124_same",
    "Verif.Props.C124_unnamed"
   ],
   "note": "C124_tables is exact for all headers and options; C124_same and C124_unnamed follow."
  },
  {
   "property": "C125",
   "status": "partial",
   "theorems": [
    "Verif.Props.C125_answers",
    "Verif.Props.C125_whole_partial",
    "Verif.Props.C125_singly",
    "Verif.Props.C125_cut",
    "Verif.Props.C125_counterexample"
   ],
   "note": "False of more than 255 TPDUs: 300 TPDUs come out as a complete message of the first 44 (C125_counterexample, C125_cut), 256 or 257 each on its own (C125_singly). C125_answers is exact for any number; C125_whole_partial is the property up to 255."
  },
  {
   "property": "C126",
   "status": "partial",
   "theorems": [
    "Verif.Props.C126_present",
    "Verif.Props.C126_decode",
    "Verif.Props.C126_complete",
    "Verif.Props.C126_returned_partial",
    "Verif.Props.C126_handled",
    "Verif.Props.C126_pending",
    "Verif.Props.C126_smsdeliver",
    "Verif.Props.C126_counterexample"
   ],
   "note": "False of slices with missing segments: IsCompleteMessage and Decode dereference the nil pointers in them (C126_counterexample). C126_returned_partial: the property for what Collect returns, with the one case of a lone TPDU that IsCompleteMessage calls incomplete. C126_handled and C126_pending: for what the expiry handler is given and what Pipes shows IsCompleteMessage always panics and Decode panics or fails. C126_present, C126_decode, C126_complete: the exact answers on any slice of pointers. C126_smsdeliver: the same function is what the model of cmd/smsdeliver uses."
  },
  {
   "property": "C127",
   "status": "proved",
   "theorems": [
    "Verif.Props.C127_timers",
    "Verif.Props.C127_divided",
    "Verif.Props.C127_ways",
    "Verif.Props.C127_only",
    "Verif.Props.C127_apart"
   ],
   "note": "C127_timers: each Collector answers its calls, calls the expiry handler, and holds of its messages, as a single one given everything would. C127_divided: the same said with a plain filter where no timer runs out. C127_ways: dividing by type, other party, reference and count keeps messages together. C127_only: every division that keeps messages together is one by these. C127_apart: a Collector that never gets one of the segments returns nothing."
  },
  {
   "property": "C128",
   "status": "partial",
   "theorems": [
    "Verif.Props.C128_agree_partial",
    "Verif.Props.C128_single",
    "Verif.Props.C128_counterexample"
   ],
   "note": "False: IsCompleteMessage looks at neither the type nor the address, and a Collector returns a lone TPDU whatever its segment number (C128_counterexample). C128_agree_partial: for two or more TPDUs the Collector returns them exactly if IsCompleteMessage holds and type and party are the same. C128_single: the exact answers of both for one TPDU."
  },
  {
   "property": "C129",
   "status": "partial",
   "theorems": [
    "Verif.Props.C129_alphabet",
    "Verif.Props.C129_decodes",
    "Verif.Props.C129_same_partial",
    "Verif.Props.C129_length",
    "Verif.Props.C129_counterexample"
   ],
   "note": "The alphabet (C129_alphabet) and the decoded text (C129_decodes) are the same for all arrangements. The octets and header are the same when the default alphabet or at most one choice of tables will do (C129_same_partial), and at most twice as many otherwise (C129_length). False in general: the first table that will do is used, and Turkish before Portuguese takes two TPDUs where Portuguese before Turkish takes one (C129_counterexample)."
  }
 ]
}