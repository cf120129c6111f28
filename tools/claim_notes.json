{
 "C01": {"note": "All septet strings, fill 0..7."},
 "C02": {"note": "All septet strings, fill 0..7; layout for all octet strings."},
 "C03": {"note": "False in general (counterexamples proved). C03_exact says for every message and every number of fill bits whether it round-trips; the partial theorem is the case of 8n-1 septets not ending in septet 0 and 8n septets not ending in septet 6, fill 0."},
 "C04": {"note": "All integers and all octets."},
 "C05": {"note": "All digit strings and buffer sizes."},
 "C06": {"note": "All inputs and buffer sizes; exact description of the result."},
 "C07": {"note": "All rune lists."},
 "C08": {"note": "All byte strings; success and both errors characterised exactly."},
 "C09": {"note": "False for text containing U+001B (counterexample proved); proved for all other text, and the exception is shown to be exact."},
 "C10": {"note": "All byte strings and all table pairs; C10_without_ext: an encoder without extension table.", "status": "proved"},
 "C100": {"note": "C100_counterexample: a message type of more than two bits leaves bits behind in the first octet, so that the last word does not count.", "status": "proved"},
 "C101": {"note": "False as stated (C101_counterexample): five minutes arrive as ten, minus one second as 255 seconds, 100 hours as none, and double precision makes 4097 hours of a nanosecond less. Proved: what each kind of period arrives as (C101_absolute, C101_relative_partial, C101_enhanced_relative_partial, C101_seconds_partial, C101_hms_partial, C101_hms_wraps, C101_other_kinds); for seconds it is no longer exactly if not negative (C101_seconds_exact), for relative periods exactly from ten minutes (C18_floor_exact); the floating point arithmetic is exact below 100 hours and for whole seconds (C101_float_partial).", "status": "partial"},
 "C102": {"note": "False as stated (C102_counterexample): a zero Address given a number lacks bit 7, and WithVPF and WithMTI do not mask the value. Proved: the parts of the type-of-address and the names without restriction; WithVPF and WithMTI exactly for values that fit (C102_first_octet_exact); bit 7 for addresses made by NewAddress.", "status": "partial"},
 "C103": {"note": "The grammar is that of package flag, for all sets of flags (C103_grammar, C103_unambiguous). C103_traps shows what may surprise: 010 is the language 8, 09 none, and -p behind a PDU is no flag.", "status": "proved"},
 "C104": {"note": "False: smssubmit and smsdeliver end with status 0 though no TPDU could be made or read (C104_counterexample). C104_decode and C104_counter are as stated; C104_submit, C104_submit_exact and C104_deliver say exactly when the status is 0 and when the output brings the message.", "status": "partial"},
 "C105": {"note": "C105_exact: a TPDU equals what is read back if and only if Spec.Writable. The others say the same of the fields of each type; for reports and status reports with user data the DCS is announced or 0 (an unannounced DCS of another coding may happen to write the same octets).", "status": "proved"},
 "C106": {"note": "Exact (C106_answers, C106_deliveries, C106_once). Partial as the property is false if TPDUs arrive after their message is complete (C106_false, C106_mixed).", "status": "partial"},
 "C107": {"note": "C107_injective, C107_prefix (exact), C107_stream; C107_ambiguous shows the exception is one.", "status": "proved"},
 "C108": {"note": "Encoded concurrently by one encoder or by a call of Encode each. Partial as the property is false of messages that share type, other party, reference and number of TPDUs (C108_false), and of the texts that C38 and C39 exclude.", "status": "partial"},
 "C109": {"note": "Events carry times. Timers are assumed to fire no earlier than the timeout after time.AfterFunc (Timely), which package time documents, and for the second half to be dealt with within lag (Prompt). C109_repeat: repeated segments do not restart the timeout.", "status": "proved"},
 "C11": {"note": "All byte strings and all tables, with the meaning of each character; C11_options, C11_without_ext: for the options and methods that make a decoder strict or take away its extension table.", "status": "proved"},
 "C110": {"note": "The Collector's side is proved for all messages (C110_messages) and all arrivals (C110_epochs). One encoder makes texts alike only if a multiple of 256 texts of several TPDUs are encoded in between (C110_reuse), so only those need be apart (C110_paced_partial). Partial for texts that C38 and C39 exclude. Alike messages that arrive nearer to each other than lag may be mixed: C110_false.", "status": "partial"},
 "C111": {"note": "Layout for 0 to 8 fill bits, exact results for every other int, agreement with the model of C01-C03 for 0 to 7, round trip, octets that are not septets, no other panic in the USSD forms.", "status": "proved"},
 "C112": {"note": "Exact (if and only if) for every list of arguments on which the program does not panic; C67_exact says when it panics.", "status": "proved"},
 "C113": {"note": "Exact, for every argument that is accepted.", "status": "proved"},
 "C114": {"note": "False of commands (C114_counterexample): their data are written as octets, but UDBlockSize counts septets unless the DCS says otherwise. Proved for all other TPDUs (C114_limit_partial) and tight when the other fields are at their longest (C114_tight); C114_size gives the length for all TPDUs, C114_encode for all calls of Encode.", "status": "partial"},
 "C115": {"note": "for every history and every interleaving of writes by the receiver; the slices that Pipes returns are excluded by the statement, with a witness that they have to be", "status": "proved"},
 "C116": {"note": "False as stated when tables of other languages are offered (C116_counterexample: adding a character for which the Portuguese tables are needed halves the number of TPDUs) and when half a character is left (C116_half). Proved: for Segment with any template and any cut; for Encode with a given alphabet; for Encode without tables offered; with tables offered if the text needs UCS-2 or both texts use the same tables. Headers of the template up to 110 octets where the alphabets differ.", "status": "partial"},
 "C117": {"note": "Proved as stated (C117_received, C117_septets, C117_settles); C117_exact gives the exact condition for a chain of stretches, and C117_escape_false shows that the exception for U+001B is needed.", "status": "proved"},
 "C118": {"note": "Unmarshal in memory refines Unmarshal as a value, writes to no existing array and returns slices of new, non-overlapping arrays (C118_unmarshal, C118_apart); a receiver with one buffer keeps every TPDU right (C118_one_buffer, C118_modem) and decodes them without changing any (C118_decode); pdumode does not copy, stated exactly with a witness (C118_pdumode, C118_pdumode_shared).", "status": "proved"},
 "C119": {"note": "Exact for every outcome of the first part (C119_append, C119_error, C119_cut); any number of messages by induction (C119_messages); without UCS-2 TPDU by TPDU (C119_each).", "status": "proved"},
 "C12": {"note": "All language identifiers; map traversal order shown irrelevant."},
 "C120": {"note": "Related TPDUs give equal texts and completeness (C120_decode, C120_complete, C120_text); related histories of the Collector give related answers (C120_collect); an added element of another kind is such a difference (C120_element).", "status": "proved"},
 "C121": {"note": "C121_idle: without a timer running out, timeout and handler make no difference; C121_handler: with timers running out, the handler only gets called.", "status": "proved"},
 "C122": {"note": "C122_fresh: any history after, with timers old and new; C122_calls: for calls of Collect only.", "status": "proved"},
 "C123": {"note": "Equality of all results, references included. Sharing of memory between templates and results is the matter of C62 and C63.", "status": "proved"},
 "C124": {"note": "C124_tables is exact for all headers and options; C124_same and C124_unnamed follow.", "status": "proved"},
 "C125": {"note": "False of more than 255 TPDUs: 300 TPDUs come out as a complete message of the first 44 (C125_counterexample, C125_cut), 256 or 257 each on its own (C125_singly). C125_answers is exact for any number; C125_whole_partial is the property up to 255.", "status": "partial"},
 "C126": {"note": "False of slices with missing segments: IsCompleteMessage and Decode dereference the nil pointers in them (C126_counterexample). C126_returned_partial: the property for what Collect returns, with the one case of a lone TPDU that IsCompleteMessage calls incomplete. C126_handled and C126_pending: for what the expiry handler is given and what Pipes shows IsCompleteMessage always panics and Decode panics or fails. C126_present, C126_decode, C126_complete: the exact answers on any slice of pointers. C126_smsdeliver: the same function is what the model of cmd/smsdeliver uses.", "status": "partial"},
 "C127": {"note": "C127_timers: each Collector answers its calls, calls the expiry handler, and holds of its messages, as a single one given everything would. C127_divided: the same said with a plain filter where no timer runs out. C127_ways: dividing by type, other party, reference and count keeps messages together. C127_only: every division that keeps messages together is one by these. C127_apart: a Collector that never gets one of the segments returns nothing.", "status": "proved"},
 "C128": {"note": "False: IsCompleteMessage looks at neither the type nor the address, and a Collector returns a lone TPDU whatever its segment number (C128_counterexample). C128_agree_partial: for two or more TPDUs the Collector returns them exactly if IsCompleteMessage holds and type and party are the same. C128_single: the exact answers of both for one TPDU.", "status": "partial"},
 "C129": {"note": "The alphabet (C129_alphabet) and the decoded text (C129_decodes) are the same for all arrangements. The octets and header are the same when the default alphabet or at most one choice of tables will do (C129_same_partial), and at most twice as many otherwise (C129_length). False in general: the first table that will do is used, and Turkish before Portuguese takes two TPDUs where Portuguese before Turkish takes one (C129_counterexample).", "status": "partial"},
 "C13": {"note": "All digit strings up to 255 digits and all trailing bytes; invalid digits rejected."},
 "C14": {"note": "All representable texts of at most 145 septets; the bound is exact. The code's length octet overflows above it."},
 "C15": {"note": "All headers of total length at most 255; IE and IEs for all headers."},
 "C16": {"note": "False: the last element may run past the declared header length, and an empty header is read as no elements (counterexamples proved). Proved: only the last element can overrun; when none does, re-marshalling reproduces the bytes. C16_accepts_exact and C16_reproduced_exact say exactly which octets are accepted and which are reproduced."},
 "C17": {"note": "All instants 1970-2069 and offsets up to 79 quarters; acceptance characterised exactly for all byte strings; calendar validity proved."},
 "C18": {"note": "False for periods from 5 to under 10 minutes and for code 0 (counterexamples proved), and these exceptions are exact (C18_floor_exact for every integer duration, C18_code_exact). Floor and step loss proved on the range where they hold; monotonicity for all durations and codes."},
 "C19": {"note": "Every representable period in every format and all trailing bytes."},
 "C20": {"note": "All 256 octets and all alphabets."},
 "C21": {"note": "All 256 octets and classes 0..3."},
 "C22": {"note": "All TPDU states."},
 "C23": {"note": "Every well-formed SMS-SUBMIT: all alphabets, headers and validity formats. That no others round-trip is C105."},
 "C24": {"note": "Every well-formed SMS-DELIVER. That no others round-trip is C105."},
 "C25": {"note": "Every well-formed SMS-STATUS-REPORT and every parameter indicator. That no others round-trip is C105."},
 "C26": {"note": "False with a user data header, which marshalCommand drops (counterexample proved). C26_exact says which commands round-trip."},
 "C27": {"note": "False for FCS 0, whose octet is written by neither report but read by both (counterexamples proved). The exact theorems say that the others, and only they, round-trip."},
 "C28": {"note": "Every byte string and every prior receiver contents."},
 "C29": {"note": "Every well-formed SMS-SUBMIT and SMS-DELIVER, every cut point."},
 "C30": {"note": "False when the user data length is 0: whatever follows is ignored (counterexample proved). C30_submit_exact and C30_deliver_exact say that this is the only case, for every accepted byte string, and that the result is then the same; the partial theorems are weaker forms. Reports and commands: C77.", "status": "partial"},
 "C31": {"note": "Every rejected byte string; exact field prefix for both directions."},
 "C32": {"note": "UDBlockSize and encodeUserData for SUBMIT/DELIVER, all alphabets, headers and lengths."},
 "C33": {"note": "For every template with room for content (Room: at least 2 septets, 1 octet or 2 units per segment)."},
 "C34": {"note": "C34_exact says for every message which cuts split a character: those in septets after an odd number of escapes, three or more (C34_counterexample has one). Hence proved for UCS-2 and for 7-bit messages without three escapes in a row, which includes all encoded text without U+001B."},
 "C35": {"note": "False beyond 255 segments (C35_too_many, C35_counterexample), and when 16-bit references are used with a template that holds an 8-bit concatenation element. Proved otherwise; C35_exact says these are the only exceptions."},
 "C36": {"note": "Exact form of every segment, including the message references taken from the counter and the counters afterwards."},
 "C37": {"note": "False: panics or loops for headers that leave no room and for reserved MTIs (C37_counterexample). C37_exact characterises exactly when Segment returns; C37_submit_deliver shows SUBMIT/DELIVER with header up to 129 octets always have room."},
 "C38": {"note": "Proved for UTF-8 text with any charset option list and SMS template with room, decoding with any matching options (C38_text_partial, C38_submit_partial), for octets with an 8-bit template and UTF-16 with a UCS-2 template. False for text with U+001B sent in a 7-bit alphabet; C38_exact shows that text is recovered if and only if the coding group can carry the alphabet, the text is UTF-8 and is in UCS-2 or without U+001B; C38_replaced says what comes back, sent in UCS-2, of what is not UTF-8. Also false for templates whose own header announces a national language (C38_counterexample)."},
 "C39": {"note": "Proved for submissions and deliveries with representable fields: text in an automatically chosen alphabet (C39_text_partial), octets and UTF-16 with an explicit one, and the plain library call (C39_submit_partial). Missing, because false (C39_counterexample): text with U+001B in septets; C39_exact and C39_submit_exact show that this and text that is not UTF-8 are the only texts that do not arrive. Templates announcing a national language are excluded."},
 "C40": {"note": "All texts and option lists: default alphabet (C40_default), the first applicable language in the order offered (C40_language), UCS-2 only when none applies (C40_fallback), and the header decodes it (C40_decodes)."},
 "C41": {"note": "Chosen is the specification of the alphabet selection; the theorem is an iff for every template type."},
 "C42": {"note": "False as stated: C42_counterexample; a national language header replaces the template's. C42_header_kept_partial proves it in all other cases, C42_header_replaced says what happens in that case."},
 "C43": {"note": "Stated over every sequence of Encode calls on one encoder; failing calls do not count."},
 "C44": {"note": "Interleaving model with separate call, atomic access and return steps, any number of goroutines, int of w bits. Distinctness holds up to 2^w calls (C44_wraps shows it then fails), so the theorems are named partial."},
 "C45": {"note": "All UCS-2 segments of even length and every cut, also inside a surrogate pair."},
 "C46": {"note": "All segment lists and options: C46_exact is an iff, C46_errors says which error."},
 "C47": {"note": "All TPDU lists: an iff with a specification in terms of the concatenation elements."},
 "C48": {"note": "From any reachable open state with nothing pending of the message; any permutation (C48_any_order), also with repetitions (C48_repeated)."},
 "C49": {"note": "Every history of Collect calls, timer steps and Close with SUBMIT/DELIVER TPDUs (other types if single)."},
 "C50": {"note": "Exactly one place for every accepted call, none for rejected ones; duplicate rejection characterised by an iff."},
 "C51": {"note": "Timers fire, run their critical section and call the handler in three separate steps interleaved with anything."},
 "C52": {"note": "Arbitrary TPDUs of all types before and after Close."},
 "C53": {"note": "Refinement: what one message sees equals the run of a stand-alone specification of one reassembly (Spec/Reassembly.lean)."},
 "C54": {"note": "False for unsupported TPDU types (C54_counterexample). Proved for all histories of supported TPDUs; C54_exact characterises exactly when Collect panics for arbitrary TPDUs."},
 "C55": {"note": "False of an address with a type but no digits (C55_counterexample); C55_exact says what is returned in every case up to 508 digits, C55_bound shows that bound is needed."},
 "C56": {"note": "Exact: which octet strings and texts are accepted and what they give."},
 "C57": {"note": "Every string."},
 "C58": {"note": "False for malformed UCS-2 (C58_counterexample). Proved for all 7-bit and 8-bit messages and for UCS-2 with paired surrogates (includes all encoded text). For any other UCS-2 message C58_malformed_partial: no cutting whose pieces but the last are whole units and do not end in a high surrogate has fewer pieces.", "status": "partial"},
 "C59": {"note": "Segments: any number of messages, any order, also amid other events (C59_messages, C59_once). Texts end to end (Encoder, wire, Collector, Decode) except those C38 excludes (C59_texts_partial, C59_submit_partial). C59_exact and C59_submit_exact show that exactly those come back that are UTF-8 and in UCS-2 or without U+001B; C59_as_encoded says what comes back of any text. References are counted modulo 256: C59_always_exact says for any number of texts when all orders of arrival work (C59_few: up to 256 long texts always do); with 257 long texts of equal size to one number one can get lost (C59_limit)."},
 "C60": {"note": "Every non-empty message and every language argument: NewCount succeeds and its fields are those of the TPDUs Encode produces for the same message; Remaining >= 0; Tlen bounds the encoded length (C60_total_not_exact shows it can exceed it). Empty messages panic in NewCount (the command rejects them first)."},
 "C61": {"note": "False as stated: Pipes returns slices sharing memory with the Collector, so a segment collected later shows up in them (C61_counterexample). Proved: nothing else can change, i.e. filled slots are kept, empty slots are only filled by segments of the same message collected since, unrelated traffic changes nothing, and slices of messages that left the map (as returned by Collect or given to the handler) never change."},
 "C62": {"note": "False as stated, both for Decode (append to a dangling surrogate writes into the spare capacity of the previous segment's UD; C62_decode_counterexample: another segment sharing the array is overwritten and the text is wrong) and Segment (C62_segment_counterexample: the element after the template's UDH is overwritten). Proved: with slices in disjoint capacity Decode returns what it returns on values and changes no segment; only spare capacity is ever written; Segment returns the TPDUs of the value model and never changes the template's own header. C62_segment_exact says exactly what Segment writes: the element after the header, if the header has spare capacity and the message is too long for one TPDU."},
 "C63": {"note": "False as stated: for every message in several parts, appending an octet to the UD of one TPDU overwrites the first octet of the next (C63_user_data_shared, C63_counterexample). Proved for headers of multi-part messages (C63_headers_partial); a message that fits keeps the template's header slice."},
 "C64": {"note": "False as stated when the encoder's option slice has spare capacity, e.g. after three charset options given to NewEncoder (C64_counterexample). Proved for every schedule and any number of calls when it has none, or when at most one of the calls has charset options. C64_exact says exactly when calls cannot disturb each other: when their options do not differ at a position for which there is spare capacity."},
 "C65": {"note": "Proved for numbers of up to 255 digits and UTF-8 texts without ESC, and C65_exact shows that these are exactly the arguments for which it holds. False otherwise: with a number that is not digits every printed line is empty (C65_invalid_number), and a number of 256 digits gives a TPDU that Unmarshal rejects (C65_counterexample_long). C65_usage: the usage is shown exactly when the number or the message is empty."},
 "C66": {"note": "Proved for every text that C59_texts_partial is about, in any order, with and without -p. False of texts with ESC (C66_counterexample); C66_exact and C66_plain_exact show that texts that are UTF-8 and in UCS-2 or without U+001B are exactly those printed."},
 "C67": {"note": "smsdecode: proved for all arguments (C67_decode). smsdeliver: false, it can panic (C67_counterexample). Proved unless an argument is a TPDU other than SMS-DELIVER that says it is a segment (C67_deliver_partial). C67_exact says exactly which arguments make it panic: those whose segments of unsupported types collide in the one place where all of them are kept.", "status": "partial"},
 "C68": {"note": "Proved of every table and of gsm7.Decode for all octets, except three septets of the Hindi locking table, where it is false: hindi.go gives septets 0..2 the Bengali signs U+0981..U+0983 instead of U+0901..U+0903 (C68_counterexample). The standard is transcribed in Spec/Alphabet.lean. CR2 (0x0d of a shift table) is a control without a character in the standard."},
 "C69": {"note": "False as stated in three respects, each with a counterexample: the reserved groups 8 to B are rejected instead of read as GSM 7 bit, Class reports an error for group 00 without a class, and Decode ignores compression. Everything else is proved for all 256 octets against a separate table of the standard."},
 "C70": {"note": "Every accessor is proved for all octets. False as stated for the reserved MTI 3, which is rejected in both directions (counterexample)."},
 "C71": {"note": "Proved for all TPDU values; the panic case is excluded and success is characterised exactly."},
 "C72": {"note": "False as stated. C72_exact says exactly which TPDUs survive, for every accepted octet string: those of Spec.Kept and no others; each condition of Kept also has a counterexample: reserved DCS, empty header before user data, overlong header overrun, five minute and 100 hour periods, years outside the window, FCS 0, commands with a header."},
 "C73": {"note": "For fields that fit their octets MarshalBinary succeeds with p exactly when the TPDU is encodable and p is laid out as Spec.Wire says, and no TPDU has two layouts. False otherwise: a 7-bit header alone is counted one septet short, a 256 digit number gets length 0, periods under ten minutes (and negative ones) are written as others, a command's header is left out, and 7-bit data over 127 run into the next septet."},
 "C74": {"note": "Proved for all six types, for fields that fit (C73) and that the TPDU can hold (C23 to C27). Reports without a failure cause are misread (C74_counterexample); the exact theorems say that of conforming reports and commands those with a failure cause, and those without a header, are read as what they say, and no others.", "status": "partial"},
 "C75": {"note": "False as stated: tables are built on first use without synchronisation, so two goroutines can race (C75_counterexample); C75_exact says exactly when. Proved: under sequential consistency every call returns the right and complete table, never panics and takes at most three steps; no race once the tables used have been built (C75_after_first_use_partial). The Go memory model in the presence of the race is not modelled.", "status": "partial"},
 "C76": {"note": "False as stated (C76_counterexample): WithUDH gives a header without setting UDHI, so the header of a submit is read back as text; SetUD(nil) after SetUDH clears the PI bit though the header stays, so a status report loses it. Proved for every list of options and setter calls: C76_last_writer says what each field and flag is (message type options below 4 and validity period formats below 4), C76_build_exact says when building fails and that it never panics. Without WithUDH, SetUD(nil) and empty headers everything present is announced (C76_announced_partial), and submits and delivers built without WithUDH round-trip. Missing: the same with WithUDH, where it is false. C76_fields says which option or setter gives each of the fields, and C76_new what NewSubmit and NewDeliver make. C76_submit_exact, C76_deliver_exact and C76_status_exact say exactly which of those built come back: those whose values can be written and whose header was announced (HeaderSaid).", "status": "partial"},
 "C77": {"note": "False as stated (C77_counterexample): whatever follows a report that announces no user data, or a command or report whose user data length is 0, is ignored. The exact theorems say for every accepted string of each type that octets may follow just in these cases and that they then change nothing; what follows a status report without a parameter indicator is read as its parameter indicator (C77_status_report_bare).", "status": "partial"},
 "C78": {"note": "Proved for commands and reports that round-trip (C26, C27). False of status reports with an optional part (C78_counterexample): cut off after the status they are accepted as reports without it, as the standard allows; C78_status_report_exact says this is the only accepted cut. C78_accepted: any octets that are accepted whole and cut short say the same but for that.", "status": "partial"},
 "C79": {"note": "Proved for every list of segments and every option list: UTF-8 by the table of the Unicode standard (C79_utf8), and 8-bit segments unchanged (C79_octets)."},
 "C80": {"note": "Proved for every interleaving of the atomic counter accesses, for int of 8 to 64 bits."},
 "C81": {"note": "False: every call uses reference 1, so two texts to the same number that need the same number of TPDUs, more than one, are mixed up (C81_counterexample). Proved when no two such texts have the same number and count, for the texts that C39 covers; C81_exact shows that these conditions are necessary: otherwise some order of arrival loses a text."},
 "C82": {"note": "Proved with charset options given to the encoder (C64), for the texts that C39 covers, at most 255 TPDUs each, and at most 256 texts of more than one TPDU. C82_exact says when all texts arrive in every order, for any number of texts; C82_idents shows that up to 256 long texts never collide."},
 "C83": {"note": "C83_exact says what is reported for every header. False as stated: elements of the one octet kind take precedence wherever they are, elements that the standard tells the receiver to ignore are reported (Collect rejects them), and one of a wrong length hides a valid one (counterexamples). Proved for every header with valid elements of one kind (C83_standard_partial)."},
 "C84": {"note": "Text is compared octet by octet, for arguments that are decoded; what is not shown (numbering plan, reserved bits, parts of PI and of the enhanced validity indicator) is listed in Spec/Dump.", "status": "proved"},
 "C85": {"note": "False: an alphanumeric originator with an LF forges a line (C85_counterexample). C85_exact: true exactly of the TPDUs whose address has no LF. The validity period, the header and the user data, which take several forms or lines, are left to C84.", "status": "partial"},
 "C86": {"note": "False: a segment of a type that is not supported is kept although ErrUnsupportedSmsType is returned, and the last one completes the message without an error (C86_counterexample). C86_errors says which error is returned in any state, C86_exact that the error tells whether the TPDU was taken unless it is ErrUnsupportedSmsType.", "status": "partial"},
 "C87": {"note": "Both directions: the exact condition on the tables, for UTF-8 texts and for all octets.", "status": "proved"},
 "C88": {"note": "All tables; %04x of a negative rune is not modelled.", "status": "proved"},
 "C89": {"note": "After flag parsing, which is not modelled.", "status": "proved"},
 "C90": {"note": "exact: for each first octet of a known type the fields and causes reported are those of the list, all of them and no others", "status": "proved"},
 "C91": {"note": "exact for errors whose fields have names of letters, digits and dots, which all errors of Unmarshal and MarshalBinary do", "status": "proved"},
 "C92": {"note": "exact for all TPDUs: which error is returned, and when none is", "status": "proved"},
 "C93": {"note": "The claim as stated is false of the code (C93_udl_false, C93_header_false, C93_pi_false, C93_dcs_false). C93_exact_partial says exactly what is kept, for every receiver and input; C93_again_partial: a second decoding of the same octets changes nothing; C93_smsc_partial: the same for PDU mode.", "status": "partial"},
 "C94": {"note": "False: an escape at the end of a segment is read as a space (C94_counterexample). Exact for two segments (C94_exact, and C94_decoder_exact for any tables) and for any number (C94_segments_exact).", "status": "partial"},
 "C95": {"note": "False: the code has 24 and 25 in decimal for the elements 0x24 and 0x25 (counterexamples for decoding and encoding). Septets are read by the standard if these numbers are taken for the elements (C95_reads_partial; Hindi as in C68), agreement with neither of the elements (C95_default_partial). What is sent: the elements of the standard are never written (C95_never_announced), and a receiver by the standard reads the text exactly if it needs no language (C95_encode_exact).", "status": "partial"},
 "C96": {"note": "Every output is pairs of lines (C96_lines); C96_exact says for which arguments the output can be read back to the text.", "status": "proved"},
 "C97": {"note": "False: a text with a line feed is printed like two messages (C97_counterexample). C97_exact says which messages are read back as they were collected, C97_unique that reading is unambiguous, C97_order that what is incomplete comes last; C97_plain_partial is the plain use end to end.", "status": "partial"},
 "C98": {"note": "C98_refines links the model with the receiver after an error to the model of the other properties.", "status": "proved"},
 "C99": {"note": "C99_counterexample shows that tables offered in addition to others can take more TPDUs.", "status": "proved"}
}
