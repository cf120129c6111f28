{"id": "C01", "title": "7-bit packing follows the GSM bit layout", "statement": "gsm7.Pack7Bit(u, fill) returns the shortest octet string whose bits, read least-significant first, are `fill` zero bits followed by the 7 low bits of each septet in order (least-significant first) followed only by zero padding.", "quantifier": "every septet string of every length and every fill count 0..7", "why_tests_cant": "the residual-bit state machine has 8 phases times unbounded length and 2^7 values per septet", "anchors": ["encoding/gsm7/7bit.go:Pack7Bit"]}
{"id": "C02", "title": "7-bit unpacking inverts packing", "statement": "gsm7.Unpack7Bit(gsm7.Pack7Bit(u, fill), fill) is u, or u followed by exactly one zero septet, and the extra zero septet appears exactly when the packed form has 7 spare bits; on any octet string Unpack7Bit yields the consecutive 7-bit groups after the fill bits.", "quantifier": "every septet string, every octet string, every fill count 0..6", "why_tests_cant": "unbounded length and all fill phases", "anchors": ["encoding/gsm7/7bit.go:Unpack7Bit", "encoding/gsm7/7bit.go:Pack7Bit"]}
{"id": "C03", "title": "USSD packing round-trips", "statement": "gsm7.Unpack7BitUSSD(gsm7.Pack7BitUSSD(u, fill), fill) returns u for every septet string (up to the CR ambiguity that TS 23.038 6.1.2.3.1 itself documents: an 8n-1 septet message is padded with CR and an 8n septet message ending in CR gains a CR).", "quantifier": "every septet string and fill count", "why_tests_cant": "the filler decision is taken from the value of the last octet rather than from the number of spare bits, so failures depend on particular septet values at particular lengths", "anchors": ["encoding/gsm7/7bit.go:Pack7BitUSSD", "encoding/gsm7/7bit.go:Unpack7BitUSSD"]}
{"id": "C04", "title": "BCD octets round-trip and out-of-range input is rejected", "statement": "bcd.Encode succeeds exactly on 0..99 and bcd.Decode inverts it; bcd.EncodeSigned succeeds exactly on -79..79 and bcd.DecodeSigned inverts it; Decode/DecodeSigned succeed exactly on octets with valid digit nibbles, and re-encoding a decoded octet returns the octet (the signed minus-zero octet 0x08 excepted).", "quantifier": "every Go int and every octet", "why_tests_cant": "the encode domain is the whole int range", "anchors": ["encoding/bcd/bcd.go"]}
{"id": "C05", "title": "Semi-octet digits round-trip", "statement": "semioctet.Encode succeeds exactly when every byte is one of 0-9*#abc, produces ceil(n/2) octets, and semioctet.Decode into a buffer of n digits (or any larger buffer) returns exactly the original digits and consumes the whole encoding.", "quantifier": "every byte string of every length and every buffer size at least its length", "why_tests_cant": "unbounded strings", "anchors": ["encoding/semioctet/semioctet.go"]}
{"id": "C06", "title": "Semi-octet decoding is safe on arbitrary input", "statement": "semioctet.Decode never panics, never returns more digits than the buffer holds, never reports reading more octets than supplied, and every returned byte is one of 0-9*#abc.", "quantifier": "every octet string and every buffer length", "why_tests_cant": "arbitrary malformed input of any length", "anchors": ["encoding/semioctet/semioctet.go:Decode"]}
{"id": "C07", "title": "UCS-2 encode/decode round-trips all text", "statement": "ucs2.Decode(ucs2.Encode(rs)) succeeds and returns rs, with every rune that is not a Unicode scalar value replaced by U+FFFD; the encoding of scalar values is big-endian UTF-16.", "quantifier": "every rune slice", "why_tests_cant": "over a million code points in sequences of any length", "anchors": ["encoding/ucs2/ucs2.go"]}
{"id": "C08", "title": "UCS-2 decoding classifies every input", "statement": "ucs2.Decode never panics; it reports an invalid-length error exactly on odd-length input; it reports a dangling surrogate only when the input ends in an unpaired final surrogate unit, in which case the error carries exactly the last two bytes and the returned runes are the decoding of everything before them; otherwise it succeeds.", "quantifier": "every byte string", "why_tests_cant": "malformed input of any length", "anchors": ["encoding/ucs2/ucs2.go:Decode"]}
{"id": "C09", "title": "GSM 7-bit text round-trips in every character set", "statement": "if gsm7.Encode(text, WithCharset(l), WithExtCharset(s)) succeeds then gsm7.Decode of the septets with the same character sets returns the same text.", "quantifier": "every UTF-8 text and every locking/shift language pair (any ints)", "why_tests_cant": "unbounded text over 14x14 table pairs", "anchors": ["encoding/gsm7/gsm7.go", "encoding/gsm7/charset"]}
{"id": "C10", "title": "GSM 7-bit encoding succeeds exactly on representable text and yields septets", "statement": "gsm7.Encode succeeds exactly when every character of the text is in the locking or the shift table; on success every output byte is below 0x80 and the output length is the number of characters plus the number of shifted characters; on failure the error names the first unrepresentable character.", "quantifier": "every byte string (valid UTF-8 or not) and every language pair", "why_tests_cant": "unbounded text", "anchors": ["encoding/gsm7/gsm7.go:Encode"]}
{"id": "C11", "title": "GSM 7-bit decoding is total and yields valid UTF-8", "statement": "non-strict gsm7.Decode succeeds on every byte string and its result is valid UTF-8; strict Decode either returns the same bytes as non-strict Decode or reports a septet that occurs in the input and has no mapping in the table consulted.", "quantifier": "every byte string and every language pair", "why_tests_cant": "arbitrary input of any length", "anchors": ["encoding/gsm7/gsm7.go:Decode"]}
{"id": "C12", "title": "Character set tables are mutually consistent", "statement": "for every language identifier the encoder table is a section of the decoder table (encoding a character and looking the septet up gives the character back), encodes every character the decoder can produce, and only uses septets below 0x80; unknown identifiers behave as the default alphabet.", "quantifier": "every int used as language identifier and every rune", "why_tests_cant": "quantifies over all ints and all runes; tables are built at run time by iteration over maps in random order", "anchors": ["encoding/gsm7/charset/charset.go"]}
{"id": "C13", "title": "Numeric addresses round-trip", "statement": "for a non-alphanumeric Address whose digits are valid and number at most 255, MarshalBinary succeeds and UnmarshalBinary of the result followed by any further bytes returns the same address and the number of bytes that were marshalled; with an invalid digit MarshalBinary reports an error.", "quantifier": "every address and every trailing byte string", "why_tests_cant": "unbounded digits", "anchors": ["encoding/tpdu/address.go", "encoding/semioctet/semioctet.go"]}
{"id": "C14", "title": "Alphanumeric addresses round-trip", "statement": "for an alphanumeric Address whose text is representable in the default alphabet without escapes (and short enough that its length fits the length octet), MarshalBinary succeeds and UnmarshalBinary of the result followed by any further bytes returns the same address and consumes exactly the marshalled bytes.", "quantifier": "every such address, including those ending in '@' and those of 8n-1 characters", "why_tests_cant": "length/fill interaction depends on length mod 8 and on values of last septets", "anchors": ["encoding/tpdu/address.go", "encoding/gsm7/7bit.go", "encoding/gsm7/gsm7.go"]}
{"id": "C15", "title": "User data headers round-trip", "statement": "for a UDH whose elements fit their length octets, MarshalBinary returns UDHL()+1 bytes and UnmarshalBinary of them followed by any bytes returns the same elements and UDHL()+1; IE(id) returns the last element with that id and IEs(id) all of them in order.", "quantifier": "every list of information elements of total length at most 255", "why_tests_cant": "unbounded header shapes", "anchors": ["encoding/tpdu/userdata.go"]}
{"id": "C16", "title": "User data header parsing stays inside the declared header length", "statement": "when UserDataHeader.UnmarshalBinary succeeds on src, the elements returned lie within the first UDHL+1 bytes of src and re-marshalling them reproduces those bytes.", "quantifier": "every byte string", "why_tests_cant": "depends on crafted length octets", "anchors": ["encoding/tpdu/userdata.go:UserDataHeader.UnmarshalBinary"]}
{"id": "C17", "title": "Timestamps round-trip", "statement": "a Timestamp with whole seconds, in the years 1970..2069, whose zone offset is a multiple of 15 minutes of magnitude at most 79 quarters, marshals to 7 octets that unmarshal to the same instant and the same offset; UnmarshalBinary rejects exactly the inputs that are short or contain a non-decimal nibble.", "quantifier": "every instant and offset in that domain, every byte string", "why_tests_cant": "about 3 billion instants times 159 zones", "anchors": ["encoding/tpdu/timestamp.go", "encoding/bcd/bcd.go"]}
{"id": "C18", "title": "Relative validity periods are encoded without overshooting", "statement": "encoding a relative validity period and decoding it never yields a longer period than requested (for periods of at least five minutes), loses less than one step of the scale in use, is monotone, and each of the 256 codes decodes to a period that encodes back to that code.", "quantifier": "every non-negative duration and every code", "why_tests_cant": "2^63 durations", "anchors": ["encoding/tpdu/validityperiod.go:durationToRelative", "encoding/tpdu/validityperiod.go:relativeToDuration"]}
{"id": "C19", "title": "Validity periods round-trip in every format", "statement": "ValidityPeriod.UnmarshalBinary of MarshalBinary, with the same format and any trailing bytes, restores the period for every format (absent, relative, absolute, and each enhanced sub-format) when the value is representable, and consumes exactly the bytes marshalled.", "quantifier": "every representable period and EFI octet", "why_tests_cant": "unbounded durations and all EFI octets", "anchors": ["encoding/tpdu/validityperiod.go"]}
{"id": "C20", "title": "DCS alphabet updates are faithful", "statement": "if DCS.WithAlphabet(a) succeeds for a defined alphabet then Alphabet() of the result is a, and message class and compression are unchanged; it fails exactly for the coding groups that cannot carry that alphabet.", "quantifier": "all 256 DCS octets and all alphabets", "why_tests_cant": "exhaustive over octet x alphabet with interaction of three fields", "anchors": ["encoding/tpdu/dcs.go"]}
{"id": "C21", "title": "DCS class updates are faithful", "statement": "if DCS.WithClass(c) succeeds for a message class 0..3 then Class() of the result is c and the alphabet and compression are unchanged.", "quantifier": "all 256 DCS octets and all classes", "why_tests_cant": "exhaustive interaction", "anchors": ["encoding/tpdu/dcs.go"]}
{"id": "C22", "title": "TPDU type setters and getters agree and leave other flags alone", "statement": "after SetSmsType(st), for the six defined types, SmsType() is st and every first-octet bit other than the two MTI bits is unchanged; other values are rejected and change nothing; SetVP changes only the VPF bits and makes FirstOctet.VPF equal the period's format; SetUDH/SetUD/SetDCS/SetPID keep the UDHI/PI indicators consistent with what is set.", "quantifier": "every TPDU state", "why_tests_cant": "all combinations of prior flags", "anchors": ["encoding/tpdu/tpdu.go", "encoding/tpdu/firstoctet.go"]}
{"id": "C23", "title": "SMS-SUBMIT TPDUs round-trip", "statement": "for a well-formed SMS-SUBMIT (indicator bits consistent with the contents, fields representable, UDL at most 255) MarshalBinary succeeds and UnmarshalBinary into a fresh MO TPDU yields a TPDU with the same first octet, MR, DA, PID, DCS, VP, UDH and UD.", "quantifier": "every well-formed SUBMIT for all three alphabets, with and without UDH, all validity formats", "why_tests_cant": "product of many unbounded fields", "anchors": ["encoding/tpdu/tpdu.go:marshalSubmit", "encoding/tpdu/tpdu.go:unmarshalSubmit"]}
{"id": "C24", "title": "SMS-DELIVER TPDUs round-trip", "statement": "for a well-formed SMS-DELIVER MarshalBinary succeeds and UnmarshalBinary into a fresh MT TPDU yields the same first octet, OA, PID, DCS, SCTS, UDH and UD.", "quantifier": "every well-formed DELIVER", "why_tests_cant": "product of many unbounded fields", "anchors": ["encoding/tpdu/tpdu.go:marshalDeliver", "encoding/tpdu/tpdu.go:unmarshalDeliver"]}
{"id": "C25", "title": "SMS-STATUS-REPORT TPDUs round-trip", "statement": "for a well-formed SMS-STATUS-REPORT MarshalBinary succeeds and UnmarshalBinary into a fresh MT TPDU yields the same mandatory fields and exactly the optional fields announced by PI.", "quantifier": "every well-formed STATUS-REPORT and every PI", "why_tests_cant": "all PI combinations times unbounded fields", "anchors": ["encoding/tpdu/tpdu.go:marshalStatusReport", "encoding/tpdu/tpdu.go:unmarshalStatusReport"]}
{"id": "C26", "title": "SMS-COMMAND TPDUs round-trip", "statement": "for a well-formed SMS-COMMAND MarshalBinary succeeds and UnmarshalBinary into a fresh MO TPDU yields the same MR, PID, CT, MN, DA, UDH and command data.", "quantifier": "every SMS-COMMAND", "why_tests_cant": "unbounded fields", "anchors": ["encoding/tpdu/tpdu.go:marshalCommand", "encoding/tpdu/tpdu.go:unmarshalCommand"]}
{"id": "C27", "title": "SMS-DELIVER-REPORT and SMS-SUBMIT-REPORT TPDUs round-trip", "statement": "for a well-formed report MarshalBinary succeeds and UnmarshalBinary into a fresh TPDU of the same direction yields the same FCS, PI, SCTS (submit report) and exactly the optional fields announced by PI.", "quantifier": "every well-formed report, for RP-ACK (FCS 0) and RP-ERROR", "why_tests_cant": "all PI combinations", "anchors": ["encoding/tpdu/tpdu.go:marshalDeliverReport", "encoding/tpdu/tpdu.go:unmarshalDeliverReport", "encoding/tpdu/tpdu.go:marshalSubmitReport", "encoding/tpdu/tpdu.go:unmarshalSubmitReport"]}
{"id": "C28", "title": "Unmarshalling never panics", "statement": "sms.Unmarshal and TPDU.UnmarshalBinary return normally (a TPDU or an error) on every input.", "quantifier": "every byte string, either direction, any prior TPDU contents", "why_tests_cant": "adversarial input from the network", "anchors": ["encoding/tpdu/tpdu.go:UnmarshalBinary", "sms.go:Unmarshal"]}
{"id": "C29", "title": "Truncated TPDUs are rejected", "statement": "if the marshalled form of a well-formed SMS-SUBMIT or SMS-DELIVER is cut short anywhere, Unmarshal reports an error.", "quantifier": "every well-formed TPDU and every proper prefix of its binary form", "why_tests_cant": "every cut point of every message", "anchors": ["encoding/tpdu/tpdu.go"]}
{"id": "C30", "title": "Trailing bytes are rejected", "statement": "if Unmarshal accepts a byte string as SMS-SUBMIT or SMS-DELIVER, then it rejects that byte string with any non-empty bytes appended.", "quantifier": "every accepted byte string and every non-empty suffix", "why_tests_cant": "adversarial input", "anchors": ["encoding/tpdu/tpdu.go:decodeUserData"]}
{"id": "C31", "title": "Decode errors point into the input", "statement": "when Unmarshal reports a decode error its offset is between 0 and the length of the input and its field path starts with the TPDU type (or names the first octet).", "quantifier": "every rejected byte string", "why_tests_cant": "adversarial input", "anchors": ["encoding/tpdu/tpdu.go", "encoding/tpdu/error.go"]}
{"id": "C32", "title": "UDBlockSize is exactly what fits", "statement": "for an SMS-SUBMIT or SMS-DELIVER TPDU, user data of n units (septets or octets) marshals together with the UDH into at most 140 octets exactly when n is at most UDBlockSize() (for UCS-2, over even n).", "quantifier": "every TPDU with any UDH, every n, all alphabets", "why_tests_cant": "arithmetic over all header lengths mod 7", "anchors": ["encoding/tpdu/tpdu.go:UDBlockSize"]}
{"id": "C33", "title": "Segmentation loses nothing and every piece fits", "statement": "TPDU.Segment(msg) returns TPDUs whose UDs concatenate to msg, each non-empty and no larger than the TPDU's own UDBlockSize(); a message that fits yields exactly one TPDU carrying it unchanged, and an empty message yields none.", "quantifier": "every message and every template whose UDH leaves room for content", "why_tests_cant": "unbounded messages; boundary interaction of escapes/surrogates with block ends", "anchors": ["encoding/tpdu/tpdu.go:Segment", "encoding/tpdu/tpdu.go:chunk"]}
{"id": "C34", "title": "Segmentation never splits a character", "statement": "no segment boundary separates an escape septet from the septet it shifts (7-bit) or a high surrogate from its low surrogate (UCS-2), so segment-wise decoding equals whole decoding.", "quantifier": "every encoded message and every template", "why_tests_cant": "every alignment of characters to block ends", "anchors": ["encoding/tpdu/tpdu.go:chunk7Bit", "encoding/tpdu/tpdu.go:chunkUCS2"]}
{"id": "C35", "title": "Segments carry correct concatenation information", "statement": "when Segment returns n>1 TPDUs, ConcatInfo of the i-th is (n, i, ref) with one shared ref (modulo 2^8, or 2^16 with With16BitConcatRef), IsCompleteMessage holds of the result, and the UDHI bit is set.", "quantifier": "every message, template and counter", "why_tests_cant": "segment counts beyond the IE's octet", "anchors": ["encoding/tpdu/tpdu.go:Segment", "encoding/tpdu/userdata.go:ConcatInfo", "sms.go:IsCompleteMessage"]}
{"id": "C36", "title": "Segmentation preserves the template", "statement": "every TPDU returned by Segment equals the template in every field other than MR (when a counter is supplied), UD, and, for multi-part messages, the appended concatenation IE, UDHI and PI-UDL indicators; in particular the template's own UDH elements are kept, in order, in every segment.", "quantifier": "every template and message", "why_tests_cant": "unbounded", "anchors": ["encoding/tpdu/tpdu.go:Segment"]}
{"id": "C37", "title": "Segmentation always returns", "statement": "Segment neither panics nor loops forever.", "quantifier": "every message and template (any UDH, any first octet, any direction)", "why_tests_cant": "only extreme templates expose the failing arithmetic", "anchors": ["encoding/tpdu/tpdu.go:Segment", "encoding/tpdu/tpdu.go:chunk7Bit", "encoding/tpdu/tpdu.go:chunkUCS2"]}
{"id": "C38", "title": "Encode then Decode returns the message", "statement": "sms.Decode(sms.Encode(text, options...)) with matching decode options returns the text, for default 7-bit, national language tables, and the UCS-2 fallback alike; with As8Bit the bytes, and with AsUCS2 the UTF-8 of the supplied UTF-16, come back.", "quantifier": "every UTF-8 text of any length, every charset option list, every template that leaves room", "why_tests_cant": "unbounded text, multi-segment boundary effects", "anchors": ["encode.go:Encode", "sms.go:Decode", "encoding/tpdu/userdata.go"]}
{"id": "C39", "title": "The message survives the wire", "statement": "marshalling every TPDU from sms.Encode and unmarshalling the bytes (AsMO for SUBMIT) gives TPDUs that Decode to the original text and satisfy IsCompleteMessage.", "quantifier": "every text needing at most 255 segments, every valid destination number", "why_tests_cant": "composition of every codec in the library", "anchors": ["encode.go", "sms.go", "encoding/tpdu/tpdu.go"]}
{"id": "C40", "title": "Automatic alphabet selection", "statement": "EncodeUserData uses the default alphabet with no header whenever the text is representable in it; otherwise the first applicable of locking, shift, locking+shift of the offered languages in order, with exactly the header a decoder needs; and UCS-2 only when none of these can represent the text.", "quantifier": "every text and option list", "why_tests_cant": "unbounded option lists and text", "anchors": ["encoding/tpdu/userdata.go:EncodeUserData"]}
{"id": "C41", "title": "Encode fails only on DCS conflict", "statement": "Encoder.Encode returns an error exactly when the template's coding group cannot carry the alphabet chosen for the text, and that error is ErrDcsConflict.", "quantifier": "every text, template and option list", "why_tests_cant": "all DCS groups x all texts", "anchors": ["encode.go:Encode", "encoding/tpdu/dcs.go:WithAlphabet"]}
{"id": "C42", "title": "Encode keeps the template's user data header", "statement": "every TPDU produced by Encode carries all information elements of the template's UDH.", "quantifier": "every template, text and charset options", "why_tests_cant": "depends on which alphabet the text selects", "anchors": ["encode.go:Encode"]}
{"id": "C43", "title": "Message references are consecutive", "statement": "across any sequence of Encode calls on one Encoder the MR octets of the produced TPDUs are consecutive modulo 256 in output order and each multi-segment message uses the next concat reference, so messages within any 256 consecutive multi-segment messages have distinct references.", "quantifier": "every sequence of messages and per-call options", "why_tests_cant": "histories of unbounded length", "anchors": ["encode.go", "encoding/tpdu/tpdu.go:Segment"]}
{"id": "C44", "title": "Counter never repeats under concurrency", "statement": "any interleaving of concurrent Counter.Count calls returns pairwise distinct values, and Read returns the number of completed increments.", "quantifier": "every number of goroutines and every interleaving", "why_tests_cant": "schedules", "anchors": ["encode.go:Counter"]}
{"id": "C45", "title": "Decode rejoins characters split across segments", "statement": "for UCS-2 segments of even length Decode returns the decoding of the concatenated user data, wherever the split falls, including between the halves of a surrogate pair.", "quantifier": "every UCS-2 message and every way of cutting it at even offsets", "why_tests_cant": "all cut sets", "anchors": ["sms.go:Decode", "encoding/ucs2/ucs2.go"]}
{"id": "C46", "title": "Decode errors exactly on broken UCS-2", "statement": "Decode returns an error exactly when some UCS-2 segment has odd length or the last pending UCS-2 data ends in an unpaired surrogate unit; 7-bit and 8-bit segments never cause an error.", "quantifier": "every list of TPDUs and decode options", "why_tests_cant": "adversarial TPDU lists", "anchors": ["sms.go:Decode"]}
{"id": "C47", "title": "IsCompleteMessage means complete and ordered", "statement": "IsCompleteMessage(segs) holds exactly when segs is a single TPDU without concatenation info, or every segs[i] has concatenation info with total len(segs), sequence number i+1 and one common reference.", "quantifier": "every list of TPDUs", "why_tests_cant": "unbounded lists", "anchors": ["sms.go:IsCompleteMessage"]}
{"id": "C48", "title": "Collector reassembles in any arrival order", "statement": "feeding the n segments of one message to a Collector in any order returns nothing for the first n-1 and, at the last, all n segments in sequence order.", "quantifier": "every message and every permutation of its segments", "why_tests_cant": "n! orders", "anchors": ["collect.go:Collect"]}
{"id": "C49", "title": "Collector only ever returns complete messages", "statement": "whatever TPDUs arrive, every non-empty result of Collect is either the single TPDU just passed in (which is not part of a multi-segment message) or a full in-order set: no gaps, all from the same sender, type, reference and count.", "quantifier": "every history of Collect calls, timer events and Close, SMS-SUBMIT and SMS-DELIVER TPDUs", "why_tests_cant": "histories and schedules", "anchors": ["collect.go:Collect"]}
{"id": "C50", "title": "Collector neither loses nor duplicates segments", "statement": "every segment accepted by Collect is, at any later time, in exactly one of: a returned set, a set handed to the expiry handler (or pending to be), or a pending reassembly; a segment is rejected as duplicate only if a segment with the same sender, reference, count and number is pending.", "quantifier": "every history including timer firings racing with Collect", "why_tests_cant": "races between timer goroutine and Collect", "anchors": ["collect.go"]}
{"id": "C51", "title": "Reassembly expiry", "statement": "the expiry handler is called at most once per timer, only with segments that were not and will not be returned by Collect, and never when no timeout is configured; after an expiry the next segment of that message starts a new reassembly.", "quantifier": "every schedule of Collect, timer fire and callback steps", "why_tests_cant": "races", "anchors": ["collect.go"]}
{"id": "C52", "title": "A closed Collector is closed", "statement": "after Close every Collect returns ErrClosed and changes nothing, no timer fires afterwards that was not already fired, and Close is idempotent.", "quantifier": "every history", "why_tests_cant": "histories", "anchors": ["collect.go:Close"]}
{"id": "C53", "title": "Reassemblies are isolated", "statement": "segments of different messages (differing in TPDU type, address, reference or segment count) never influence each other: the results Collect returns for one message depend only on the subsequence of events of that message.", "quantifier": "every interleaving of any number of messages; any addresses, including ones containing ':'", "why_tests_cant": "interleavings; textual key collisions", "anchors": ["collect.go:pduKey", "collect.go:Collect"]}
{"id": "C54", "title": "Collect never panics", "statement": "Collect returns normally for every TPDU in every history.", "quantifier": "every history of arbitrary TPDUs of all types", "why_tests_cant": "needs a particular pair of TPDUs of an unsupported type", "anchors": ["collect.go:Collect"]}
{"id": "C55", "title": "PDU-mode framing round-trips", "statement": "PDU.MarshalBinary/UnmarshalBinary round-trip the SMSC address and TPDU bytes, and MarshalHexString/UnmarshalHexString do the same through hex text, accepting either case.", "quantifier": "every SMSC address with valid digits that fits the length octet, every TPDU byte string", "why_tests_cant": "unbounded", "anchors": ["encoding/pdumode"]}
{"id": "C56", "title": "PDU-mode parsing is safe", "statement": "pdumode.UnmarshalBinary and UnmarshalHexString never panic, and on success the TPDU is exactly the bytes after the SMSC field.", "quantifier": "every byte string and every text string", "why_tests_cant": "adversarial modem input", "anchors": ["encoding/pdumode"]}
{"id": "C57", "title": "International numbers round-trip", "statement": "NewAddress(FromNumber(n)).Number() is n with exactly one leading '+', and its TOA has bit 7 set, type international and plan ISDN.", "quantifier": "every string", "why_tests_cant": "unbounded strings", "anchors": ["encoding/tpdu/address.go"]}
{"id": "C58", "title": "Segmentation uses as few TPDUs as possible", "statement": "no way of cutting the message into pieces that each fit one segment and do not split a character uses fewer pieces than Segment does.", "quantifier": "every message, every alternative cutting", "why_tests_cant": "quantifies over all alternative segmentations", "anchors": ["encoding/tpdu/tpdu.go:chunk7Bit", "encoding/tpdu/tpdu.go:chunkUCS2", "encoding/tpdu/tpdu.go:chunk8Bit"]}
{"id": "C59", "title": "Many interleaved messages arrive intact", "statement": "when the segments of any number of messages with distinct keys are interleaved and reordered arbitrarily through one Collector, each message is returned exactly once, and decodes to its text.", "quantifier": "every set of messages and every interleaving", "why_tests_cant": "interleavings", "anchors": ["collect.go", "sms.go", "encode.go"]}
{"id": "C60", "title": "smscounter statistics agree with the encoding", "statement": "smscounter's message count, per-message capacity and last-PDU length are those of the TPDUs that Encode produces; remaining is never negative; the total length is at least the encoded length.", "quantifier": "every non-empty message and language", "why_tests_cant": "unbounded messages", "anchors": ["cmd/smscounter/smscounter.go"]}
{"id": "C61", "title": "Pipes returns a snapshot", "statement": "the value returned by Collector.Pipes does not change when later segments are collected.", "quantifier": "every history", "why_tests_cant": "aliasing across later calls", "anchors": ["collect.go:Pipes"]}
{"id": "C62", "title": "Inputs are not modified", "statement": "Decode does not change the UD of the TPDUs passed to it, and Segment/Encode do not change the template or memory reachable from it.", "quantifier": "every aliasing arrangement of the argument slices", "why_tests_cant": "depends on slice capacities and aliasing", "anchors": ["sms.go:Decode", "encoding/tpdu/tpdu.go:Segment"]}
{"id": "C63", "title": "Results of Segment are independent of each other", "statement": "appending to the user data header or the user data of a TPDU returned by Segment does not change another of the returned TPDUs, the template or the message.", "quantifier": "every template, message, growth policy and capacity", "why_tests_cant": "depends on slice capacities and aliasing", "anchors": ["encoding/tpdu/tpdu.go:Segment", "encoding/tpdu/tpdu.go:chunk"]}
{"id": "C64", "title": "Concurrent Encode calls do not affect each other's charsets", "statement": "calls of Encoder.Encode running concurrently on one Encoder, each with charset options of its own, each use the options of the encoder followed by their own.", "quantifier": "every number of calls, options and interleaving", "why_tests_cant": "depends on slice capacities and interleavings", "anchors": ["encode.go:Encode", "options.go:ApplyEncoderOption"]}
{"id": "C65", "title": "smssubmit prints TPDUs that carry the message", "statement": "smssubmit, given a number of decimal digits with or without a leading + and a message, prints one line per TPDU; each line is the hex of an SMS-SUBMIT to that number, and the TPDUs, unmarshalled and collected, decode to the message.", "quantifier": "every number, message and language", "why_tests_cant": "messages and numbers are unbounded", "anchors": ["cmd/smssubmit/smssubmit.go:main", "encode.go:Encode", "encoding/tpdu/tpdu.go:MarshalBinary"]}
{"id": "C66", "title": "smsdeliver prints each message once", "statement": "smsdeliver, given in any order the hex of the SMS-DELIVER TPDUs that an encoder made of some texts, with -p each after an SMSC address, prints each text exactly once with the number of its originator, and nothing else.", "quantifier": "every list of texts and numbers, every order of the TPDUs, both modes, every SMSC address and case of the hex digits", "why_tests_cant": "the number of orders is factorial in the number of TPDUs", "anchors": ["cmd/smsdeliver/smsdeliver.go:main", "collect.go:Collect", "decode.go:Decode"]}
{"id": "C67", "title": "smsdecode and smsdeliver do not panic", "statement": "whatever their arguments are, smsdecode ends with an error or dumps the TPDU with the function for its type, and smsdeliver reports each argument; neither panics.", "quantifier": "every argument list and flags", "why_tests_cant": "arguments are arbitrary strings", "anchors": ["cmd/smsdecode/smsdecode.go:decode", "cmd/smsdecode/smsdecode.go:dumpTPDU", "cmd/smsdeliver/smsdeliver.go:main"]}
{"id": "C68", "title": "Character sets are those of 3GPP TS 23.038", "statement": "the default alphabet, its extension, and the locking and shift tables of every national language map each septet to the character the standard gives for it; gsm7.Decode reads octets as the standard says with these tables, and the encoders are their inverse.", "quantifier": "every language identifier, octet string and character", "why_tests_cant": "the tests check the sizes of the tables, not their contents", "anchors": ["encoding/gsm7/charset/charset.go:NewDecoder", "encoding/gsm7/charset/hindi.go:hindiDecoder", "encoding/gsm7/gsm7.go:Decode"]}
{"id": "C69", "title": "DCS octets mean what 3GPP TS 23.038 says", "statement": "the alphabet, the message class and the compression that DCS.Alphabet, DCS.Class and DCS.Compressed report for a data coding scheme octet are those the coding groups of TS 23.038 section 4 assign to it, reserved codings being read as the GSM 7 bit default alphabet.", "quantifier": "every data coding scheme octet", "why_tests_cant": "the tests repeat the masks of the code and do not cover every octet", "anchors": ["encoding/tpdu/dcs.go:Alphabet", "encoding/tpdu/dcs.go:Class", "encoding/tpdu/dcs.go:Compressed"]}
{"id": "C70", "title": "First octet flags are the bits of 3GPP TS 23.040", "statement": "each first octet accessor reports the bit that TS 23.040 section 9.2.3 gives its field, the message type follows the MTI table for the direction, and the reserved MTI towards the mobile is processed as SMS-DELIVER.", "quantifier": "every first octet and both directions", "why_tests_cant": "tests sample a few octets", "anchors": ["encoding/tpdu/firstoctet.go:MTI", "encoding/tpdu/firstoctet.go:VPF", "encoding/tpdu/tpdu.go:SmsType", "encoding/tpdu/tpdu.go:UnmarshalBinary"]}
{"id": "C71", "title": "MarshalBinary is total and fails exactly on unencodable fields", "statement": "TPDU.MarshalBinary never panics, and succeeds exactly when every field of the TPDU's type is encodable: addresses of semi-octet digits or of characters of the default alphabet, times and validity periods of the known formats, defined codings, and even UCS-2.", "quantifier": "every TPDU value, including those no unmarshaller produces", "why_tests_cant": "all fields are public and can hold anything", "anchors": ["encoding/tpdu/tpdu.go:MarshalBinary", "encoding/tpdu/address.go:MarshalBinary", "encoding/tpdu/validityperiod.go:MarshalBinary", "encoding/tpdu/timestamp.go:MarshalBinary"]}
{"id": "C72", "title": "What was unmarshalled can be passed on", "statement": "whatever octets a TPDU was unmarshalled from, it can be marshalled, and the result unmarshals to the same TPDU.", "quantifier": "every octet string and both directions", "why_tests_cant": "received octets are arbitrary; the tests marshal and unmarshal the same few samples", "anchors": ["encoding/tpdu/tpdu.go:MarshalBinary", "encoding/tpdu/tpdu.go:UnmarshalBinary"]}
{"id": "C73", "title": "MarshalBinary writes the layout of TS 23.040", "statement": "the octets TPDU.MarshalBinary writes are those that 3GPP TS 23.040 9.2.2 prescribes for the type of TPDU and its fields, field by field and in order: swapped semi-octets with filler, packed septets at septet boundaries, lengths in the units prescribed, optional fields as announced.", "quantifier": "every TPDU value of either direction", "why_tests_cant": "round trips cannot see an error made alike in both directions; samples cover few combinations of fields", "anchors": ["encoding/tpdu/tpdu.go:MarshalBinary", "encoding/tpdu/address.go:MarshalBinary", "encoding/tpdu/timestamp.go:MarshalBinary", "encoding/tpdu/validityperiod.go:MarshalBinary"]}
{"id": "C74", "title": "A conforming TPDU is read as what it says", "statement": "octets laid out as 3GPP TS 23.040 9.2.2 prescribes for some fields are unmarshalled to a TPDU with those fields.", "quantifier": "every TPDU and every octet string laid out from it", "why_tests_cant": "the octets come from other implementations, and every combination of fields is possible", "anchors": ["encoding/tpdu/tpdu.go:UnmarshalBinary"]}
{"id": "C75", "title": "Concurrent first uses of a character set are safe", "statement": "any number of goroutines may call charset.NewDecoder, NewExtDecoder, NewEncoder, NewExtEncoder and the Default functions (as every gsm7, tpdu and sms function that codes text does) concurrently, in a fresh program or later: there is no data race, no panic, and each call returns the complete table of its language.", "quantifier": "every number of goroutines, every sequence of calls of each and every interleaving", "why_tests_cant": "tests run few interleavings, and after one use of a table the others no longer build it", "anchors": ["encoding/gsm7/charset/charset.go:NewDecoder", "encoding/gsm7/charset/charset.go:NewEncoder", "encoding/gsm7/charset/charset.go:DefaultDecoder", "encoding/gsm7/charset/charset.go:NewExtEncoder"]}
{"id": "C76", "title": "A TPDU built with options and setters announces what it carries", "statement": "whatever options are given to New, NewSubmit or NewDeliver and whatever setters are called afterwards, in any order and any number of times: the last value given to a field stays, no option or setter disturbs what another one set, the flags (UDHI, VPF and the PI bits) announce the fields that are present, and a submit or deliver so built with values that fit is read back as it was built.", "quantifier": "every list of options followed by every list of setter calls and field assignments", "why_tests_cant": "tests call each setter once on a fresh TPDU; interference shows only in combinations and orders", "anchors": ["encoding/tpdu/tpdu.go:New", "encoding/tpdu/tpdu.go:NewSubmit", "encoding/tpdu/tpdu.go:NewDeliver", "encoding/tpdu/tpdu.go:SetUDH", "encoding/tpdu/tpdu.go:SetUD", "encoding/tpdu/tpdu.go:SetVP", "encoding/tpdu/options.go:UDHOption"]}
{"id": "C77", "title": "Nothing may follow a report or command", "statement": "if Unmarshal accepts a byte string as SMS-COMMAND, SMS-DELIVER-REPORT, SMS-SUBMIT-REPORT or SMS-STATUS-REPORT, then it rejects that byte string with any non-empty bytes appended.", "quantifier": "every accepted byte string and every non-empty suffix", "why_tests_cant": "adversarial input; depends on every combination of the parameter indicator", "anchors": ["encoding/tpdu/tpdu.go:decodeUserData", "encoding/tpdu/tpdu.go:unmarshalStatusReport", "encoding/tpdu/tpdu.go:unmarshalDeliverReport", "encoding/tpdu/tpdu.go:unmarshalSubmitReport", "encoding/tpdu/tpdu.go:unmarshalCommand"]}
{"id": "C78", "title": "Truncated reports and commands are rejected", "statement": "if the marshalled form of a well-formed SMS-COMMAND, SMS-DELIVER-REPORT, SMS-SUBMIT-REPORT or SMS-STATUS-REPORT is cut short anywhere, Unmarshal reports an error.", "quantifier": "every well-formed TPDU of these types and every proper prefix of its binary form", "why_tests_cant": "every cut point of every message", "anchors": ["encoding/tpdu/tpdu.go:unmarshalStatusReport", "encoding/tpdu/tpdu.go:unmarshalDeliverReport", "encoding/tpdu/tpdu.go:unmarshalSubmitReport", "encoding/tpdu/tpdu.go:unmarshalCommand"]}
{"id": "C79", "title": "Decoded text is UTF-8", "statement": "text that Decode returns without an error from segments in the default alphabet, a national language table or UCS-2 is well-formed UTF-8, whatever the user data, headers and order of the segments; octets of 8-bit segments are returned unchanged.", "quantifier": "every list of TPDUs, every decode option list", "why_tests_cant": "adversarial user data: unpaired surrogates, characters split over segments, septets outside the table", "anchors": ["sms.go:Decode", "encoding/tpdu/userdata.go:DecodeUserData", "encoding/ucs2/ucs2.go:Decode", "encoding/gsm7/gsm7.go:Decode"]}
{"id": "C80", "title": "Concurrent Encode calls are numbered like sequential ones", "statement": "when any number of goroutines call Encode on one Encoder at the same time, the MR octets of all the TPDUs returned are 1, 2, 3, ... modulo 256 in some order, and so are the concatenation references of the messages of more than one TPDU; all TPDUs of a message carry the same reference.", "quantifier": "every encoder, every list of messages and per-call options, every interleaving of the calls", "why_tests_cant": "the number of interleavings is unbounded", "anchors": ["encode.go:Encoder.Encode", "encode.go:Counter.Count", "encoding/tpdu/tpdu.go:Segment"]}
{"id": "C81", "title": "Texts encoded by separate Encode calls arrive intact", "statement": "when texts are encoded by separate calls of the function sms.Encode, and their TPDUs are marshalled, unmarshalled and collected in any order, decoding what the Collector returns gives the texts, each once.", "quantifier": "every list of texts and numbers, every arrival order", "why_tests_cant": "arrival orders of many messages; every call starts with the same concatenation reference", "anchors": ["encode.go:Encode", "encode.go:NewEncoder", "collect.go:Collect", "collect.go:pduKey", "sms.go:Decode"]}
{"id": "C82", "title": "Texts encoded concurrently arrive intact", "statement": "when texts are encoded by goroutines that use one Encoder at the same time, and their TPDUs are marshalled, unmarshalled and collected in any order, decoding what the Collector returns gives the texts, each once.", "quantifier": "every encoder, every list of texts and per-call options, every interleaving of the calls, every arrival order", "why_tests_cant": "two unbounded sources of interleavings", "anchors": ["encode.go:Encoder.Encode", "encode.go:Counter.Count", "collect.go:Collect", "sms.go:Decode"]}
{"id": "C83", "title": "ConcatInfo reads the concatenation element that counts", "statement": "ConcatInfo reports that a TPDU is part seq of n of message ref exactly when the last concatenation element of its header that 3GPP TS 23.040 does not tell the receiver to ignore says so, whether the reference is one octet or two.", "quantifier": "every user data header", "why_tests_cant": "headers with several elements of either kind, in any order and of any length, are unbounded", "anchors": ["encoding/tpdu/userdata.go:ConcatInfo", "encoding/tpdu/userdata.go:ConcatInfo8", "encoding/tpdu/userdata.go:ConcatInfo16", "encoding/tpdu/userdata.go:IE"]}
{"id": "C84", "title": "What smsdecode prints tells TPDUs apart", "statement": "When an argument is decoded, smsdecode prints a text, and it prints the same text for two arguments exactly if the numbers of the service centres are the same and the TPDUs are of the same type and agree in everything that smsdecode shows: the flags and octets of the type, the numbers of the addresses, the times, the validity period, the header and the user data.", "quantifier": "all pairs of arguments with all combinations of the two options", "why_tests_cant": "a claim about all pairs of TPDUs with headers, addresses and user data of any content: a field not printed, or two values printed alike, shows only for the pair that collides", "anchors": ["cmd/smsdecode/smsdecode.go:main", "cmd/smsdecode/smsdecode.go:dumpTPDU", "cmd/smsdecode/smsdecode.go:dumpDeliver", "cmd/smsdecode/smsdecode.go:dumpSubmit", "cmd/smsdecode/smsdecode.go:dumpStatusReport"]}
{"id": "C85", "title": "smsdecode shows each field on one line with its label", "statement": "When an argument is decoded, what smsdecode prints are lines, and for the service centre and for each field of the TPDU that has a single value exactly one line begins with the label of that field and a colon, and the rest of that line says the value of the field.", "quantifier": "every argument that is decoded, with all combinations of the two options", "why_tests_cant": "addresses and user data come from the network with any content: a value that forges another line shows only for the octets chosen to do so", "anchors": ["cmd/smsdecode/smsdecode.go:main", "cmd/smsdecode/smsdecode.go:dumpTPDU", "cmd/smsdecode/smsdecode.go:dumpDeliver", "cmd/smsdecode/smsdecode.go:dumpSubmit", "encoding/tpdu/address.go:Number"]}
{"id": "C86", "title": "The error of Collect tells whether the TPDU was taken", "statement": "Collect returns no error exactly if it returns the TPDU or keeps it as part of its message in Pipes; an error leaves the Collector as it was and is ErrClosed if the Collector is closed, ErrReassemblyInconsistency for an impossible segment number, ErrDuplicateSegment if Pipes shows another TPDU in that place, and ErrUnsupportedSmsType for other types.", "quantifier": "every history of calls of Collect with any TPDUs, timer events and Close, and every next TPDU", "why_tests_cant": "histories are unbounded; an error that comes with a TPDU that is kept all the same shows only in later calls", "anchors": ["collect.go:Collect", "collect.go:pduKey", "collect.go:Pipes"]}
{"id": "C87", "title": "With tables of the caller, Decode returns what Encode took exactly if the tables undo each other", "statement": "With character tables supplied through WithCharset and WithExtCharset, the GSM7 Decoder returns every UTF-8 text that the Encoder accepts if and only if each character that the Encoder's tables map is read back, alone or escaped, by the Decoder's tables; for all strings of octets exactly if in addition U+FFFD is in neither table of the Encoder.", "quantifier": "all pairs of tables, strict or not, and all texts", "why_tests_cant": "tables are arbitrary maps: a test fixes a few; the condition is over all characters at once", "anchors": ["encoding/gsm7/gsm7.go:WithCharset", "encoding/gsm7/gsm7.go:WithExtCharset", "encoding/gsm7/gsm7.go:Decode", "encoding/gsm7/gsm7.go:Encode"]}
{"id": "C88", "title": "charsets prints each table without loss", "statement": "Display prints the same for two tables exactly if they agree on the 128 septets; of a table within the Basic Multilingual Plane it prints 17 lines of 46 characters, with the entry of septet 16c+r in line r+1 and column c; the command prints so the locking and shift tables of all 14 languages under different names.", "quantifier": "all tables, all septets and languages", "why_tests_cant": "the command has no tests; that no two tables print alike is a statement over all pairs of tables", "anchors": ["cmd/charsets/charsets.go:main", "cmd/charsets/charsets.go:Display"]}
{"id": "C89", "title": "smscounter prints the statistics of the message", "statement": "For every message and language smscounter shows its usage exactly if the message is empty, and otherwise prints six lines saying the encoding, the number of TPDUs Encode makes, the total length, the length of the last TPDU, the capacity of each and what remains; two messages print the same exactly if all the statistics are the same.", "quantifier": "all messages and languages", "why_tests_cant": "messages are unbounded and the command has no tests", "anchors": ["cmd/smscounter/smscounter.go:main", "cmd/smscounter/smscounter.go:NewCount", "cmd/smscounter/smscounter.go:String"]}
{"id": "C90", "title": "The errors of Unmarshal, all of them", "statement": "For each direction and each first octet of a known type the pairs of field and cause that Unmarshal reports are exactly the listed ones: each is reported for some input and no other ever is. Without a first octet of a known type the error is of the first octet.", "quantifier": "all inputs, all 256 first octets, both directions", "why_tests_cant": "that no other error is possible is a statement over all octet strings", "anchors": ["sms.go:Unmarshal", "encoding/tpdu/tpdu.go:UnmarshalBinary", "encoding/tpdu/tpdu.go:decodeUserData", "encoding/tpdu/error.go:NewDecodeError"]}
{"id": "C91", "title": "The text of an error says which it is", "statement": "Two errors of the package whose fields have names of letters, digits and dots have the same Error() text if and only if they are the same error with the same field, offset and cause. All errors of Unmarshal and MarshalBinary are such.", "quantifier": "all errors, all inputs of Unmarshal and TPDUs of MarshalBinary", "why_tests_cant": "a statement over all pairs of errors, which carry unbounded integers and octets", "anchors": ["encoding/tpdu/error.go:Error", "error.go:Error", "encoding/bcd/bcd.go:Error", "encoding/semioctet/semioctet.go:Error", "encoding/gsm7/gsm7.go:Error", "encoding/ucs2/ucs2.go:Error"]}
{"id": "C92", "title": "The error of MarshalBinary is of the first field that has no encoding", "statement": "MarshalBinary of any TPDU fails with ErrUnsupportedSmsType if its type is none of the six, and otherwise, if some field cannot be encoded, with the error of the first such field in the order of the code, naming the first octet, character or number in it that cannot.", "quantifier": "all TPDUs", "why_tests_cant": "TPDUs with several faults in all combinations of fields are beyond any table", "anchors": ["encoding/tpdu/tpdu.go:MarshalBinary", "encoding/tpdu/address.go:MarshalBinary", "encoding/tpdu/timestamp.go:MarshalBinary", "encoding/tpdu/validityperiod.go:MarshalBinary", "encoding/tpdu/error.go:EncodeError"]}
{"id": "C93", "title": "A TPDU that was used before decodes like a new one", "statement": "UnmarshalBinary into a TPDU gives the same error or the same TPDU whatever the receiver held before, apart from its direction. This is false: user data of length 0 leaves the old user data and header, a header with nothing after it leaves the old text, a status report without optional part leaves the old parameter indicator, a report with user data and no DCS is read by the old DCS, and fields that the type does not have stay. Exactly these fields are kept, the error is always the same, and decoding the same octets again changes nothing. Likewise a pdumode.PDU keeps its SMSC if and only if the octets have none.", "quantifier": "all receivers and all octet sequences", "why_tests_cant": "every test decodes into a new TPDU; the claim is about every former content with every input", "anchors": ["encoding/tpdu/tpdu.go:UnmarshalBinary", "encoding/tpdu/tpdu.go:decodeUserData", "encoding/tpdu/tpdu.go:unmarshalStatusReport", "encoding/tpdu/validityperiod.go:UnmarshalBinary", "encoding/pdumode/smscaddress.go:UnmarshalBinary", "encoding/pdumode/pdu.go:UnmarshalBinary"]}
{"id": "C94", "title": "Where septets are cut does not matter to Decode", "statement": "sms.Decode of two segments in the GSM7 alphabet with the same languages gives the text of one TPDU that has the septets of both. This is false: an escape that ends a segment is read as a space, and the septet it announces is read unshifted. It holds if and only if the first segment does not end in an escape that announces a septet, or the second starts in a way that reads the same without the escape. It holds for any number of segments of which none but the last ends in such an escape.", "quantifier": "all segments, all headers and all options", "why_tests_cant": "the tests cut text where Encode would; other senders cut anywhere, and the exact condition ranges over all septets and tables", "anchors": ["sms.go:Decode", "encoding/gsm7/gsm7.go:Decode", "encoding/tpdu/userdata.go:DecodeUserData"]}
{"id": "C95", "title": "National languages are announced by the elements of the standard", "statement": "DecodeUserData reads septets by the language tables that the information elements 0x25 and 0x24 of 3GPP TS 23.040 announce, and EncodeUserData announces its tables by them. This is false: the code has 25 and 24, which are 0x19 and 0x18 and stand for vector graphics. With these numbers septets are read as the standard says; the elements of the standard are neither used nor written. A receiver that follows the standard reads the text that was encoded if and only if the text needs no language.", "quantifier": "all octets, all headers, all texts and all options", "why_tests_cant": "the tests use the constants of the code on both sides; a round trip never shows that both sides have the wrong number", "anchors": ["encoding/tpdu/userdata.go:DecodeUserData", "encoding/tpdu/userdata.go:EncodeUserData"]}
{"id": "C96", "title": "What smssubmit prints can be read back", "statement": "The output of smssubmit is pairs of lines: a heading, which counts the TPDUs from 1 if there is more than one, and the TPDU in hex. From these lines alone SMS-SUBMITs to the number are unmarshalled that are decoded to the text, if and only if the number is at most 255 digits and the text is UTF-8 and is sent in UCS-2 or has no U+001B. Without a number or a text nothing is printed.", "quantifier": "all numbers, texts and languages", "why_tests_cant": "the command has no test; the claim is about the output for every argument", "anchors": ["cmd/smssubmit/smssubmit.go:main"]}
{"id": "C97", "title": "What smsdeliver prints tells who sent what", "statement": "Each line of the output of smsdeliver is a message: the number of the originator, a colon, a space and the text. This is false: a text or an alphanumeric originator with a line feed is printed like several messages, of which the sender can choose the numbers. As long as nothing is incomplete, the output is read as the messages that were collected if and only if no number and no text has a line feed and no number has a colon before a space. What is incomplete is reported after all the messages.", "quantifier": "all arguments of the command", "why_tests_cant": "the command has no test; forged lines need texts that no sample has", "anchors": ["cmd/smsdeliver/smsdeliver.go:main"]}
{"id": "C98", "title": "After an error a TPDU is unmarshalled up to the error", "statement": "If TPDU.UnmarshalBinary fails other than in the first octet, the error names a field of the message type. The fields before it, in the order of the wire, are what any successful unmarshalling of octets that begin with those read so far gives; the fields after it and those the type does not have are what they were before. The field itself is as before, except that octets read from a bytes.Buffer (MR, PID, CT, MN of a command, PID of a deliver) become 0 and a validity period loses its format. If the type is not supported only the first octet changes, to 0, and no octets at all change nothing.", "quantifier": "all octet strings, all TPDUs used before", "why_tests_cant": "the tests look at the TPDU after a few errors in a fresh TPDU; the claim is about every point where decoding can fail and every earlier content", "anchors": ["encoding/tpdu/tpdu.go:564-831", "encoding/tpdu/tpdu.go:833-891", "encoding/tpdu/validityperiod.go:98-126"]}
{"id": "C99", "title": "Offering national language tables never takes more TPDUs", "statement": "If a message can be encoded by Encoder.Encode (or sms.Encode) without options that offer national language tables (WithCharset, WithLockingCharset, WithShiftCharset, WithAllCharsets), then it can be encoded with any number of them added anywhere among the options, and the result has at most as many TPDUs. It is not so for tables offered in addition to others: those considered first are used though later ones would take fewer TPDUs.", "quantifier": "all messages, all encoders without offered tables, all templates, all lists of options", "why_tests_cant": "the tests encode a few short texts; the claim compares two encodings of every text, whose lengths depend on every character, on the headers and on where the text can be cut", "anchors": ["encode.go:89-114", "encoding/tpdu/userdata.go:371-421", "encoding/tpdu/tpdu.go:189-229", "encoding/tpdu/tpdu.go:1128-1205", "options.go:95-158"]}
{"id": "C100", "title": "The last option on a matter counts, wherever it is given", "statement": "An Encoder made by NewEncoder with options, given further options in Encode, returns the same TPDUs as any other whose options (those of NewEncoder followed by those of Encode) have the same last word on the template, the addresses, the header, the coding scheme, the direction and the message type, and offer the same tables in the same order. The TPDUs have that direction, message type and addresses, that coding scheme but for the alphabet bits, and in the fields only a template can give what the last template has; a template replaces all that was said before it, including the AsSubmit of sms.Encode.", "quantifier": "all lists of options whose message types are of two bits, all messages", "why_tests_cant": "the tests give one or two options in one order; the claim is about all sequences of options, in which any option may follow any other", "anchors": ["encode.go:57-69", "encode.go:89-114", "options.go:14-158", "encoding/tpdu/options.go:13-58", "encoding/tpdu/dcs.go:58-61", "encoding/tpdu/tpdu.go:258-311"]}
{"id": "C101", "title": "A validity period that is set arrives cut down at most", "statement": "Whatever a ValidityPeriod held before, after SetAbsolute, SetRelative or SetEnhanced with a period of a known kind that is not negative, what UnmarshalBinary makes of what MarshalBinary returns is the period set, or a shorter one that is the longest its coding can express; the hours, minutes and seconds that package time computes with floating point numbers are the whole ones.", "quantifier": "all validity periods, times, durations and functionality indicators", "why_tests_cant": "the tests try a few durations per kind; limits, fractions, rounding and negative durations are left out", "anchors": ["encoding/tpdu/validityperiod.go:27-50", "encoding/tpdu/validityperiod.go:53-92", "encoding/tpdu/validityperiod.go:98-166", "encoding/tpdu/validityperiod.go:214-244"]}
{"id": "C102", "title": "Parts of an octet are set and read independently, and their names tell them apart", "statement": "Setting the type of number or the numbering plan of an Address, or the VPF or MTI of a first octet, makes the getter return the value set and leaves every other bit alone; the type-of-address always has bit 7 set; the names of message types, TPDU types and validity period formats are different for different defined values and are \"Unknown\" exactly for the others.", "quantifier": "all addresses, octets and values", "why_tests_cant": "tests set each part on one or two octets", "anchors": ["encoding/tpdu/address.go:22-41", "encoding/tpdu/address.go:129-156", "encoding/tpdu/firstoctet.go:51-67", "encoding/tpdu/tpdu.go:1002-1013", "encoding/tpdu/tpdu.go:1065-1082", "encoding/tpdu/validityperiod.go:246-274"]}
{"id": "C103", "title": "The programs read the command line as it is written", "statement": "The arguments of smssubmit, smscounter, smsdeliver and smsdecode are flags followed by other arguments in exactly one way, and the programs do what the flags say, whatever their order and spelling (one dash or two, the value behind an equals sign or as the next argument), the last flag of a name counting. Whatever octets the number and the message are, smssubmit gets them; PDUs are never taken for flags; a command line that is not written so ends the program before it prints anything, with status 2, or 0 if it asks for help.", "quantifier": "all command lines; for the grammar, all sets of flags", "why_tests_cant": "the commands have tests for single functions only, no test runs a program with a command line", "anchors": ["cmd/smssubmit/smssubmit.go:19-36", "cmd/smscounter/smscounter.go:24-40", "cmd/smsdeliver/smsdeliver.go:20-31", "cmd/smsdecode/smsdecode.go:22-39"]}
{"id": "C104", "title": "The exit status tells whether the program did what was asked", "statement": "A program ends with status 0 exactly if it was asked for help or has done what was asked: smsdecode shown a TPDU, smscounter counted a message, smssubmit printed TPDUs that bring the message, smsdeliver taken every argument as a TPDU. It ends with status 2 if the flags cannot be made out, else with status 1; smsdecode then prints nothing. Every TPDU that smssubmit prints can be shown by smsdecode -o.", "quantifier": "all command lines", "why_tests_cant": "no test runs a program or looks at an exit status", "anchors": ["cmd/smssubmit/smssubmit.go:19-50", "cmd/smscounter/smscounter.go:24-40", "cmd/smsdeliver/smsdeliver.go:20-70", "cmd/smsdecode/smsdecode.go:22-61"]}
{"id": "C105", "title": "Which TPDUs come back as they were", "statement": "A TPDU comes back from MarshalBinary and UnmarshalBinary as it was if and only if only fields of its type are set and they are representable: an address of at most 255 digits or of GSM 7-bit text that fits, times in the years 1970 to 2069 with a zone of whole quarters of an hour, a validity period in the format the first octet names that its octets can express, user data of the alphabet the DCS names with a header if and only if one is announced, at most 255 septets or octets in all; in reports a failure cause, in commands no header. The same holds of the fields of each type, whatever the other fields are.", "quantifier": "all TPDUs of either direction", "why_tests_cant": "the tests round-trip chosen TPDUs; that nothing else comes back says of every other TPDU that it is refused or changed, which no sample can", "anchors": ["encoding/tpdu/tpdu.go:379-562", "encoding/tpdu/tpdu.go:564-830", "encoding/tpdu/address.go", "encoding/tpdu/timestamp.go", "encoding/tpdu/validityperiod.go"]}
{"id": "C106", "title": "TPDUs that arrive more than once", "statement": "If the TPDUs of messages are given to a Collector in any order, some of them repeatedly and some never, what it returns are those messages of which all TPDUs arrive, each complete, in sequence and of its own TPDUs only, each once; nothing is left pending; and the only error is ErrDuplicateSegment for a repeated TPDU.", "quantifier": "all messages, all orders, any number of repetitions", "why_tests_cant": "orders and repetitions are unbounded, and what a repeated TPDU does depends on whether its message was complete before", "anchors": ["collect.go:Collect", "collect.go:Pipes"]}
{"id": "C107", "title": "TPDUs can be told apart by their octets", "statement": "Different TPDUs of the same direction that come back from their octets as they were have different octets, and the octets of one are the beginning of those of another only if both are status reports that agree in all but the optional fields, of which the one has none; so without such reports a sequence of TPDUs can be told from its octets one after the other, and with them it cannot.", "quantifier": "all pairs and sequences of TPDUs that have a representation", "why_tests_cant": "a statement about all pairs of TPDUs and all sequences", "anchors": ["encoding/tpdu/tpdu.go:379-562", "encoding/tpdu/tpdu.go:564-830"]}
{"id": "C108", "title": "Texts over a network that loses, repeats and reorders", "statement": "Texts are encoded, marshalled, and given as octets to a network that delivers the TPDUs in any order, each any number of times or never; they are unmarshalled, collected and decoded. Then every text that comes out is one that was put in, and a text comes out if and only if all of its TPDUs arrive.", "quantifier": "all texts, options, interleavings of the encoding calls, all sublists with repetition of what was sent, all timer events", "why_tests_cant": "the behaviours of a network are unbounded, and whether a text is garbled depends on which other messages share its reference", "anchors": ["encode.go:Encode", "collect.go:Collect", "decode.go:Decode"]}
{"id": "C109", "title": "The reassembly timeout in real time", "statement": "With a reassembly timeout d, and timers that fire no earlier than d and no later than lag after they are set: a message of which every segment arrives once, each less than d after the one before, is returned, once and complete, and nothing of it is given to the expiry handler, whatever other timers fire and whatever else arrives; segments that are more than lag apart, with none between, are never returned together, so a message that reuses the reference of an earlier one after such a pause is not mixed with what was left of it; whatever is pending has a segment that arrived at most lag ago; and once no segment of a message has arrived for more than lag, every segment of it that was accepted has been returned or handed to the expiry handler, exactly once.", "quantifier": "all histories of calls, timer events and times, all orders of arrival, all timeouts and lags", "why_tests_cant": "tests sleep for a few milliseconds and see one scheduling of the timers; the claim is about every scheduling", "anchors": ["collect.go:Collect", "collect.go:WithReassemblyTimeout"]}
{"id": "C110", "title": "References that repeat, in real time", "statement": "A Collector with a reassembly timeout keeps messages apart that have the same type, other party, reference and number of segments: any number of messages are sent, references being used again and again, and their TPDUs arrive in any order, each any number of times or never, those of one message within less than the timeout d and those of messages that are alike more than lag apart, where timers fire no earlier than d and are dealt with no later than lag after they are set. Then whatever is returned are the TPDUs of one of the messages, complete and in sequence; a message is returned if and only if all of its TPDUs arrive; and if every TPDU arrives once, every message is returned once. So texts, any number of them encoded by one encoder, come out as they went in.", "quantifier": "all lists of messages or texts, all histories of arrivals and timer events and times, all timeouts and lags", "why_tests_cant": "a reference comes back after 256 messages, and what is left of the earlier message matters only if its segments were lost; tests send a few messages at once", "anchors": ["collect.go:Collect", "collect.go:WithReassemblyTimeout", "encode.go:Encode"]}
{"id": "C111", "title": "7-bit packing for any number of fill bits and any octets", "statement": "Pack7Bit puts the septets after fillBits zero bits, and Unpack7Bit gets them back, if fillBits is 0 to 8. With more, the first fillBits-8 septets are lost without notice (zeros come in their place), and if there are no more septets than that, the result is zeros only; with a negative number all septets are lost, and if it is so low that the capacity computed for the result is negative the call panics; it panics in no other case, and neither do the forms for USSD. If an element is not a septet its eighth bit is added to the first bit of the next element, or dropped if it would begin an octet.", "quantifier": "all octet strings and all ints as fillBits", "why_tests_cant": "tests pass 0 to 6 fill bits and septets; the arithmetic on the unsigned residue count wraps around otherwise", "anchors": ["encoding/gsm7/7bit.go:Pack7Bit", "encoding/gsm7/7bit.go:Unpack7Bit", "encoding/gsm7/7bit.go:Pack7BitUSSD", "encoding/gsm7/7bit.go:Unpack7BitUSSD"]}
{"id": "C112", "title": "What smsdeliver prints, whatever its arguments", "statement": "smsdeliver goes through its arguments in order. One that is not hex (or with -p begins with no address) ends the program with that error, and neither the arguments after it nor what is incomplete are printed. One that is no TPDU prints its error and changes nothing else. Every other is collected: the error of Collect is printed, if any, and if Collect returns segments and none is missing, the number of the originator of the first and the text they decode to, or the error of decoding; a message is printed for no other reason. At the end the reassemblies that are incomplete are printed.", "quantifier": "all lists of arguments, with and without -p", "why_tests_cant": "there are no tests of the commands; the claim ranges over all mixtures of readable, unreadable, broken and incomplete arguments", "anchors": ["cmd/smsdeliver/smsdeliver.go:main", "collect.go:Collect", "sms.go:Decode"]}
{"id": "C113", "title": "smsdecode shows user data octet by octet", "statement": "What smsdecode prints of a TPDU that it accepts ends with the user data, in rows of sixteen octets, the first after a label and the others indented as far. Row k begins with the offset 16k in eight hexadecimal digits; octet i of a row is two digits at column 10+3i, one further from the ninth octet on, and a character at column 61+i between bars, a full stop if it is not printable; all else is blank. After command data there is an empty line.", "quantifier": "all arguments that are accepted, with and without -p and -o", "why_tests_cant": "there are no tests of the commands; the claim is about every octet of data of any length", "anchors": ["cmd/smsdecode/smsdecode.go:dumpUD", "cmd/smsdecode/smsdecode.go:dumpCD"]}
{"id": "C114", "title": "TPDUs within the block size fit the network", "statement": "MarshalBinary writes exactly the octets that the fields of the TPDU take by TS 23.040. If the address is within the 12 octets of the standard and the user data within UDBlockSize, that is at most 164 octets (163 for SMS-DELIVER), whatever the type, header and alphabet; and when the other fields are at their longest no more user data than UDBlockSize fits. So all TPDUs that Encode returns fit.", "quantifier": "all TPDUs that can be marshalled; all encoders, messages and options", "why_tests_cant": "the tests compare UDBlockSize with constants for a few TPDUs and never with the length of what is marshalled; the claim spans all types, headers and lengths", "anchors": ["encoding/tpdu/tpdu.go:UDBlockSize", "encoding/tpdu/tpdu.go:MarshalBinary", "encode.go:Encode"]}
{"id": "C115", "title": "What the Collector hands out belongs to the receiver", "statement": "Once Collect has returned a message, or the expiry handler has been called with one, the Collector never writes to that slice again, and whatever its receiver writes to it or to its TPDUs, at any time, changes nothing the Collector does later. From when a timer fires, before its callback takes the lock, nothing is written to the slice that the handler will be given, so what it is given is what was pending at that moment and nothing changes while it reads it without the lock.", "quantifier": "every history of calls and timers, any interleaving of writes by the receiver with later events", "why_tests_cant": "races between Collect, timers and readers without the lock; aliasing shows only in later calls", "anchors": ["collect.go:Collect"]}
{"id": "C116", "title": "A longer text never takes fewer TPDUs", "statement": "If Encode or Segment accepts a message, then it accepts what is left of it when characters are taken away from the end, and needs no more TPDUs for that, whatever alphabet either needs.", "quantifier": "every template, option list, text and way to cut it", "why_tests_cant": "the alphabet, the header and the cut points all change with the text; a failure needs a particular pair of texts", "anchors": ["encode.go:Encode", "encoding/tpdu/tpdu.go:Segment", "encoding/tpdu/userdata.go:EncodeUserData"]}
{"id": "C117", "title": "A text that was received can be sent on", "statement": "If Decode returned a text, whatever TPDUs it was given, other than 8-bit data, and U+001B is not in it (it never is in what came in septets), then encoding it again, with whatever tables, sending the TPDUs and decoding them gives that text, any number of times. Whatever octets are given to Encode, text or not, what arrives after the first time no longer changes when it is sent again in the same way.", "quantifier": "every list of received TPDUs, decode options, list of gateways with their numbers, tables and options, and number of hops", "why_tests_cant": "any sequence of gateways with different tables; a change at one hop would show only for particular texts", "anchors": ["sms.go:Decode", "encode.go:Encode", "encoding/tpdu/userdata.go:EncodeUserData", "encoding/tpdu/userdata.go:DecodeUserData"]}
{"id": "C118", "title": "What was unmarshalled does not share the buffer", "statement": "sms.Unmarshal writes to no array that exists, and the TPDU it returns stays as it is whatever is later written to the buffer it was read from: a receiver that reads all messages into one buffer still has every TPDU right at the end, and decoding what it has then gives the text of the messages and changes none of the TPDUs. The user data and the data of each information element do not overlap, nor does the unused capacity of any of them. Of pdumode.UnmarshalBinary only the address is independent: its TPDU is the rest of the buffer itself, so it has to be unmarshalled before the buffer is used again, and then all is right as well.", "quantifier": "every memory, slice of octets, direction, growth policy of append, sequence of messages and later change of the buffer", "why_tests_cant": "tests compare a result right after the call and never write to the buffer again, so a missing copy goes unnoticed", "anchors": ["sms.go:Unmarshal", "encoding/tpdu/tpdu.go:decodeUserData", "encoding/tpdu/userdata.go:UnmarshalBinary", "encoding/pdumode/pdu.go:UnmarshalBinary"]}
{"id": "C119", "title": "Messages decoded together give their texts one after the other", "statement": "If some TPDUs decode to a text then any TPDUs after them are decoded as if on their own: the result is the one text followed by the other, or the error of the others. So any number of messages, in whatever alphabets, decoded in one call give their texts one after the other. Conversely, when TPDUs decode, cutting the list anywhere cuts the text, except within a character of UCS-2, where the first part fails with that half of it. An error other than such a half remains whatever follows. Without UCS-2 each TPDU is decoded on its own.", "quantifier": "all lists of TPDUs, of any alphabets, headers and user data, cut anywhere; all decode options; any number of messages", "why_tests_cant": "state carried from one segment to the next shows only for particular combinations of alphabets and of what a segment ends with", "anchors": ["sms.go:Decode", "encoding/tpdu/userdata.go:DecodeUserData", "encoding/ucs2/ucs2.go:Decode"]}
{"id": "C120", "title": "What of a TPDU does not matter to who receives it", "statement": "Decode, IsCompleteMessage and a Collector depend on nothing of a TPDU but its type, addresses, alphabet, user data and the information elements for concatenation and national languages. Information elements of other kinds, anywhere in the header, and all other fields may differ: the text or error is the same, and a Collector, whatever else happens to it, returns the TPDUs of the same calls at the same calls, with the same errors, and gives the same to the expiry handler.", "quantifier": "all lists of TPDUs, decode options, histories of a Collector (calls, timers, Close) and differences in what does not matter", "why_tests_cant": "a dependence on the position of an element or on another field shows only for headers and fields that the tests do not have", "anchors": ["sms.go:Decode", "sms.go:IsCompleteMessage", "collect.go:Collect", "collect.go:pduKey", "encoding/tpdu/userdata.go:ConcatInfo", "encoding/tpdu/userdata.go:DecodeUserData"]}
{"id": "C121", "title": "What a timeout and its handler change of a Collector", "statement": "As long as no timer runs out, a Collector with a reassembly timeout cannot be told apart from one without: every call of Collect returns the same TPDUs and error, the expiry handler is not called and Pipes shows the same. Whatever happens, timers that run out included, an expiry handler changes nothing but that it is called.", "quantifier": "all histories of Collect, Close and timers (for the first part: without a timer running out), whatever the TPDUs, with and without handler", "why_tests_cant": "tests compare a few histories; a timer stopped or restarted wrongly shows only in some interleavings of several messages", "anchors": ["collect.go:NewCollector", "collect.go:Collect", "collect.go:Close", "collect.go:WithReassemblyTimeout"]}
{"id": "C122", "title": "A Collector that holds nothing is as good as new", "statement": "If a Collector holds no incomplete message and was not closed, then whatever it has been through, it goes on as a new one: every call of Collect returns what it returns on a new Collector, timers started from then on do the same, and Pipes shows the same. Timers started before affect none of this: they go on as if no call had followed.", "quantifier": "all histories before (without Close) that leave nothing pending, and all histories after, of Collect, Close and timers old and new in any interleaving, with and without timeout and handler", "why_tests_cant": "tests use a Collector for few messages; what earlier messages, duplicates, expiries or late callbacks leave behind shows only in particular continuations", "anchors": ["collect.go:Collect", "collect.go:Close", "collect.go:Pipes", "collect.go:NewCollector"]}
{"id": "C123", "title": "An Encoder remembers nothing of a message but the numbers", "statement": "The TPDUs that successive calls of Encode on one Encoder return are those that a new Encoder made with the same options returns for each call, apart from the references: message references count all TPDUs returned so far and concatenation references all messages of several TPDUs. Options given to a call, its message and its failure leave no other trace in later calls, and whether and how a call fails does not depend on the calls before.", "quantifier": "all options of the Encoder and all lists of calls with any messages and options, including failing ones", "why_tests_cant": "tests make one or a few calls per Encoder; state leaking from the options or the header of one call into a later one shows only in particular pairs", "anchors": ["encode.go:Encoder.Encode", "encode.go:NewEncoder", "encoding/tpdu/tpdu.go:Segment"]}
{"id": "C124", "title": "Which national language tables a text is read with", "statement": "Decode uses the table of the language that the last locking (shift) element of a TPDU names exactly if there is such a table and one of the options permits it, where no options permit all; otherwise it uses the default table, and no TPDU is refused for the language it names. Options that permit the same of the tables named, in whatever order and however often, give the same result; for TPDUs that name none, options make no difference.", "quantifier": "all lists of TPDUs with any headers and all lists of decode options with any numbers", "why_tests_cant": "tests pair a few options with a few headers; options that interfere, repeated elements and numbers without table are not tried", "anchors": ["sms.go:Decode", "encoding/tpdu/userdata.go:DecodeUserData", "options.go:WithCharset"]}
{"id": "C125", "title": "A message is received whole or not at all, however long", "statement": "If the TPDUs that Segment makes of a message are given to a Collector in sequence, the Collector returns all of them as one message, or nothing of the message as a complete one.", "quantifier": "all SMS-SUBMIT and SMS-DELIVER templates with room, all messages of any length, 8 and 16 bit references, any state of the Collector with nothing pending of the message", "why_tests_cant": "messages of more than 255 TPDUs are too long for tests, and the numbers wrap only there", "anchors": ["encoding/tpdu/tpdu.go:Segment", "collect.go:Collect", "sms.go:IsCompleteMessage"]}
{"id": "C126", "title": "What a Collector hands out can be asked about", "statement": "IsCompleteMessage and Decode return, without a panic, for every slice that Collect returns, that the expiry handler is given or that Pipes shows; IsCompleteMessage says true of a slice that has all segments and false of one that has not.", "quantifier": "every history of a Collector given SMS-SUBMIT and SMS-DELIVER segments, every slice it hands out at any time, all decode options", "why_tests_cant": "the slices depend on the whole history; only those with missing segments have nil pointers in them", "anchors": ["sms.go:IsCompleteMessage", "sms.go:Decode", "collect.go:Collect", "collect.go:Pipes", "collect.go:WithReassemblyTimeout"]}
{"id": "C127", "title": "TPDUs can be divided between Collectors", "statement": "If the TPDUs that arrive are divided between several Collectors so that segments of one message go to the same one, each answers its calls, and calls its expiry handler, as a single Collector given everything would, and holds of its messages what that one would hold; a Collector that never gets one of the segments of a message never returns it.", "quantifier": "every history of calls, timers and closing, every way to divide, any number of Collectors, with and without a timeout and a handler", "why_tests_cant": "quantifies over all ways to divide and all interleavings", "anchors": ["collect.go:Collect", "collect.go:pduKey"]}
{"id": "C128", "title": "IsCompleteMessage and the Collector agree on what is a message", "statement": "A sequence of TPDUs is complete according to IsCompleteMessage exactly if a new Collector that is given the TPDUs in sequence returns them, all of them and in that sequence, as a message.", "quantifier": "all non-empty sequences of TPDUs in which multi-part TPDUs are SMS-SUBMIT or SMS-DELIVER", "why_tests_cant": "compares two independent pieces of code on all sequences", "anchors": ["sms.go:IsCompleteMessage", "collect.go:Collect", "collect.go:pduKey"]}
{"id": "C129", "title": "The order in which national language tables are offered does not matter", "statement": "Options that offer the same locking and shift tables to EncodeUserData, in whatever order and however often, give the same alphabet, the same octets and header, and so the same number of TPDUs; and decoding gives the same text.", "quantifier": "all texts, all pairs of lists of encoder options that offer the same tables", "why_tests_cant": "quantifies over all texts and all arrangements of all sets of tables", "anchors": ["encoding/tpdu/userdata.go:EncodeUserData", "encoding/tpdu/userdata.go:WithCharset", "encoding/tpdu/userdata.go:WithAllCharsets"]}
