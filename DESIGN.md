# Formal model of warthog618/sms in Lean 4 — design

## Layout

* `lean/Verif/Model/*.lean` — the model. One Lean definition per Go function, each with a comment citing file and
  lines in /repo. Executable, total, no proofs.
* `lean/Verif/Model/CharsetData.lean` — the character tables, generated from `/repo/encoding/gsm7/charset/*.go` by
  `tools/gen_charsets.py` (committed).
* `lean/Verif/Spec/*.lean` — small specifications (bit layout, UTF-8, UTF-16, calendar, tables and layouts of the 3GPP
  standards, complete sets, data races, ...). Of the model they use its data types and, where the properties speak of
  them, exported accessors (`TPDU.Alphabet`, `TPDU.ConcatInfo`, the character tables), which C68, C69 and C83 characterise.
* `lean/Verif/Proofs/*.lean` — helper lemmas.
* `lean/Verif/Props/*.lean` — the property theorems, named `Cnn_...`, each beside an example that meets its hypotheses.
* `lean/Verif/Vectors/*.lean` — the tables of the Go tests, translated by `tools/gen_vectors.py` and checked on the model.
  These are tests of the model (see below); no claim rests on them.
* `properties.jsonl` — the properties. `MANIFEST.json` — the theorems that prove them (`tools/gen_manifest.py`).
* `AXIOMS.md` — the axioms of each of these theorems (`tools/gen_axioms.py`).
* `seeded/LOG.jsonl` — wrong programs the theorems were tested against.

## Modelling conventions

* `byte` is `UInt8`; `[]byte` and `string` are `List UInt8`; `rune` is a `Nat` holding `uint32(r)` (negative runes are
  above 0x10FFFF and take the same branches); `int` is `Int`, or `Nat` where the value is a length; `time.Duration` is
  `Int` nanoseconds. Overflow of `int` is not modelled, except for the counters (C43, C44, C80).
* A call that may fail returns `Except Fault a`; `Fault.err e` is a Go error value, `Fault.panic p` is a Go run-time
  panic (index, slice bounds, division by zero, makeslice, nil pointer) or a loop that never ends. Every Go index and slice
  expression is modelled by a checked operation that yields `panic`, so "never panics" is a theorem, not an assumption.
* Slice bounds are checked against length (Go checks against capacity): stricter than Go.
* Slices are values, except in `Model/Alias.lean`, which models the arrays behind them for the functions that append to
  slices they do not own (C61 to C64), and in `Model/Buffer.lean`, which has `Unmarshal` again with the array it reads from
  and those it makes (C118).
* Methods with pointer receivers return the updated value. On error the partially updated receiver is
  dropped, except in `Model/Into.lean`, which says what `TPDU.UnmarshalBinary` leaves in it (C98).
* `[]*tpdu.TPDU` is `List TPDU`; where pointers may be nil it is `List (Option ..)`: in the Collector, in cmd/smsdeliver and
  in `Model/Nil.lean`, which has `Decode` and `IsCompleteMessage` again on such slices (C126).
* Error values are modelled up to their kind and the fields that the API exports; their text (`Error()`) is in ErrorText.
* Goroutines: a labelled transition system whose steps interleave arbitrarily. For the Collector the steps are the
  sections protected by its mutex, the firing of a timer and the call of the expiry handler; for the counters the call,
  the atomic access and the return; for the character tables each access of a global variable. The semantics of
  `sync.Mutex`, `sync/atomic` and `time.AfterFunc` are trusted.
* `time.Time` is (unix seconds, nanoseconds, zone offset); civil accessors and `time.Date` follow the proleptic
  Gregorian calendar. Packages time, unicode/utf8, unicode/utf16, encoding/hex are modelled from their documentation.
* Go map iteration has no order; C12_order proves that the order does not matter where a map is traversed.

## What is modelled

| Go | Lean | not modelled |
|----|------|--------------|
| encoding/bcd, encoding/semioctet | Bcd, Semioctet | |
| encoding/gsm7/7bit.go | SevenBit | |
| encoding/gsm7/gsm7.go | Gsm7, Gsm7Tables (tables of the caller) | |
| encoding/gsm7/charset | Charset, CharsetData (tables as constants), Lazy (tables built on first use) | |
| encoding/ucs2 | Ucs2, Unicode | |
| encoding/tpdu/address.go | Address | |
| encoding/tpdu/dcs.go | Dcs, Print (`String`) | |
| encoding/tpdu/firstoctet.go, parameterindicator.go | Tpdu, Flags, Print (`PI.String`) | |
| encoding/tpdu/timestamp.go, validityperiod.go | Time, ValidityPeriod, Float (the double precision arithmetic of `Duration.Hours`, `Minutes` and `Seconds`), Print (`String`) | |
| encoding/tpdu/userdata.go | UserData, Segment | |
| encoding/tpdu/tpdu.go, options.go | Tpdu, Into (the receiver after an error), Buffer (what is copied), Segment, Flags, Print (`String`), Spec/Build | |
| encoding/tpdu/error.go | Prelude (`Fault`), ErrorText (`Error`) | |
| encoding/pdumode | PduMode, Buffer | |
| sms.go, encode.go, options.go, error.go | Sms, Atomic, Concurrent, Alias, Nil (slices with nil pointers), ErrorText (`Error`) | |
| collect.go | Collector, Alias | |
| cmd/smssubmit, smsdeliver, smsdecode, smscounter | Cmd, Counter, Dump (what smsdecode prints), CounterPrint (what smscounter prints), CmdPrint (what the other two print), CommandLine (flags and exit status) | the standard error (package log, usage texts), the addresses that smsdeliver prints for incomplete messages |
| cmd/charsets | Charsets | `%04x` of negative runes |
| internal/readme | | all: example calls only |

The model was compared with the code function by function, and with the tests of the code: all 674 rows of the
tables in the tests of bcd, semioctet, gsm7, charset, ucs2, tpdu, pdumode, sms and the commands, translated mechanically
into `lean/Verif/Vectors`, hold of the model. The one exception is the code itself: charset_test.go expects 37 entries
in the Portuguese shift table, portuguese.go:9-48 has 38, so this test of the code fails. The samples of the output of
the commands in README.md and the tests of the `String` methods, translated by `tools/gen_readme.py`, hold too (44 rows).

## Properties: what is modelled and how it is proved

"False" means that the property does not hold of the code: then there is a counterexample theorem, a `_partial` theorem
on the part that holds, and where possible an `_exact` theorem that says precisely when it holds.

| id | approach |
|----|----------|
| C01, C02 | loop invariants of the residual-bit loops against a bit-list specification, induction over the septets/octets |
| C03 | false: counterexamples; exact for every message and number of fill bits |
| C04 | case analysis over octets (whole domain), omega over integers |
| C05, C06 | induction over digits; invariants of the decode loop |
| C07, C08 | induction; arithmetic per rune by omega; specification through UTF-16 |
| C09–C12 | tables checked whole by the kernel, lifted to all runes and integers; induction over text. C09 is false for text with U+001B: counterexample, partial, exact. C11_strict_exact says which octet is reported |
| C13, C14 | composition of C05 and of C01, C02, C09; the bound on the length is exact |
| C15, C16 | induction over elements. C16 is false: counterexamples; the accepted and the reproduced headers are characterised exactly (Spec/Elements) |
| C17 | calendar inverse lemma (omega) and C04 |
| C18, C19 | omega on nanoseconds. C18 is false from 5 to 10 minutes: counterexamples, exact |
| C20–C22 | whole domain of octets; all TPDU states |
| C23–C27 | composition of field round-trips. C26 (header dropped) and C27 (FCS 0) are false: counterexamples, exact |
| C28 | no-panic predicate propagated through every parser |
| C29, C30 | "reads exactly" lemmas of each parser. C30 is false for user data length 0: counterexample, exact |
| C31 | offset bound propagated through every parser |
| C32 | omega |
| C33–C37 | induction over the chunk loops. C34 (runs of escapes), C35 (over 255 segments), C37 (no room) are false: counterexamples; all three exact |
| C38, C39 | composition. False for U+001B and for text that is not UTF-8: counterexamples, exact |
| C40–C42 | case analysis over the options. C42 is false: counterexample, partial |
| C43, C44 | induction over histories and interleavings. C44 holds up to 2^w calls only (C44_wraps) |
| C45–C47 | induction over segments; exact characterisations |
| C48–C54 | invariants of the Collector by induction over histories; refinement of one reassembly (C53). C54 is false of reports: counterexample, exact |
| C55, C56 | composition. C55 is false of an address without digits: counterexample, exact |
| C57 | direct |
| C58 | exchange argument: greedy is optimal, by induction. False for malformed UCS-2: counterexample, partial |
| C59 | composition of C48, C53, C39; `_partial` for the texts that C38 excludes, and exact |
| C60 | composition with the segmentation lemmas |
| C61–C64 | heap model of slices. All false: counterexamples, partial; what Segment writes and when concurrent calls disturb each other are exact |
| C65–C67 | model of the commands. C65, C66 exact; C67 counterexample, partial, and `C67_exact`: exactly which arguments make smsdeliver panic (Spec/Anonymous: all segments of unsupported types share one place; invariant of the Collector without timeouts) |
| C68 | tables of TS 23.038 transcribed in Spec/Alphabet and Spec/Language, checked whole; false of three septets of Hindi |
| C69, C70 | whole domain of octets against the tables of TS 23.038 and TS 23.040. False of reserved codings: counterexamples |
| C71 | exact condition for success, by composition over the fields (Spec/Encodable) |
| C72 | inversion of every parser; false: counterexamples, exact (Spec/Kept in Spec/Relay) |
| C73, C74 | relation between fields and octets written from TS 23.040 (Spec/Layout); false where a length does not fit its octet: counterexamples, partial |
| C75 | transition system of the lazily built tables and a definition of data race (Spec/Race); false: counterexample, exact |
| C76 | induction over lists of options and setters (Spec/Build); false: counterexample, partial |
| C77, C78 | what each parser accepts after, and short of, an accepted string (Spec/Trailing); false: counterexamples, exact |
| C79 | well-formed UTF-8 by the table of the Unicode standard (Spec/Utf8), induction over segments |
| C80 | permutation argument over interleavings of counter accesses |
| C81, C82 | C80 with the Collector and the wire. Both are false for texts that get the same reference and for those that C39 excludes: counterexamples, exact |
| C83 | direct, against the rules of TS 23.040 on repeated and invalid elements (Spec/Concat); false: counterexamples, exact |
| C84 | the printed text is split into lines; each way of writing a value is injective (Proofs/Print, Proofs/PrintLines), field by field against Spec/Dump |
| C85 | labels and lines (Spec/Fields), against the fields of TS 23.040; false of an alphanumeric address with an LF: counterexample, exact |
| C86 | case analysis of a call in any state, and an invariant of histories (Spec/Refused); false of types that are not supported: counterexample, exact |
| C87 | induction on the text for one direction, texts of one and two characters for the other (Spec/Codec) |
| C88 | decoding of fixed-width cells by case analysis, induction on the rows (Spec/Charsets); tables of the package by evaluation of all of them |
| C89 | from C60 (`NewCount`), with the uniqueness of decimal digits and of lines |
| C90 | no other error: rules for the errors of each step of the parsers; each one occurs: an input for each, evaluated for all 256 first octets and both directions (Spec/Failures) |
| C91 | induction on the error, with unique reading of its text; Unmarshal by C90, MarshalBinary by C92 (Spec/ErrorText) |
| C92 | rules for the first error of a sequence of steps, by cases on the type (Spec/MarshalFault) |
| C93 | two runs of the decoder side by side, one in the used and one in a new TPDU; what is kept is named in Spec/Reuse; counterexamples to the plain claim |
| C94 | text of septets as a fold with a pending escape; the condition for a cut (Spec/CutText) by counting escapes; for any number of cuts, by induction on septets and cuts with the state of both readings, and the number of runes; false: counterexample, exact |
| C95 | the elements of TS 23.040 (Spec/StdLanguage) with the tables of C68; false: 24 and 25 are written in decimal; counterexamples, exact for what is sent |
| C96 | lines of the output (Spec/Printed), with C65 for what they say |
| C97 | lines and first colon (Spec/Printed), by counting line feeds; with C66 for the plain use; false: counterexample, exact |
| C98 | fields in wire order (Spec/Partly); each decoder as a sequence of steps, one per field, that read only their own octets; refinement to the decoders of the other properties |
| C99 | at most two septets and at least two octets of UCS-2 per character; all septet segments but the last hold at least a block less one septet, UCS-2 segments at most a block; the block in septets with the header of a language exceeds the block in octets without header |
| C100 | the last word on each matter as a search from the end (Spec/Settings); the encoder after a list of options by induction from its end; what Encode may change of the template |
| C101 | the octets of a period are those of the one it is cut down to, which round-trips (C19); for the floating point part, the error of rounding to 53 bits is bounded by half a unit of the last place, in integers (Proofs/Float) |
| C102 | all octets and values by `decide +kernel`, lifted to addresses and names |
| C103 | the grammar of command lines (Spec/CommandLine) as an inductive relation; package flag and strconv.ParseInt, modelled from their sources, accept exactly that, by induction on the arguments and on the digits |
| C104 | exit status in the model of the programs, with C103 for the flags and C65, C67, C89, C96 for what the programs do; false of smssubmit and smsdeliver: counterexample, exact |
| C105 | C23 to C27 one way; the other way C72_exact (what was read and is written again unchanged was not reduced on the way) with the inversion of the decoders |
| C106 | the reassembly of one message (C53) with segments that repeat: `rounds` says what every call answers and what is pending, by induction over what arrives; exact repeats by counting; false after a message is complete, with the witnesses |
| C107 | from C105, C29 and C78: the only accepted cut of a TPDU that round-trips is that of a status report before its optional part; sequences by induction |
| C108 | C82 and C81 with C106 in place of an order of arrival: what a Collector returns is one of the messages, for any events; a message is returned if and only if all of its TPDUs arrive; false of messages that share type, address, reference and number of TPDUs, with the witness |
| C109 | events with times (Spec/Timed.lean): timers fire no earlier than `d` after they are created (`Timely`), and are dealt with no later than `lag` after (`Prompt`); the first by induction over the history with the time the timer of the pending reassembly was set, the second by an invariant on the times of the segments of every reassembly; a repeated segment does not restart the timeout (`C109_repeat`) |
| C110 | messages and what arrives of each, in real time (Spec/Passage.lean); what calls answer is given by `epochs` (Spec/Timed.lean), rounds that forget in a pause of more than `lag`, by induction over the history; groups of arrivals that are apart are answered one after the other, by induction on their number; then messages by counting results; texts of one encoder are alike only if a multiple of 256 texts of several TPDUs are encoded in between (`C110_reuse`), so that only those need be apart (`C110_paced_partial`); false as stated if alike messages are nearer (`C110_false`) |
| C111 | `Model/SevenBitAny.lean`: the loops with `uint` arithmetic modulo 2^64 and the capacity passed to `make`; equal to the loops of `Model/SevenBit.lean` for up to 8 residual bits (so C01–C03 hold of it), zeros while the count is above 8 or wrapped; by induction on the octets. `int` overflow of the capacity sum and running out of memory are not modelled |
| C112 | `main` of smsdeliver succeeds with given lines if and only if these are the ones that Spec/Deliver.lean builds from `DecodeString`, `pdumode.UnmarshalBinary`, `Unmarshal`, `Decode` and the results of a Collector (`run`); by induction on the arguments. The order in which Go lists the map of incomplete reassemblies, and the addresses of pointers it prints, are not modelled |
| C113 | the text printed (Model/Dump.lean) against rows described by columns (Spec/Rows.lean); by induction on the columns of a row and on the rows. `hex.Dump` of the Go library is modelled in Model/Print.lean from its documentation and source |
| C114 | lengths of all that the marshalling functions write against sums over the fields (Spec/Size.lean); the bound from the equations for `UDBlockSize`, its converse when every other field is at its longest; for Encode from the length of the pieces `chunk` makes, by induction on the loops. False of commands with a 7-bit coding scheme, whose block size counts septets though octets are written |
| C115 | a history in which the holder of a slice writes to it between the events (Spec/Owner.lean); that each step of the Collector commutes with such a write once the array is in no map entry and in no timer that can still fire or run, which later steps keep; and that no step writes to an array whose last timer has fired. Both follow for the slices handed out from the invariant of the Collector. The slices in the map that `Pipes` returns are not included: a witness shows that writing to one makes `Collect` return a message with a nil segment |
| C116 | that each of the three loops that cut a message finds, in a prefix of it, the same cuts as far as it goes (induction on the loop), so `Segment` of a prefix never gives more TPDUs; that the encoders take characters one by one, so a prefix that ends at a character is encoded as a prefix of the octets if the same tables are chosen; and, if the shorter text is in septets and the longer in UCS-2, that there are at most as many septets as octets and the blocks are at least as large. With tables of other languages offered it is false: a witness in which adding a character halves the number of TPDUs; also if half a character is left |
| C117 | a chain of stretches, each with a number, tables offered and decode options; each is Encode, MarshalBinary, Unmarshal and Decode. What Decode returns is UTF-8 (C79) and, from septets, without U+001B (C38_no_escape), which is exactly what a stretch leaves alone (C38_exact, C39); induction over the chain. For any octets: what comes out of a stretch is left alone by the same stretch, since in UCS-2 the runes are the same and so is the choice of alphabet. A witness shows that U+001B may be changed by a later stretch with other tables |
| C118 | Unmarshal once more, with memory: octets in a slice, the copies (append to nil) in arrays with an arbitrary growth policy. Each function does in memory what its counterpart without memory says (same value or same error), writes to no existing array and returns slices of new arrays; composed over the functions, with a loop invariant for the header and induction over the messages of a receiver with one buffer; the slices it has then meet the hypotheses of C62_decode_partial. `pdumode` does not copy: stated exactly, with a witness |
| C119 | the loop of Decode over `a ++ b`, by induction over `a` with the pending surrogate as state, for each of its outcomes on `a`: text, pending surrogate, other error. With C46 (which errors there are) the converse; induction over the messages |
| C120 | a relation between TPDUs (same type, addresses, alphabet, user data, elements 0, 8, 24, 25 in order). Decode and IsCompleteMessage: induction over related lists. The Collector: erasing from a state all that does not matter commutes with each step, so that runs over related events, from a new Collector, stay related |
| C121 | the Collector model; removing the timers (or the handler) from a state commutes with each step: for the timers as long as none has run out, by the invariant that the timer of each pending message is counting down; for the handler always. Induction over the events |
| C122 | the Collector model; a Collector begun on the remains of another (its heap, timers and count of calls put before) takes each step of the new one, with numbers moved; steps of the old timers change only the remains, since they name pipes that are no longer in the map. Induction over the events |
| C123 | the Encoder model and the `encodes` of C43; `Segment` with counters advanced is `Segment` with new ones with the references replaced, the options commute with the counters; induction over the calls. Assumes, as C43, that the default Counter does not overflow |
| C124 | `Decode` and `DecodeUserData`; the result is that of the same TPDUs with headers of two elements naming only what is permitted, read with all tables; induction over the TPDUs. The element identifiers are those of the code, 25 and 24 (C95) |
| C125 | `Segment` and the Collector; false of more than 255 TPDUs, whose count and numbers are cut to an octet. `answerTo` gives each answer of the Collector for any count; proved by induction over rounds of 256 TPDUs: a message of as many as the count says (C48), then TPDUs with impossible numbers |
| C126 | `Decode` and `IsCompleteMessage` on slices of pointers (Model/Nil.lean), equal to the functions of C45-C47 where no pointer is nil. True of what `Collect` returns (from C49, C47); false of what the expiry handler is given and of what `Pipes` shows: there `IsCompleteMessage` always panics, and `Decode` panics or fails (induction up to the first nil pointer, C51) |
| C127 | the Collector; simulation of one Collector by another that sees only the TPDUs sent to it, related by the reassembly of each message on its own (the refinement of C53) and by the keys of the timers. `share` numbers the timers as the part sees them |
| C128 | `IsCompleteMessage` (C47) against the Collector (C48, C49); false, as `IsCompleteMessage` looks at neither type nor address, and as a Collector returns a single TPDU whatever its number. Exact equivalences for two or more TPDUs and for one |
| C129 | `EncodeUserData` (C40) under options that offer the same sets of tables; true of the alphabet and the decoded text; false of octets, header and number of TPDUs, as the first table that will do is used. The octets are the same when at most one choice will do, and never more than twice as many |

## Trusted base

* The Lean 4.33.0 kernel. No axioms are added; there is no `sorry`, `admit`, `native_decide` or `bv_decide`. Each theorem of
  the manifest depends on a subset of `propext`, `Classical.choice`, `Quot.sound`; `AXIOMS.md` lists which.
* The faithfulness of the model to the Go source, by reading and by the vectors above, and the Go semantics listed under the
  conventions.
* `tools/gen_charsets.py`, which copies the character tables.
* The transcription of the tables of 3GPP TS 23.038 and TS 23.040 (C68 to C70, C73, C74, C95) and of the Unicode standard
  (C08, C79) in `Spec`.
