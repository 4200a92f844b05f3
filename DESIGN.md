# Formal model of webrtc-sdp: design

## 1. What is modelled

`/repo` is a parser and printer for WebRTC session descriptions plus an anonymizer. It is
single-threaded, deterministic and does no I/O, so the model is a set of total functions in Lean 4,
one per Rust function, in `lean/Verif/Model/`:

| file | Rust source | content |
|---|---|---|
| `Basic` | std `str`, `slice`, `Result` | strings, `Outcome` (ok / err / panic), split, trim, lines, join |
| `Num` | std `core::num` | integer parsing and printing |
| `Float` | std `core::num` (dec2flt, flt2dec) | `f32`/`f64` parsing (correct rounding) and `Display` (shortest digits) |
| `Ip` | std `core::net` | `IpAddr` parsing and printing, written out in full |
| `Env` | std / `url` | the external functions that are *parameters* (see 3), tests and order of floats |
| `Types` | all files | every public struct and enum |
| `Show` | all `fmt::Display` impls | serialization and error texts |
| `Address` | `address.rs`, `network.rs` | address parsing, equality |
| `ParseAttr` | `attribute_type.rs` | all 43 attribute parsers, `SdpAttribute::from_str` |
| `Media` | `media_type.rs`, level tables of `attribute_type.rs` | `SdpMedia` API, `parse_media`, `parse_media_vector` |
| `Session` | `lib.rs` | line parsers, `parse_sdp_line`, sanity checks, `parse_sdp_vector`, `parse_sdp`, `SdpSession` API |
| `Anon` | `anonymizer.rs` and the `masked_clone` impls | anonymizer |
| `Serial` | the `serialize` feature of all files, `error.rs` | JSON of every API type (derived and hand-written `Serialize`), `Error::source` |
| `Eq` | derived `PartialEq` of the imageattr types | equality where it is not identity |
| `Example` | `examples/file_parser.rs`, `new` functions, `From` impls | exit code of the example program, small constructors |

Every definition carries the file and lines it models. Modelling conventions:

* A Rust string is the list of its Unicode scalar values; `str::len` is `byteLen`, the sum of UTF-8 sizes.
* `Result<T,E>` is `Outcome E T` with a third constructor `panic`. Every slice index, `Vec::remove`,
  `unwrap` and the only arithmetic that can overflow (the `i32` brace counter of imageattr) is an
  explicit panic point, so "does not panic" is a theorem and not built into the types.
* Loops are structural recursion; iterators are lists; `HashMap` is an association list;
  `Wrapping<uN>` is Lean's wrapping `UIntN` / `BitVec 128`.
* `&mut self` methods return the new value; those that can fail return value *and* result, because
  Rust keeps mutations made before an error.
* One-line private functions have no definition of their own but stand where they are called: the setters of
  src/attribute_type.rs:262-288 in `parseCandidate`, `set_addr` (452) in `parseRtcp`, `set_channels` (1174) in
  `parseRtpmap`, and the `From` conversions of errors of src/error.rs:168-191 at each `?`.

Not modelled: logging (`trace!`, `warn!`), serde itself (its data model and the JSON format are
transcribed in `Serial`: how derived structs and enums look, non-finite floats as `null`), `Debug` output (only occurs inside error messages, defined on ASCII text, parameter `Env.debugNA` outside of it), `Clone`, memory
exhaustion and stack depth, performance, the unit tests. `#[cfg]` variants do not change semantics.

## 2. Layout

* `Verif/Model/*` – the model.
* `Verif/Spec/*` – small specifications used in theorem statements: what a decimal numeral is, what
  well-formed values are, what "the sections of a list of lines" are, operation histories.
  They do not mention the model's parsers.
* `Verif/Lemmas/*` – helper lemmas.
* `Verif/Props/*` – one file per group of properties; only the property theorems, negation
  witnesses and non-vacuity examples.
* `Verif/Conformance/*` – the crate's own unit tests (`src/*_tests.rs`, `tests/parse_sdp_tests.rs`) run
  on the model: 307 attribute texts, 125 line texts, 25 whole texts (generated by
  `scripts/conformance.py`), float texts (`Floats.lean`), and the tests that build or inspect values (`Values.lean`, by hand). They are
  tests of the transcription, not proofs of properties, and no claim in MANIFEST.json rests on them.

## 3. Trusted base

* Lean 4.33.0's kernel. Theorems depend at most on the axioms `propext`, `Classical.choice`,
  `Quot.sound`. No further axioms, no `sorry`, no `native_decide`, no `bv_decide`.
* The transcription of the Rust code into `Verif/Model` (by reading; the code was not run). The verdicts the
  crate's unit tests expect are checked against the model in `Verif/Conformance`, under an `Env` that
  knows the host names these tests use.
* The transcription of the standard-library functions in `Basic`, `Num`, `Float`, `Ip` (documented behaviour of
  Rust >= 1.88: `str::split`, `splitn`, `split_whitespace`, `lines`, `trim`, `strip_prefix`,
  integer `FromStr`/`from_str_radix`/`Display`, `IpAddr` `FromStr`/`Display`,
  float `FromStr`/`Display`). Floats are transcribed by result, not step by step: Rust's fast paths (Eisel-Lemire,
  Grisu) give the same result as the exact integer algorithm that the model has.
* Builds with overflow checks: an overflow of the `i32` counter counts as panic.
* External functions as parameters (`class Env`): Unicode case mapping of strings that contain a
  non-ASCII character, `url::Host::parse` on strings that are not a strict dotted quad, `{:?}` of strings that contain a non-ASCII character. Theorems hold for *every* `Env`. Where a law about one of them is
  needed (a parsed domain parses to itself) it is an
  explicit hypothesis of the theorem, and listed with the property.
  Built in: ASCII case mapping on ASCII strings, and that `Host::parse` of a strict dotted quad is that IPv4
  address.

## 4. Plan per property

### Where to start

| question | properties |
|---|---|
| can it panic? | C01, C02 |
| which texts does `parse_sdp` accept, and what does it return? | C79 (the whole answer), C77 (grammar), C95 (errors), C117 (as calls of the API), and in parts C03 to C16, C78, C87 |
| which texts does one attribute or line have? | C56 to C71, numbers C23, C82 to C84, addresses C47, C113 |
| what is written? | C80 (the whole answer), C51, C109, C118, C124 (how much) |
| does it survive writing and reading? | C24 to C28, C55, C81, C88, C90, C122 |
| what may be assumed of a parsed value? | C120 (the whole answer), and in parts C03 to C09, C21, C22, C45, C46, C49, C52 |
| what do the calls of the API do? | C29 to C35, C76, C85, C89, C93, C118, C119 |
| what does the anonymizer hide and keep? | C121 (what it reveals, the whole answer), C123 (where in the text), C36 to C41, C86, C99, C105, C115 |
| what does not matter in a text, and what does? | C17, C18, C50, C91, C92, C97, C98, C100, C101 |
| how far does it follow the RFCs? | C106 to C116 |
| equality, JSON, errors, the example program | C42, C72 to C75, C96, C125 (where things are), C53, C103 |

Where the natural property is false of the code, the theorem with the precise restriction is proved and a
separate `not_…` theorem gives a concrete counterexample (kernel-evaluated).

| id | how it is stated and proved |
|---|---|
| C01, C02 | `parse… ≠ .panic` for every string with `byteLen < 2^31`; case analysis over every panic point, invariant on the brace counter bounded by the number of tokens. Counterexample for the counter: a loop invariant from a state with counter `2^31-1`. That this counter is the only way to panic: the same invariant with the numbers of brackets instead of the number of tokens (`Lemmas/Overflow`). `parse_media_vector` panics iff the list is empty. |
| C03–C09 | inversion of `parse_sdp` success through `sanity_check`; quantified over sections, rids, ids. C08 is about the simulcast attribute that is checked, the first of a section; a counterexample text shows that a second one is not checked. C09 by invariant over the section loop. |
| C10, C11 | refinement: an independent specification (`sections` of a line list by splitting at m= lines; filters) and an `iff` for success; induction over the line list. |
| C12 | inversion of `parse_sdp_vector`. |
| C13–C17 | the line scan is shown equal to a filter/map specification; relations between runs follow. |
| C18, C50 | a re-casing relation / padding relation on lines; congruence of each parser. |
| C19, C20 | case analysis on the dispatch, plus a proof over the whole 43-name table. |
| C21, C22, C45, C46, C49 | inversion of each attribute parser, loop invariants. |
| C23 | numeral specification `IsNumeral` independent of the parser; induction on digits. |
| C24–C27 | for each attribute and line: well-formedness predicate (explicit in `Spec/WF`), print/parse identity by string lemmas; composed to the whole session by induction over attributes and sections. |
| C28 | concrete witnesses. |
| C29–C35 | operations as an inductive type, histories as lists, invariants by induction. |
| C36–C39 | invariants over histories of mask calls; injectivity from the counter invariant; C39 as a simulation relation between two runs; C38 gives the collision. |
| C40, C41 | case analysis; C41 includes the negative fact that media connections are not masked. |
| C42 | direct. |
| C43, C44 | inversion. |
| C47 | digit lemmas, zero-run compression lemma, all addresses. |
| C48 | equation between the two token orders. |
| C51–C53 | structural induction on the printers; invariants on parsers. |
| C54 | the meaning of a parameter list (last one wins, defaults, unknown ones kept) as an independent specification; induction from the end of the list. |
| C55 | each parser returns a well-formed value (`Lemmas/ParsedWF`), except the values that are not `Plain` (`Spec/Plain`); composed with C26. |
| C56–C71 | a grammar of texts and values (`Spec/Grammar`) that refers to no parser: words, fields, numbers, keywords. Each theorem is an equivalence between `parser text = ok value` and the grammar, for every text and value; induction over the words, fields, parameters and pieces. C67 has the length bound of C01. |
| C72, C73 | `ser : value → Json` follows the derive rules; injectivity by recursion over the types, with `Finite` on floats; counterexample for an infinite q. Without `Finite`: `seen` (Spec/SerialSeen.lean) replaces all floats that are not finite by one NaN, or drops them where they may be missing (`_exact`). Errors are compared through `ErrorView`. |
| C74 | case analysis over all errors; the text of the cause is an infix of the text of the error. |
| C75 | the exit code as an equivalence; comments through C17, no panic through C01. |
| C76 | text and reparse of values made by the constructors, through C24. |
| C77 | Spec/Document.lean defines, without the parser, which text is which attribute, which line denotes what and which lines are unsupported; equivalences with `attrFromStr` and `parseSdpLine`, from C19 to C22, C44 to C49 and C56 to C71. |
| C78 | Spec/Sequence.lean defines the first fault of a sequence of line values, with message and number; equivalence with the error of the session parser by induction over the sections. |
| C79 | `Comes` (Spec/Document.lean) is the specification of `parse_sdp` as a relation between text and outcome: soundness, completeness and uniqueness. It leaves the causes of line errors open; C95 fixes them. |
| C80 | `SessionWritten`, `attributeField`, `ipField`, `errorField` … (Spec/Canonical.lean) say which text is written for a value, without the printer: digits by their value, separators, keyword tables, the first longest run of zeros. Proved equivalent to being the printed text, part by part (`Only P s`: the field P has the text s and no other). |
| C81 | C80 with the round trips C24 and C26. |
| C82 | `F32Text`, `F64Text` (Spec/Float.lean): syntax of decimal texts and their rational value; `Rounds` is round-to-nearest-even over ℚ. Equivalence with the reader; uniqueness and existence of the rounding. |
| C83 | `F32Written`, `F64Written`: fewest digits that round to the float, then closest. The digit search is shown minimal by comparing intervals over ℚ. Rust's narrower lower bound at the least normal number and the one-digit subnormals are settled by kernel evaluation of two powers of two per format. |
| C84 | the bit-pattern order against the order of the rational values. |
| C85 | `BuildOp` in Spec/Build: a call on the session or on one of its sections; an invariant (`Session.Right`) is kept by every call; with consistency and fitting formats it is the well-formedness of C26. |
| C86 | the masked value is well-formed again (C24, C26 then apply): masks are words, host masks are host names (`MaskHosts`, a law about the host parser), ports stay below 2^16 (`PortsSuffice`). Conversely a fingerprint of eight bytes is an error for every hash, and that line is in the text. |
| C87 | the two public vector parsers on any session and vector, with the lines left in the vector as a second model function: an inductive relation (all lines taken over, or those before the first wrong one) equals the function; induction over the lines. Repeated calls by induction over their number. |
| C88 | the converse of C24, C26, C55: from the parser's postconditions (C24_parsed) and an analysis of the five attributes that lose something, a value that is read back is plain. For a session: the lines read are at most the attributes printed, so equality of the lists forces every attribute to be read from its own line. |
| C89 | the invariant of C85 holds of every parsed session with plain attributes, so C85's argument applies from there. For harmless calls (`Spec/Build`) the rules themselves are an invariant, section by section. |
| C90 | `Lemmas/Shrink`: for each attribute with a lossy text, reading the text back and printing it gives the same text or a shorter one; `Lemmas/ShrinkSession`: a parsed session changes only in its attributes, so the same holds of the session, and the length is the variant that bounds the rounds. A family of simulcast attributes that need any given number of rounds shows that no fixed bound exists. |
| C91 | `Lemmas/Compose`: acceptance restated without line numbers (`parseSdp_lines`), then split into a part about the session part and a part about each section with the session part (`describes_head`); a list of blocks is the flattening of its parts. |
| C92 | `Lemmas/Reorder`: a relation between line lists (a permutation that keeps c=, t= and simulcast lines in order) is carried through the splitting at m= lines and through the rules. Witnesses show that the exceptions are needed. |
| C93 | the history read as a whole (`Spec/History`): which attributes were given and not removed later, what was set last. Each call removes some types and adds some attributes; induction over the history. `C93_made_*` start from the constructors and `C93_getters_*` compare the getters with the text, so that no getter is described by itself only. |
| C94 | a count of what a session keeps (`Spec/Size`), compared with the number of characters of the text. Each splitting function yields pieces that count no more than what is split; then per attribute parser, per line, and by the partition of the lines into session part and sections. The law `HostCost` is about the host parser. |
| C95 | `Spec/Fault` lists, per attribute and line, the faults in the order in which the code notices them, each a predicate on errors; `FirstFault` picks the first one present. A parser `Judges` a list of faults if it does not panic and its errors are those of the first fault; this notion composes over sequencing, tests and loops, so each parser is followed once. `Yields` is `Comes` (C79) with the causes fixed. |
| C96 | `Model/Eq` is the derived `PartialEq` over IEEE equality of `f32`; the spec compares the rational values (C82). Negations by witness: a parsed value that is not equal to itself, equal values with different texts. |
| C97 | `Spec/Insert` says what the session level or a section needs to take or spare one attribute. The lines before and after are arbitrary; `parseSdp` is rewritten to `Describes` (C83) over the meanings of the lines, and the consistency rules are compared before and after. Which lines cannot be removed is shown by witnesses. |
| C98 | As C97, for c= and t= lines: `connectionsRead`, `timingsRead` and `upToMedia` (`Spec/InsertConn`) name the lines that compete; the theorems say which of them counts and when the line can go, and that t= lines in sections and second v=, o=, s= lines are never accepted. |
| C99 | `C99_state`: clones leave the anonymizer in the same state as calls for the secrets, so C36–C41 and C86 cover histories with clones. `Thing` (`Spec/MaskHistory`) is the sum of all mask calls and all types with `masked_clone`; induction over the history with the invariant `Knows` of C36–C41 gives `C99_history`; injectivity by a left inverse of the mask on the secrets of the history, independence of the secrets by `rank_rename`. |
| C100 | `Says`, `SameSense` and `SameOutcome` (`Spec/Sense`) are built on `LineDenotes` of C77. Forward: induction over the lines, then the vectors only depend on the values. Backward: for each kind of value, surroundings (`Lemmas/Sense`) under which the value can be read off the session; for lines without a value the three outcomes accepted, accepted with a warning, rejected. |
| C101 | `Media.CutOf` and `Session.CutOf` (`Spec/Cut`) say what is left; `describes_at` and `describes_in` of C97/C98 with nothing after the cut, so only the checks that need a line (connection, t=, rtcp-mux, rids) can fail. The cut inside a line is a witness. |
| C102 | `LineAddress` (`Spec/World`) says where addresses stand; two instances of `Env` that agree on the letters and on the host names there give the same outcome, function by function from `parseAddress` to `parseSdp`. Two witnesses show that both conditions are needed. |
| C103 | `Literal` (`Spec/Quote`) relates the body of a string literal to its text and is a function; `debugStr` writes such a body, character by character (all 128 of them, then induction on the word). Which error quotes which word is C95. |
| C104 | The standard functions the model defines itself (`byteLen`, `asciiLower`, `asciiUpper`, `isWs`) are compared with Lean's `String.toUTF8`, `Char.toLower`, `Char.toUpper` and the table of white space; the limit of 51 bytes and the one-byte type follow. |
| C105 | The rank of a mask among the masks is the rank of its secret up to the number of masks of the kind (induction on the history), so numbering the masks again gives the same numbers; with C99 this is idempotence of `maskedAll`. Two witnesses show that it needs a new anonymizer and the same order. |
| C106 | Verif/Spec/Abnf.lean defines the operations of RFC 5234 as sets of texts and Verif/Spec/Rfc.lean has the rules of the RFCs in them, independent of the library. Each rule is taken apart and given to the exact syntax of C49 and C56 to C66. `C106_deviations` decides that one text for each exception is rejected. |
| C107 | Verif/Spec/RfcLines.lean has the rules of RFC 8866 for lines in the notation of C106. Each rule is taken apart and given to the exact syntax of C68 to C70 and C77; the attributes follow from C106. `C107_deviations` decides that one line for each exception is an error. |
| C108 | Verif/Spec/RfcDocument.lean has the structure of a description of RFC 8866 and the rules for the places of its lines. The lines are read one by one with C107 (`read_list`, by induction), the sections are put together, and C79 (exactly the texts that denote a session) says that it is accepted; warnings by the uniqueness of the reading. |
| C109 | `Rfc.lineOrder` (Spec/RfcOrder.lean) is the grammar of RFC 8866, 9, with each line reduced to its letter, including those the library does not know. The letters of the printed lines are computed from C51 and divided at the letter m, which is unique; the rest is about words over letters. |
| C110 | Verif/Spec/RfcMore.lean has the ABNF of the RFCs in the combinators of Spec/Abnf.lean. Each rule is taken apart and the exact grammars (C63 to C67) are met: for fmtp by induction over the parameters, for imageattr by showing that no separator is inside of brackets. The order of decimal numbers of RFC 6236 is kept by the rounding to floating point numbers (`F32.rounds_order`, Verif/Lemmas/RfcFloat.lean). |
| C111 | The value that is read from a text that follows a rule is known (C106, C110 with what it contains), so the parts that are written are known to follow the parts of the rule; numbers are written within the same limits, lists with the same separators. The shortest decimal of a float neither begins nor ends with a zero, so it is a number of RFC 8866. The host parser must give names of the form of a host name (`Rfc.HostNames`, met by the sample). For `fmtp` (`C111_fmtp`, module RfcFmtp) each field that differs from its default is written as one parameter of the rule, the unknown ones together as one more. |
| C112 | C107 is made to say what the values of the lines are, so that what is written for them is known to follow the rules; C111 does this for each attribute. The line parser is a function, so the values of a document are those (C79); the text of a session is its lines (Spec/Layout.lean). `Rfc.Plain` leaves out what C111 cannot have, `Rfc.writtenLine` is what is written (Spec/RfcRewritten.lean). |
| C113 | The rules of the RFC are written down as they are in Spec/RfcIp.lean. They are shown to describe the same texts as the grammar with values of C71, alternative by alternative: repetitions of `h16 ":"` are lists of groups, and `groupsValue_lt` gives the address. C71 carries this over to the parser, C47 to what is written. |
| C114 | `Fits` (Spec/RfcBuilt.lean) says when each argument fits; it is an invariant of all parts of a session under every call, shown by cases on the call as in C85. What is written for a part that fits follows its rule (the lemmas of C111 and C112). That no rule stands for a text with NUL, CR or LF is shown along the structure of the rules (Lemmas/RfcBytes.lean). The order is that of C109. |
| C115 | `Fits` (Spec/RfcBuilt.lean) is kept by masking (Spec/RfcMasked.lean names the exceptions). A value that fits and is read back is the one that C107 reads from its text, so its parts are known to follow their rules; the masked parts (numbered host names, addresses, ports) do as well, and C112's lemmas put them together. For the three exceptions the rule fails on a character or on the number of bytes. C86 says what the anonymized session is, C114 what its text is. |
| C116 | `Rfc.Lasting` is in Spec/RfcEdited.lean. C77, C79 and C107 say which value each line gives and how the session is put together from the values; the fields fit because the values do (lemmas of C112 and C114). Induction over the calls keeps `Session.Fits` and the timing; C114 says which lines are written; C108 reads lines of the RFCs in any order. |
| C117 | `callFor` and `valuesRead` are in Spec/Script.lean; `Session.Takes` and the relation `Acts` (one call after the other, all taken) are beside the theorems. Induction over the values, first within a section, for any sections before it, then within the session part; the result of the calls is the session that C77 assembles from the lines. `C117_needed` has a text that breaks each condition. |
| C118 | Spec/TextEdit.lean has the line of a value (`attributeLine` and so on; their texts are those of C80) and what a call adds; what it clears is that of C93. The text is the concatenation of its lines (C80), the fields after a call are known (C93, C34), so both texts are compared piece by piece. `C118_empty_value` shows the exception. |
| C119 | `sessionCalls`, `callsOn`, `MediaOp.part` and `MediaOp.touches` are in Spec/Interleave.lean. Calls about different parts commute (from the description of single calls in C93), so those of one part can be moved before all others; a session after any history is the session after the calls on it, with each section after the calls on it (induction). `C119_needed` shows what cannot be exchanged. |
| C120 | `Attribute.Readable` and `Session.Readable` are in Spec/Readable.lean. Every parser yields such values (as for C24, without the exceptions). Conversely a text is constructed for each, not by the printer: an rid is written with a number at both ends, an fmtp with a number at the end, a simulcast list with its prefix, a negative NaN with its sign; blank lines bring a session to 51 bytes; the lines the warnings report are put at their numbers, before the session's, with blank lines between them. `C120_complete` is the consequence for statements, `C120_wf` compares with C88. |
| C121 | `Disguised` names the replacement. From right to left it is C99_hides. From left to right the replacement is constructed: mask with the first anonymizer, then undo the second, which is possible because its masks are different for different secrets; it is one-to-one because both histories have the same masks. |
| C122 | `Session.Alike` and `AttrsAlike` are in Spec/Alike.lean. The text is cut into its lines (C51), the lines are divided by their first letters, and each line is read back (C25). For attributes: those that survive printing are read back (C88), reading back keeps the type (C90), and otherwise the first letters of the five names differ. For msid-semantic and imageattr a value with the same text that survives printing is named. simulcast and rid texts are cut at their separators, and the pieces told apart by their names. An fmtp value is first merged to one that survives printing, is the default, or ends with white space; in the last case a letter is put behind both. |
| C123 | Spec/Redacted.lean: lines as lists of pieces, open text or secret; `SecretLine` lists the shapes of lines with secrets, `Redacts` relates two lists of lines. C86 gives the anonymized value, C51's layout gives its lines, and each kind of line is cut into pieces; the pieces' secrets, in order, are the secrets of the session. |
| C124 | C94 bounds what is kept by the text; here what is written is bounded by what is kept, value by value (Lemmas/PrintLength). For floats: digits stop when the next float is further away than one unit of the last digit, and the exponent is bounded by the format (Lemmas/FloatLength). |
| C125 | Spec/SerialShape walks JSON by paths and says when all objects are proper, without using how values are serialized; one instance of a class per type proves this for every type that can occur, by its members. The depth is proved likewise (Props/SerialDepth). |

## 5. Laws about the outside world

Only these theorems have a hypothesis about `Env`:

* C24_parsed_*, C25_parsed_*, C55_*, C88_*, C89_*, C90_* (except C90_no_bound): `Laws` of `Spec/Plain`. A host name returned by `url::Host::parse` is a word
  without `:` and `/`, is no dotted quad and is returned unchanged when parsed again. This depends on the url crate
  rejecting control characters in domains (url >= 2.3 does).
* C86: `MaskHosts`: the host parser takes `fqdn-` and digits as a domain, unchanged.
* C52: the host parser makes no name with a line feed.
* C94: `HostCost`: what a host name is taken to count is at most the characters it was made from (C94_counts needs no law).
* C124: `HostGrowth`: a host name is at most 500 times as long as what it was made from (C124_numbers needs no law).
* C18/C50 (case): what the case mapping does on non-ASCII keywords is left open; see the statements.

The round-trip theorems C24–C27 themselves have no law: their predicate `WF` says of each host name that it is
read back.

## 6. Where the code does not do what one would expect

Found while modelling; each is either proved as a theorem (id given) or visible in the model.

* The fingerprint mask uses only the low byte of the counter, so masks repeat after 256 (C38), and has 8 bytes
  whatever the hash, so a masked fingerprint is not accepted any more (C28).
* `SdpMedia::masked_clone` keeps the connection as it is; `SdpSession::masked_clone` drops media sections and
  warnings; the ufrag extension of candidates and the address of a=rtcp are not masked (C41).
* Host name masks distinguish case although host names are compared without it.
* A printed session may be shorter than the 51 bytes `parse_sdp` demands (C28).
* An fmtp whose parameters are all defaults prints as nothing; a section with only such attributes prints `a=`
  (C28). Unknown fmtp parameters are joined with `,` and come back as one (C28). Retransmission
  parameters suppress all others. A redundancy list of one element cannot be parsed back.
* msid-semantic without ids comes back with the id `*` (C28).
* rid: an unknown parameter named `pt` in first place, an empty `depends` among others and white space before `;` do not come back.
* simulcast: empty alternatives vanish, an id with `=` makes the printed form unparsable; only the first
  simulcast attribute of a section is checked against the rids (C08).
* imageattr: `sar=[1.0]` is silently ignored; an unbalanced bracket swallows the second direction; several
  brackets in one piece count once, and what follows the last balanced token is dropped (C67).
* rid: `pt=` after the first parameter is kept as an unknown parameter (C66); it is printed first if nothing else is
  printed before it, and then read as the format list, so this value is not read back (C88).
* The address type of o= and c= lines is put into upper case twice (C68).
* Fingerprint bytes such as `+A` are accepted (as everywhere, `u8::from_str_radix` takes a sign).
* Additional tokens are silently dropped in msid, rtpmap, remote-candidates, simulcast, rtcp and o= lines.
* An unsupported m= line becomes a warning and the attributes after it go to the previous section (C14, C44).
* A non-ASCII character whose case mapping is ASCII (such as the Kelvin sign) is accepted in keywords.
* The brace counter of imageattr overflows only with 2^31 tokens (C02).
* An `a=fmtp` without a space is unsupported, a bad rtcp-fb trr-int parameter is an error while other unknown
  parameters are unsupported, a bad port before an unknown protocol is an error (C44).
* A negative NaN (`sar=-nan`) is written `NaN` and loses its sign; the text is stable from then on (`Plain`).
* `q=nan` and NaN bounds are accepted in imageattr, so parsed values need not be equal to themselves (C96).
* In JSON an infinite `q` of imageattr, and an infinite `sar` bound, look like missing values (C72). Different
  internal errors with the same text look the same (C73).
* `file_parser --expect-failure` ends with code 0 on *any* panic after the flag was read, so also if the parser
  itself panicked (C75).
* `add_media` makes a section without formats and `remove_codecs` leaves one; the text of such a session is not
  accepted by `parse_sdp` (C85).
* `add_datachannel` on a DTLS/SCTP section stores the port as a number, while the parser stores it as a word (C85).
* The port mask counts up without limit, so the 65536th different port gets a mask no parser accepts (C86).
* A simulcast list `send rid=rid=rid=x` loses one `rid=` each time it is parsed and printed (C90). Other texts that change
  more than once: `rid:1 send max-width=0;pt=096` becomes `pt=096` and then `pt=96`. `simulcast:send ; recv ;` prints as
  `send  recv `, which is read as the send list `recv`.
* The library takes less than the RFCs allow in the places of `C106_deviations`: hash functions only in lower case, no
  `inactive` in extmap, no bare `ack` and no upper case in rtcp-fb, only integers in ptime, no ssrc-group without ids, no rid
  parameter without a value. The rid parameter of RFC 8851 is `depend`; the library looks for `depends` and keeps `depend`
  as an unknown parameter (C106). Of several remote candidates only the first is kept (C106).
* Lines of RFC 8866 that are errors: i=, u=, e=, p=, k=, r= and z= lines (a description with one of them is rejected as a whole, it
  is not only a warning), audio and video formats 1, 2, 19 and 64 to 95. In `c=IN IP6 FF15::101/3` the 3, a number of addresses, is
  read as a time to live and so is limited to 255 (C107).
* The example in section 5 of RFC 8866 is rejected, because of its i=, u=, e= and p= lines. A valid description can be as short as 49
  bytes, but anything under 51 bytes is rejected (C108).
* What is written is not always a description of RFC 8866: the RFC requires c=, b=, t= in this order in the session part and
  c= before b= in a section, while `Display` writes t=, b=, c= and b=, c=. So every session with a connection or bandwidths of
  its own is written in the wrong order (C109 says exactly when), even the example of the RFC.
* Format parameters are only understood directly after a semicolon: in `maxplaybackrate=48000; stereo=1`, as RFC 7587 writes it,
  the second one has no effect. `rtx-time` before `apt` is rejected, although RFC 4588 gives no order (C110).
* Telephone events above 100 (RFC 4733 has them up to 255) are silently replaced by `0-15` (C110).
* `imageattr`: RFC 6236 allows the same direction twice, more than one space, ranges that do not increase and any letter case;
  all of these are rejected, except for keys in upper case, which are ignored (C110).
* **What is written may leave the RFCs** (C111): `ssrc:1 cname: ` is written as `ssrc:1 cname:`, which RFC 5576 does not allow;
  `q=1.0` and `sar=1.0` of `imageattr` are written as `q=1` and `sar=1`, which RFC 6236 does not allow; `fmtp:96 stereo=0` is
  written as an attribute without name and value (`a=`); unknown format parameters are written with commas between them, so
  they are a single parameter afterwards.
* **fmtp with spaces** (C111_fmtp_space): `fmtp:96 x=1; stereo=1`, as commonly written, is read without `stereo` (see C110_space) and written as `fmtp:96 x=1, stereo=1`: the text of one parameter now contains the other. Without spaces every `fmtp` of the RFCs is written by the RFCs again or left out altogether (all values are defaults).
* If nothing is written for any attribute of a part (format parameters that are all at their defaults), a line `a=` without an attribute is written, which RFC 8866 does not allow and which the library itself does not read (`C112_empty_line`).
* **Anonymized descriptions with ICE credentials or fingerprints are not descriptions of the RFCs** (C115_credentials): the masks `ice-user-00000001` and `ice-password-00000001` contain `-`, which is not an `ice-char` (the second also has 21 characters where RFC 8839 asks for at least 22), and a masked fingerprint has 8 bytes for every hash function.
* **Masking can add a line or drop a value, of values no text denotes** (C123_odd): nothing is written for an empty `ice-pwd` or `ice-ufrag`, but its mask is written; the value of an ssrc without attribute is dropped. Parsed sessions have neither.
* In JSON the attribute `remote-candidates` is tagged `RemoteCandidate`, the only attribute whose tag does not have the
  letters of its SDP name (C125).
