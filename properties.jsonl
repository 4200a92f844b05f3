{"id": "C01", "title": "parse_sdp never panics", "statement": "parse_sdp(sdp, flag) returns Ok or Err and never panics, for every UTF-8 string of fewer than 2^31 bytes. For longer strings the imageattr brace counter, an i32, can overflow, and that is the only way to panic: if parse_sdp panics, some line of the text is an a=imageattr with at least 2^31 opening or more than 2^31 closing brackets, and that line panics on its own whatever the others are.", "quantifier": "every string, both values of fail_on_warning, every behaviour of the host and case-mapping routines", "why_tests_cant": "The input space is all strings; fuzzing samples it. The absence of an out-of-range index, failed unwrap or arithmetic overflow must hold on every path.", "anchors": ["src/lib.rs:parse_sdp", "src/lib.rs:parse_sdp_line", "src/attribute_type.rs:parse_attribute"]}
{"id": "C02", "title": "Panic freedom of the other entry points", "statement": "parse_sdp_line, SdpAttribute::from_str, Address::from_str, ExplicitlyTypedAddress::try_from, parse_media and parse_session_vector never panic (strings < 2^31 bytes). parse_media_vector panics exactly when it is given no lines.", "quantifier": "every string / every list of lines / every session", "why_tests_cant": "Same as C01; also pins down exactly the precondition of parse_media_vector.", "anchors": ["src/lib.rs:parse_sdp_line", "src/media_type.rs:parse_media_vector", "src/attribute_type.rs:SdpAttribute::from_str"]}
{"id": "C03", "title": "Accepted sessions have version 0 and a timing line", "statement": "If parse_sdp returns a session then its version is 0 and its timing is present.", "quantifier": "every string and flag", "why_tests_cant": "Universal over inputs: a single accepted text without t= would break it.", "anchors": ["src/lib.rs:sanity_check_sdp_session", "src/lib.rs:parse_version"]}
{"id": "C04", "title": "Connection coverage", "statement": "If parse_sdp returns a session then it has a session-level connection or every media section has its own connection.", "quantifier": "every string and flag", "why_tests_cant": "Universal over inputs and over the number and order of media sections.", "anchors": ["src/lib.rs:sanity_check_sdp_session"]}
{"id": "C05", "title": "Extmap is not on both levels", "statement": "If parse_sdp returns a session, then it does not have an extmap attribute at session level together with an extmap attribute in any media section.", "quantifier": "every string and flag, any number of sections", "why_tests_cant": "Universal over inputs and section counts.", "anchors": ["src/lib.rs:sanity_check_sdp_session"]}
{"id": "C06", "title": "rtcp-mux-only implies rtcp-mux", "statement": "In every media section of a session returned by parse_sdp, if there is an rtcp-mux-only attribute there is also an rtcp-mux attribute.", "quantifier": "every string and flag, every media section", "why_tests_cant": "Universal over inputs.", "anchors": ["src/lib.rs:sanity_check_sdp_session"]}
{"id": "C07", "title": "Rid formats are declared", "statement": "In every media section of a session returned by parse_sdp, every payload type listed in every a=rid is one of the formats of the m= line.", "quantifier": "every string and flag, every media section, every rid, every listed format", "why_tests_cant": "Universal over inputs and list lengths.", "anchors": ["src/lib.rs:sanity_check_sdp_session", "src/attribute_type.rs:parse_rid"]}
{"id": "C08", "title": "Simulcast ids are defined by rids of the same direction", "statement": "In every media section of a session returned by parse_sdp, every id of the first a=simulcast's send (recv) list is the id of an a=rid with direction send (recv) in that section; further a=simulcast attributes of the section are not checked, so the claim is guaranteed for every a=simulcast only of sections with one of them.", "quantifier": "every string and flag, every media section, every id", "why_tests_cant": "Universal over inputs; the dropped second attribute is invisible to tests with one attribute.", "anchors": ["src/lib.rs:sanity_check_sdp_session", "src/attribute_type.rs:parse_simulcast"]}
{"id": "C09", "title": "Attributes sit at an allowed level", "statement": "In a session returned by parse_sdp every session-level attribute is allowed at session level and every media attribute is allowed at media level; in particular no media section contains dtls-message, group, ice-lite, ice-pacing, identity or msid-semantic, although a dtls-message line there is accepted and dropped.", "quantifier": "every string and flag, every attribute", "why_tests_cant": "Universal over inputs.", "anchors": ["src/lib.rs:SdpSession::add_attribute", "src/media_type.rs:SdpMedia::add_attribute", "src/media_type.rs:parse_media_vector"]}
{"id": "C10", "title": "Media sections mirror the lines", "statement": "For a list of parsed lines starting with an m= line, parse_media_vector succeeds exactly when no section has two c= lines, an attribute not allowed at media level (dtls-message excepted) or a v/o/s/t line; the result then has one section per m= line, in order, and each section holds exactly that m= line, the c= line, the b= lines and the a= lines (without dtls-message) up to the next m= line, in order.", "quantifier": "every list of lines of any length", "why_tests_cant": "Order and completeness must hold for any number and interleaving of lines.", "anchors": ["src/media_type.rs:parse_media_vector"]}
{"id": "C11", "title": "Session part mirrors the lines", "statement": "parse_session_vector on a list of lines succeeds exactly when all are a/b/t/c lines whose attributes are allowed at session level; then attributes and bandwidths are appended in order, the last t= and the last c= line win, and nothing else changes.", "quantifier": "every session and every list of lines", "why_tests_cant": "Order and last-wins behaviour for any history of lines.", "anchors": ["src/lib.rs:SdpSession::parse_session_vector"]}
{"id": "C12", "title": "Mandatory first lines", "statement": "If parse_sdp returns a session then the text has at least four non-blank supported lines, the first three of which are v=, o=, s= in this order, and version, origin and (trimmed, None if blank) session name are theirs.", "quantifier": "every string and flag", "why_tests_cant": "Universal over inputs.", "anchors": ["src/lib.rs:parse_sdp_vector", "src/lib.rs:SdpSession::new"]}
{"id": "C13", "title": "fail_on_warning", "statement": "parse_sdp(s,true) succeeds exactly when parse_sdp(s,false) succeeds with no warnings, and then both return the same session. If some line is unsupported, parse_sdp(s,true) returns the error of the first unsupported line even when other lines have errors; otherwise, if a line has an error, both return the error of the last such line.", "quantifier": "every string of 51 to 2147483647 bytes", "why_tests_cant": "Relates two runs on the same arbitrary input.", "anchors": ["src/lib.rs:parse_sdp"]}
{"id": "C14", "title": "Warnings are exactly the unsupported lines", "statement": "If parse_sdp returns a session, its warnings are, in order, exactly the Unsupported errors of the non-blank lines that parse_sdp_line rejects as unsupported, each with its 0-based line number in the text and the full text of that line.", "quantifier": "every string, flag false", "why_tests_cant": "Completeness, order and numbering for any number of lines.", "anchors": ["src/lib.rs:parse_sdp", "src/lib.rs:parse_sdp_line"]}
{"id": "C15", "title": "Error location", "statement": "Every Line or Unsupported error returned by parse_sdp for a text of at least 51 bytes carries a line number n and a text such that line n of the input is that text and parse_sdp_line(text, n) returns exactly that error; a Sequence error carries 0, 1, 2 or the number of a non-blank line of the input.", "quantifier": "every string and flag", "why_tests_cant": "Universal over inputs, including blank lines that shift numbering.", "anchors": ["src/lib.rs:parse_sdp", "src/lib.rs:parse_sdp_vector", "src/media_type.rs:parse_media_vector"]}
{"id": "C16", "title": "Unsupported lines do not contribute content", "statement": "Parsing with flag false gives, apart from warnings (and line numbers in errors), the same session as parsing the text with every unsupported line removed. Consequently an unsupported m= line is dropped and the lines after it are attributed to the previous section.", "quantifier": "every list of lines, every subset of unsupported lines", "why_tests_cant": "Relates two runs over arbitrary inputs.", "anchors": ["src/lib.rs:parse_sdp"]}
{"id": "C17", "title": "Line endings and blank lines do not matter", "statement": "A text whose lines end in LF, CRLF or a mixture, with any number of blank lines in between, gives the same session (up to the line numbers in warnings) as the text with LF endings and no blank lines.", "quantifier": "every list of lines, every choice of terminators and blank lines, texts of at least 51 bytes", "why_tests_cant": "Combinatorial in the number of lines.", "anchors": ["src/lib.rs:parse_sdp"]}
{"id": "C18", "title": "Keyword case does not matter", "statement": "Changing the ASCII case of the type character of a line, or of the attribute name in an a= line, or of one of the keywords that are matched case-insensitively (IN, IP4, IP6, the bandwidth types AS, CT and TIAS, the kind and protocol of an m= line, the words of a=setup, the semantics of a=group and a=ssrc-group, webrtc-datachannel, the direction of an extmap, transport, typ, type, known extension names and tcptype of a candidate, known fmtp parameter names), does not change the parsed value.", "quantifier": "every line and every ASCII re-casing of the keyword", "why_tests_cant": "2^n casings per keyword and arbitrary rest of the line.", "anchors": ["src/lib.rs:parse_sdp_line", "src/attribute_type.rs:SdpAttribute::from_str", "src/network.rs:parse_network_type", "src/address.rs:AddressType::from_str"]}
{"id": "C19", "title": "Attribute dispatch", "statement": "If SdpAttribute::from_str(l) returns an attribute then the printed name of its SdpAttributeType equals the lower-cased text of l before the first ':'; and every name outside the 43 known ones is rejected as Unsupported.", "quantifier": "every string", "why_tests_cant": "All strings; a swapped arm of the 43-way dispatch affects only one name.", "anchors": ["src/attribute_type.rs:SdpAttribute::from_str", "src/attribute_type.rs:SdpAttributeType"]}
{"id": "C20", "title": "Flags take no value, value attributes need one", "statement": "A flag attribute (bundle-only, end-of-candidates, extmap-allow-mixed, ice-lite, ice-mismatch, inactive, recvonly, rtcp-mux, rtcp-mux-only, rtcp-rsize, sendonly, sendrecv) followed by ':' is rejected, and every other attribute without a value or with a blank value is rejected.", "quantifier": "every string", "why_tests_cant": "Universal over values.", "anchors": ["src/attribute_type.rs:SdpAttribute::from_str", "src/attribute_type.rs:string_or_empty"]}
{"id": "C21", "title": "Numeric ranges of accepted attributes", "statement": "In every attribute or m= line accepted by the parser: candidate, remote-candidates, sctp-port and m= ports are at most 65535, candidate rport is at most 65535, rtpmap payload type is at most 127, ice-pacing is below 10^10, framerate is finite and non-zero, fmtp parameters are in their documented ranges, RED encodings are at most 128, audio/video format numbers are not 1, 2, 19, 64-95 or above 127.", "quantifier": "every string", "why_tests_cant": "Boundaries must hold on all inputs including odd numerals such as '+5' or '0005'.", "anchors": ["src/attribute_type.rs:parse_candidate", "src/attribute_type.rs:parse_rtpmap", "src/attribute_type.rs:parse_fmtp", "src/media_type.rs:parse_media"]}
{"id": "C22", "title": "Fingerprint length", "statement": "Every accepted a=fingerprint has exactly the number of bytes of its hash algorithm (20, 28, 32, 48, 64), and try_from((alg, bytes)) succeeds exactly when the length matches.", "quantifier": "every string, every byte vector", "why_tests_cant": "Universal over lengths.", "anchors": ["src/attribute_type.rs:parse_fingerprint", "src/attribute_type.rs:SdpAttributeFingerprint::try_from"]}
{"id": "C23", "title": "Integer text", "statement": "For N in 8, 16, 32, 64, printing a uN in decimal and parsing it back gives the number; parsing accepts exactly an optional '+' followed by one or more ASCII digits whose value is below 2^N, and returns that value. The error of any other text says that it is empty, or that the digits it begins with make a number that is too big, or else that there is a wrong character.", "quantifier": "every number, every string", "why_tests_cant": "2^64 values and all strings; overflow boundary in the middle of the digits.", "anchors": ["src/lib.rs:parse_timing", "src/attribute_type.rs:parse_candidate"]}
{"id": "C24", "title": "Attribute round trip", "statement": "For every well-formed attribute value (well-formedness is an explicit predicate satisfied by what the parser returns, minus the listed exceptions) parsing its printed form returns the same attribute.", "quantifier": "every well-formed attribute of each of the 43 kinds", "why_tests_cant": "Infinite domains of strings, lists and numbers.", "anchors": ["src/attribute_type.rs:SdpAttribute::from_str", "src/attribute_type.rs:fmt::Display for SdpAttribute"]}
{"id": "C25", "title": "Line round trip", "statement": "For v=, o=, s=, t=, c=, b= and m= lines: parsing the printed form of a well-formed value returns the value.", "quantifier": "every well-formed origin, connection, bandwidth, timing, media line", "why_tests_cant": "Infinite domains.", "anchors": ["src/lib.rs:parse_sdp_line", "src/media_type.rs:parse_media"]}
{"id": "C26", "title": "Session round trip", "statement": "For every well-formed session whose text has at least 51 bytes (every one with a media section has), parse_sdp(session.to_string(), flag) returns the session with the same version, origin, name, connection, bandwidth, timing, attributes and media, and no warnings.", "quantifier": "every well-formed session with any number of attributes and media sections", "why_tests_cant": "Infinite domain; the composition of all printers and parsers.", "anchors": ["src/lib.rs:parse_sdp", "src/lib.rs:fmt::Display for SdpSession", "src/media_type.rs:fmt::Display for SdpMedia"]}
{"id": "C27", "title": "Serialization is a fixed point", "statement": "If parsing the printed form of a session succeeds with a session equal to it, printing again gives the same text; for well-formed sessions parse-then-print is the identity on printed texts.", "quantifier": "every well-formed session", "why_tests_cant": "Follows from C26 for all sessions.", "anchors": ["src/lib.rs:parse_sdp", "src/lib.rs:fmt::Display for SdpSession"]}
{"id": "C28", "title": "Where the round trip fails", "statement": "There are accepted texts whose parsed value does not survive print and re-parse: fmtp with only default parameters prints nothing, two unknown fmtp tokens are merged, msid-semantic without ids gains '*', a short session prints fewer than 51 bytes, a masked fingerprint does not re-parse.", "quantifier": "existence (negation witnesses of the unrestricted C24/C26)", "why_tests_cant": "Tests assert the cases that work; this pins the boundary of the well-formedness predicates.", "anchors": ["src/attribute_type.rs:fmt::Display for SdpAttributeFmtp", "src/lib.rs:parse_sdp"]}
{"id": "C29", "title": "SdpMedia::set_attribute leaves exactly one", "statement": "After set_attribute(a) succeeds, the section has exactly one attribute of a's type, namely a, it is last, and the other attributes are unchanged and in order; it fails exactly when a is not allowed at media level, and then attributes of a's type have been removed.", "quantifier": "every media section, every attribute", "why_tests_cant": "Arbitrary previous contents.", "anchors": ["src/media_type.rs:SdpMedia::set_attribute"]}
{"id": "C30", "title": "Attribute store behaves like a list of typed entries", "statement": "After any sequence of add_attribute, set_attribute, remove_attribute, get_attribute(t) returns the first attribute of type t in get_attributes, get_attributes_of_type(t) all of them in order, and remove_attribute(t) makes both empty without touching other types.", "quantifier": "every section and every operation history", "why_tests_cant": "Unbounded histories.", "anchors": ["src/media_type.rs:SdpMedia::get_attribute", "src/media_type.rs:SdpMedia::remove_attribute", "src/media_type.rs:SdpMedia::get_attributes_of_type"]}
{"id": "C31", "title": "remove_codecs", "statement": "remove_codecs empties the format list keeping its kind, removes every rtpmap, fmtp, rtcp-fb, sctpmap and sctp-port attribute, keeps all others in order, and leaves port, protocol, connection and bandwidth unchanged.", "quantifier": "every media section", "why_tests_cant": "Arbitrary contents.", "anchors": ["src/media_type.rs:SdpMedia::remove_codecs"]}
{"id": "C32", "title": "Codec list stays consistent under add_codec", "statement": "add_codec never fails, appends the payload type to the formats and the rtpmap to the attributes. Over any history of add_codec and remove_codecs (from a section without codecs) the i-th format is the payload type of the i-th rtpmap.", "quantifier": "every operation history", "why_tests_cant": "Unbounded histories.", "anchors": ["src/media_type.rs:SdpMedia::add_codec", "src/media_type.rs:SdpMedia::remove_codecs"]}
{"id": "C33", "title": "add_datachannel", "statement": "add_datachannel never fails; afterwards the type is application, there is exactly one format, exactly one sctp-port (for UDP/DTLS/SCTP and TCP/DTLS/SCTP) or sctpmap attribute with the given values, exactly one max-message-size if msg_size is positive, and the others are unchanged.", "quantifier": "every media section and every argument", "why_tests_cant": "Arbitrary previous contents and all argument values.", "anchors": ["src/media_type.rs:SdpMedia::add_datachannel"]}
{"id": "C34", "title": "SdpSession::add_media", "statement": "add_media fails exactly when the direction attribute is not allowed at media level, and then changes nothing; otherwise it appends exactly one section with the given type, port, protocol, connection and that single attribute.", "quantifier": "every session and argument", "why_tests_cant": "Arbitrary sessions and all attributes.", "anchors": ["src/lib.rs:SdpSession::add_media"]}
{"id": "C35", "title": "Level discipline over any API history", "statement": "Starting from a new section (session) and applying any sequence of API mutators, successful or failed, every attribute is allowed at media (session) level.", "quantifier": "every operation history", "why_tests_cant": "Unbounded histories including failed operations.", "anchors": ["src/media_type.rs:SdpMedia", "src/lib.rs:SdpSession"]}
{"id": "C36", "title": "Anonymizer stability", "statement": "Within one anonymizer, a value masked at any time is masked to the same result at any later time, whatever is masked in between.", "quantifier": "every reachable anonymizer state, every history of mask calls of all kinds", "why_tests_cant": "Unbounded histories.", "anchors": ["src/anonymizer.rs:StatefulSdpAnonymizer"]}
{"id": "C37", "title": "Anonymizer injectivity", "statement": "Within one anonymizer, two different host names, users, passwords, cnames, ports or IP addresses never get the same mask (for fewer than 2^64 strings resp. while the counters have not wrapped; ports and IPv4 addresses cannot wrap).", "quantifier": "every history of mask calls", "why_tests_cant": "Unbounded histories and counter wrap-around.", "anchors": ["src/anonymizer.rs:AnonymizationStrMap::mask", "src/anonymizer.rs:StatefulSdpAnonymizer::mask_ip", "src/anonymizer.rs:StatefulSdpAnonymizer::mask_port"]}
{"id": "C38", "title": "Fingerprint masks collide", "statement": "Masked fingerprints always have 8 bytes of which the first seven are zero; the 1st and the 257th distinct fingerprint get the same mask. Different masks are guaranteed only for 256 fingerprints that were first seen one after the other.", "quantifier": "every history; existence of a collision", "why_tests_cant": "A collision needs 257 distinct fingerprints.", "anchors": ["src/anonymizer.rs:ToBytesVec for u64", "src/anonymizer.rs:StatefulSdpAnonymizer::mask_cert_finger_print"]}
{"id": "C39", "title": "Masks do not depend on the secret", "statement": "The sequence of masks returned for a sequence of values depends only on which of the values are equal (and on the address family), not on the values themselves.", "quantifier": "every pair of sequences with the same equality pattern", "why_tests_cant": "A relation between two unbounded runs (non-interference).", "anchors": ["src/anonymizer.rs:StatefulSdpAnonymizer"]}
{"id": "C40", "title": "Masking preserves shape", "statement": "Masking keeps IPv4 addresses IPv4, IPv6 IPv6 and host names host names, keeps the declared address type, the attribute type and level permission of every attribute, and the number and order of attributes.", "quantifier": "every value and anonymizer state", "why_tests_cant": "Arbitrary states.", "anchors": ["src/anonymizer.rs:StatefulSdpAnonymizer::mask_address", "src/attribute_type.rs:SdpAttribute::masked_clone"]}
{"id": "C41", "title": "What masked_clone of a session and of a media section keeps", "statement": "masked_clone of a session keeps version, name, timing, bandwidth, masks origin user and address, the connection address and every attribute in order, and drops media and warnings; masked_clone of a media section masks its attributes but keeps its connection address unmasked.", "quantifier": "every session / media section and anonymizer state", "why_tests_cant": "Arbitrary contents; the unmasked connection is a privacy leak no test asserts.", "anchors": ["src/lib.rs:SdpSession::masked_clone", "src/media_type.rs:SdpMedia::masked_clone"]}
{"id": "C42", "title": "Address equality", "statement": "Equality of Address and ExplicitlyTypedAddress is reflexive, symmetric and transitive; domains compare case-insensitively, addresses by value, and a domain never equals an address.", "quantifier": "all addresses", "why_tests_cant": "Relational laws over all pairs and triples.", "anchors": ["src/address.rs:PartialEq for Address", "src/address.rs:PartialEq for ExplicitlyTypedAddress"]}
{"id": "C43", "title": "Declared address type is the address's type", "statement": "In every accepted origin, connection and rtcp, a literal IP address has the family that was declared (IP4/IP6), for a domain the declared type is kept; a literal of the other family is rejected.", "quantifier": "every string", "why_tests_cant": "Universal over inputs.", "anchors": ["src/address.rs:ExplicitlyTypedAddress::try_from", "src/lib.rs:parse_origin", "src/lib.rs:parse_connection"]}
{"id": "C44", "title": "When a line is unsupported", "statement": "parse_sdp_line returns an Unsupported error exactly for a= and m= lines: unknown attribute name, unknown group / ssrc-group semantics, unknown hash algorithm, unknown rtcp-fb type or parameter, fmtp without parameters, dangling candidate extension, unknown media type or protocol. All other failures are Line errors carrying the line.", "quantifier": "every string", "why_tests_cant": "Classification decides between warning and hard failure for every input.", "anchors": ["src/lib.rs:parse_sdp_line"]}
{"id": "C45", "title": "DTMF tones are normalised", "statement": "For a telephone-event fmtp (no '=' and no '/'), the stored tone list is the given text when every comma-separated item is a number at most 100 or a strictly ascending range of such numbers, and '0-15' otherwise; parsing never fails for this reason.", "quantifier": "every string", "why_tests_cant": "All strings; early exit of the loop.", "anchors": ["src/attribute_type.rs:parse_fmtp"]}
{"id": "C46", "title": "rtx-time needs apt", "statement": "In an accepted fmtp, if a rtx-time parameter occurs then an apt parameter occurs before it; the stored rtx apt is the last apt and the rtx-time the last one after it.", "quantifier": "every parameter list", "why_tests_cant": "Order-sensitive over unbounded lists.", "anchors": ["src/attribute_type.rs:parse_fmtp"]}
{"id": "C47", "title": "IP address text", "statement": "Printing an IPv4 or IPv6 address and parsing it back gives the same address; an address attribute never confuses a printed IPv6 address with a host name.", "quantifier": "all 2^32 IPv4 and all 2^128 IPv6 addresses", "why_tests_cant": "2^128 addresses, zero-run compression.", "anchors": ["src/address.rs:Address::from_str", "src/address.rs:fmt::Display for Address"]}
{"id": "C48", "title": "Direction order does not matter in simulcast and imageattr", "statement": "'send A recv B' and 'recv B send A' parse to the same simulcast (imageattr) value, and two lists of the same direction are rejected.", "quantifier": "all lists A and B", "why_tests_cant": "Universal over lists.", "anchors": ["src/attribute_type.rs:parse_simulcast", "src/attribute_type.rs:parse_image_attr"]}
{"id": "C49", "title": "Candidate extensions", "statement": "In an accepted candidate, unknown extension pairs are kept in order, known extensions may appear in any order and at any position among them, the last occurrence of a known extension wins, and an odd number of extension tokens is reported as unsupported.", "quantifier": "every token list", "why_tests_cant": "Permutations of unbounded lists.", "anchors": ["src/attribute_type.rs:parse_candidate"]}
{"id": "C50", "title": "Whitespace tolerance", "statement": "Leading and trailing whitespace around the value of a line other than s=, around the type character, and around an attribute value does not change the parsed value; the recorded line text is unchanged input.", "quantifier": "every line, every amount of whitespace", "why_tests_cant": "Unbounded padding with any Unicode whitespace.", "anchors": ["src/lib.rs:parse_sdp_line", "src/attribute_type.rs:parse_attribute"]}
{"id": "C51", "title": "Printed texts are line-safe", "statement": "Every printed session consists of lines each terminated by CRLF, the first three being v=, o=, s=; if no string field contains CR or LF then no line contains an inner CR or LF, so the number of lines is exactly the number of present fields.", "quantifier": "every session with line-safe strings", "why_tests_cant": "Universal over values; injection through fields.", "anchors": ["src/lib.rs:fmt::Display for SdpSession", "src/media_type.rs:fmt::Display for SdpMedia"]}
{"id": "C52", "title": "Parsed values are line-safe", "statement": "No string inside a session returned by parse_sdp (attribute values, user name, session name, bandwidth type, formats) contains a line feed.", "quantifier": "every string", "why_tests_cant": "Universal over inputs; precondition of C51 for re-serialization.", "anchors": ["src/lib.rs:parse_sdp"]}
{"id": "C53", "title": "Error rendering", "statement": "The rendered parse error contains the line number and, for line and unsupported errors, the exact text of the line and the rendered inner error.", "quantifier": "every error value", "why_tests_cant": "Universal over values.", "anchors": ["src/error.rs:fmt::Display for SdpParserError"]}
{"id": "C54", "title": "fmtp parameters", "statement": "A parameter list of an a=fmtp line is accepted exactly when every parameter has the form and range its (case-insensitive) name demands; then each field holds the value of the last parameter with that name, or its default when there is none, and unknown parameters are kept in order. A list of payload types separated by '/' is kept as the redundancy list; a line without a space is unsupported.", "quantifier": "every parameter list, every parameter name and value", "why_tests_cant": "Unbounded lists; interaction of repetition, case and order.", "anchors": ["src/attribute_type.rs:parse_fmtp"]}
{"id": "C55", "title": "What was parsed survives printing", "statement": "For every text parse_sdp accepts: unless an attribute is one of the listed exceptions (fmtp, rid, simulcast, msid-semantic and imageattr values that use corners of the syntax the printer loses), printing the session and parsing the printed text gives the same session without warnings, provided the printed text has at least 51 bytes (it always has with a media section). So printing is a normal form of the accepted texts.", "quantifier": "every accepted text, whatever its case, spacing, line ends, order of lines and repetition", "why_tests_cant": "Universal over texts; the composition of every parser and every printer.", "anchors": ["src/lib.rs:parse_sdp", "src/lib.rs:fmt::Display for SdpSession", "src/attribute_type.rs:SdpAttribute::from_str"]}
{"id": "C56", "title": "Simple attributes: exact syntax and meaning", "statement": "ice-pwd, ice-ufrag, identity, label, mid, maxptime, ptime, max-message-size, ice-pacing, sctp-port, setup, framerate and ice-options: an attribute text is parsed to a given value if and only if it is the attribute name (in any case), a colon and, after removing outer white space, a text denoting that value (non-empty text; decimal number in range; keyword in any case; finite non-zero number; one or more words).", "quantifier": "every text and every value (an equivalence: also says what is rejected)", "why_tests_cant": "The accepted texts are an infinite set; a table of examples cannot show that nothing else is accepted or that no text gets another meaning.", "anchors": ["src/attribute_type.rs:parse_attribute", "src/attribute_type.rs:parse_setup", "src/attribute_type.rs:parse_ice_options", "src/attribute_type.rs:parse_ice_pacing"]}
{"id": "C57", "title": "rtpmap: exact syntax and meaning", "statement": "An rtpmap attribute is accepted with payload type p, codec c, frequency f and channels n if and only if its first word is a number p <= 127 and its second word is c/f or c/f/n[/...]; further words are ignored.", "quantifier": "every text and every value (an equivalence: also says what is rejected)", "why_tests_cant": "The accepted texts are an infinite set; a table of examples cannot show that nothing else is accepted or that no text gets another meaning.", "anchors": ["src/attribute_type.rs:parse_rtpmap"]}
{"id": "C58", "title": "ssrc and ssrc-group: exact syntax and meaning", "statement": "ssrc is accepted exactly in the forms id, id attribute, id attribute:value (split at the first space and the first colon after it); ssrc-group exactly as a known semantics followed by at least one id, all kept in order.", "quantifier": "every text and every value (an equivalence: also says what is rejected)", "why_tests_cant": "The accepted texts are an infinite set; a table of examples cannot show that nothing else is accepted or that no text gets another meaning.", "anchors": ["src/attribute_type.rs:parse_ssrc", "src/attribute_type.rs:parse_ssrc_group"]}
{"id": "C59", "title": "group, msid and msid-semantic: exact syntax and meaning", "statement": "group is a known semantics in any case and its tags in order; msid is an id with optional application data, further words ignored; msid-semantic is a semantic with its ids in order.", "quantifier": "every text and every value (an equivalence: also says what is rejected)", "why_tests_cant": "The accepted texts are an infinite set; a table of examples cannot show that nothing else is accepted or that no text gets another meaning.", "anchors": ["src/attribute_type.rs:parse_group", "src/attribute_type.rs:parse_msid", "src/attribute_type.rs:parse_msid_semantic"]}
{"id": "C60", "title": "extmap: exact syntax and meaning", "statement": "extmap is accepted exactly as id[/direction] url [attributes], the attributes joined with single spaces and without NUL.", "quantifier": "every text and every value (an equivalence: also says what is rejected)", "why_tests_cant": "The accepted texts are an infinite set; a table of examples cannot show that nothing else is accepted or that no text gets another meaning.", "anchors": ["src/attribute_type.rs:parse_extmap"]}
{"id": "C61", "title": "fingerprint: exact syntax and meaning", "statement": "fingerprint is accepted exactly as the lower-case name of a known hash function and as many two-character hexadecimal fields, with colons between them, as that function has bytes; the bytes are kept in order.", "quantifier": "every text and every value (an equivalence: also says what is rejected)", "why_tests_cant": "The accepted texts are an infinite set; a table of examples cannot show that nothing else is accepted or that no text gets another meaning.", "anchors": ["src/attribute_type.rs:parse_fingerprint"]}
{"id": "C62", "title": "rtcp and remote-candidates: exact syntax and meaning", "statement": "rtcp is a 16-bit port alone or followed by IN, address type and an address of that type; remote-candidates is component, address, port <= 65535; further words are ignored.", "quantifier": "every text and every value (an equivalence: also says what is rejected)", "why_tests_cant": "The accepted texts are an infinite set; a table of examples cannot show that nothing else is accepted or that no text gets another meaning.", "anchors": ["src/attribute_type.rs:parse_rtcp", "src/attribute_type.rs:parse_remote_candidates"]}
{"id": "C63", "title": "rtcp-fb: exact syntax and meaning", "statement": "rtcp-fb is accepted exactly as payload type (or *), a known feedback type and, where the type demands or allows it, one of the parameters of that type and an arbitrary rest, with exactly one space between them.", "quantifier": "every text and every value (an equivalence: also says what is rejected)", "why_tests_cant": "The accepted texts are an infinite set; a table of examples cannot show that nothing else is accepted or that no text gets another meaning.", "anchors": ["src/attribute_type.rs:parse_rtcp_fb"]}
{"id": "C64", "title": "sctpmap and dtls-message: exact syntax and meaning", "statement": "sctpmap is port, webrtc-datachannel (any case), channels and nothing more; dtls-message is client or server, one space and a text without spaces.", "quantifier": "every text and every value (an equivalence: also says what is rejected)", "why_tests_cant": "The accepted texts are an infinite set; a table of examples cannot show that nothing else is accepted or that no text gets another meaning.", "anchors": ["src/attribute_type.rs:parse_sctp_map", "src/attribute_type.rs:SdpAttributeDtlsMessage"]}
{"id": "C65", "title": "simulcast: exact syntax and meaning", "statement": "simulcast is accepted exactly as one or two different directions each with a list of streams (semicolons) of alternatives (commas), a tilde meaning paused, an optional rid= before a list; each list goes to its direction and keeps its order.", "quantifier": "every text and every value (an equivalence: also says what is rejected)", "why_tests_cant": "The accepted texts are an infinite set; a table of examples cannot show that nothing else is accepted or that no text gets another meaning.", "anchors": ["src/attribute_type.rs:parse_simulcast"]}
{"id": "C66", "title": "rid: exact syntax and meaning", "statement": "rid is accepted exactly as id, direction and optional parameters; a first parameter pt= is the list of formats; of repeated numeric parameters the last counts, absent ones are 0; depends lists are put together; other name=value parameters are kept in order.", "quantifier": "every text and every value (an equivalence: also says what is rejected)", "why_tests_cant": "The accepted texts are an infinite set; a table of examples cannot show that nothing else is accepted or that no text gets another meaning.", "anchors": ["src/attribute_type.rs:parse_rid"]}
{"id": "C67", "title": "imageattr: exact syntax and meaning", "statement": "For texts under 2^31 characters, imageattr is accepted exactly as payload type, direction and sets (or *) for one or two different directions; each set is [x=..,y=..,keys] with the ranges, lists and numbers of the documentation; of repeated keys the last counts. The division into tokens at separators outside of brackets is specified independently.", "quantifier": "every text and every value (an equivalence: also says what is rejected)", "why_tests_cant": "The accepted texts are an infinite set; a table of examples cannot show that nothing else is accepted or that no text gets another meaning.", "anchors": ["src/attribute_type.rs:parse_image_attr", "src/attribute_type.rs:parse_image_attr_set", "src/attribute_type.rs:parse_image_attr_tokens"]}
{"id": "C68", "title": "v=, o=, s=, c=, b= and t= lines: exact syntax and meaning", "statement": "Each of these lines is parsed to a given value if and only if it is the letter (any case, white space around it), an equals sign and a text denoting that value: version 0; six words of an origin; the raw text of the session name; network type, address type and address with optional ttl and amount; type:number; two numbers.", "quantifier": "every text and every value (an equivalence: also says what is rejected)", "why_tests_cant": "The accepted texts are an infinite set; a table of examples cannot show that nothing else is accepted or that no text gets another meaning.", "anchors": ["src/lib.rs:parse_version", "src/lib.rs:parse_origin", "src/lib.rs:parse_session", "src/lib.rs:parse_connection", "src/lib.rs:parse_bandwidth", "src/lib.rs:parse_timing"]}
{"id": "C69", "title": "m= lines: exact syntax and meaning", "statement": "An m= line is accepted exactly as a known media type, port <= 65535 with optional count, a known protocol and at least one format, where audio and video formats are payload type numbers outside of the reserved ranges (1, 2, 19, 64-95 and above 127) and application formats are kept as texts.", "quantifier": "every text and every value (an equivalence: also says what is rejected)", "why_tests_cant": "The accepted texts are an infinite set; a table of examples cannot show that nothing else is accepted or that no text gets another meaning.", "anchors": ["src/media_type.rs:parse_media", "src/media_type.rs:parse_media_token", "src/media_type.rs:parse_protocol_token"]}
{"id": "C70", "title": "Line syntax", "statement": "A line is accepted only if it is one letter out of a b c m o s t v (any case, white space around it), an equals sign and a value; it keeps its text and line number. An a= line has exactly the attribute its value, without outer white space, is parsed to.", "quantifier": "every text and every value (an equivalence: also says what is rejected)", "why_tests_cant": "The accepted texts are an infinite set; a table of examples cannot show that nothing else is accepted or that no text gets another meaning.", "anchors": ["src/lib.rs:parse_sdp_line"]}
{"id": "C71", "title": "Addresses: exact syntax and meaning", "statement": "An IP address is accepted exactly as a dotted quad without leading zeros, or as eight groups of up to four hexadecimal digits of which the last two may be a dotted quad and of which one or more zero groups may be replaced by ::; an address otherwise is what the host parser says; with a declared type the address has that type.", "quantifier": "every text and every value (an equivalence: also says what is rejected)", "why_tests_cant": "The accepted texts are an infinite set; a table of examples cannot show that nothing else is accepted or that no text gets another meaning.", "anchors": ["src/address.rs:Address::from_str", "src/address.rs:ExplicitlyTypedAddress::try_from"]}
{"id": "C72", "title": "JSON of values is faithful", "statement": "With the serialize feature, two attributes, media sections or sessions have the same JSON if and only if they are equal (warnings: look the same), provided all floats are finite. Without that condition, they have the same JSON if and only if they are equal but for floats that are infinite or NaN: these all look alike, and in place of q of an image attribute as if it were missing.", "quantifier": "all attributes, sections and sessions, with all lists of any length", "why_tests_cant": "Injectivity over an infinite set of nested values cannot be tested.", "anchors": ["src/lib.rs:SdpSession", "src/media_type.rs:SdpMedia", "src/attribute_type.rs:SdpAttribute"]}
{"id": "C73", "title": "JSON of errors", "statement": "A serialized error has exactly the announced fields, no duplicates: kind, message, the line if there is one, the line number. Two errors have the same JSON exactly if these agree, and then they print the same.", "quantifier": "all errors", "why_tests_cant": "Errors contain arbitrary messages, lines and numbers.", "anchors": ["src/error.rs:Serialize for SdpParserError"]}
{"id": "C74", "title": "Causes of errors", "statement": "Exactly line and unsupported errors and the internal number, host and address errors have a cause; the text of an error contains the text of its cause; the chain of causes has at most two steps. The cause is the error of the line, or of the function that read the number, name or address, and the text of every kind of error is a fixed text around the text of its cause, with the number and text of the line where there is one.", "quantifier": "all errors", "why_tests_cant": "Errors contain arbitrary messages, lines and numbers.", "anchors": ["src/error.rs:SdpParserError::source", "src/error.rs:SdpParserInternalError::source"]}
{"id": "C75", "title": "Exit code of the example program", "statement": "The program ends with 0 exactly if the file without its comment lines is accepted without unsupported lines, or with --expect-failure exactly if it is not; with 1 for wrong usage and unexpected success, with 101 for unreadable files and unexpected failure. Comments, blank lines and line ends do not matter (from 51 bytes on).", "quantifier": "every argument list, every file content", "why_tests_cant": "All files.", "anchors": ["examples/file_parser.rs:main"]}
{"id": "C76", "title": "Constructors give values that survive printing", "statement": "Values made with the constructors for candidates, payload formats, sources and control ports print as exactly the mandatory part of their line, and that line is read back as the same value; addresses made from IP numbers have the type of their family, and what ip_address_to_string gives for an IP number is read in a c= line as that address, with its family.", "quantifier": "all constructor arguments of the documented form", "why_tests_cant": "All arguments.", "anchors": ["src/attribute_type.rs:SdpAttributeCandidate::new", "src/attribute_type.rs:SdpAttributeRtpmap::new", "src/attribute_type.rs:SdpAttributeSsrc::new", "src/attribute_type.rs:SdpAttributeRtcp::new", "src/address.rs:ExplicitlyTypedAddress", "src/network.rs:ip_address_to_string"]}
{"id": "C77", "title": "The grammar of attributes and lines, complete", "statement": "A value part of an a= line is accepted as an attribute exactly if it is a text of that attribute in the grammar; a line is accepted exactly if it denotes that value in the grammar, and keeps its text and number; a line is called unsupported exactly if it is one of the listed unsupported forms (unknown names, and unknown values of some attributes and of m= lines).", "quantifier": "every line, every attribute, every line value (equivalences; lines of under 2^31 characters)", "why_tests_cant": "The accepted texts are an infinite set; the grammar has to say what is rejected too.", "anchors": ["src/lib.rs:parse_sdp_line", "src/attribute_type.rs:SdpAttribute::from_str", "src/attribute_type.rs:parse_candidate", "src/attribute_type.rs:parse_fmtp"]}
{"id": "C78", "title": "Which error a wrong sequence of lines gives", "statement": "parse_sdp gives a sequence error with a message and a number exactly if every non-blank line is right (or unsupported, if that is tolerated) and the sequence of line values has that fault: too few lines, v=, o= or s= not in its place, the first misplaced line with its line number, or the first broken rule of the whole; every sequence has exactly one fault or describes exactly one session.", "quantifier": "every text of under 2^31 bytes, both settings, every message and number (an equivalence)", "why_tests_cant": "Error precedence over all combinations of faults.", "anchors": ["src/lib.rs:parse_sdp", "src/lib.rs:parse_sdp_vector", "src/lib.rs:sanity_check_sdp_session", "src/media_type.rs:parse_media_vector"]}
{"id": "C79", "title": "parse_sdp is the function the grammar describes", "statement": "For every text the outcome is the one the specification gives: too short, the first unsupported line (if unsupported lines are errors), the last wrong line, the fault of the sequence, or the session its lines describe with one warning per unsupported line; and the specification gives only one outcome, up to the causes and messages of line errors.", "quantifier": "every text of under 2^31 bytes, both settings, every outcome", "why_tests_cant": "An independent specification of the whole function, on all inputs.", "anchors": ["src/lib.rs:parse_sdp", "src/lib.rs:parse_sdp_line", "src/lib.rs:parse_sdp_vector"]}
{"id": "C80", "title": "The text that is written is the canonical one", "statement": "Every value has exactly one written text, given by a grammar of its own: numbers in decimal without sign and leading zeros, keywords in their usual letter case, one separator between fields, optional parts in a fixed order and without those that have their default, bytes of fingerprints in upper-case hexadecimal, IPv6 addresses with the first longest run of zeros shortened, lines in the order v o s t b c a m with CR LF. Error messages too have one exact text.", "quantifier": "every session, every attribute, every line value, every address, every error and every text (equivalences)", "why_tests_cant": "The text of every value; letter case, spacing and order are invisible to a parser that accepts them all.", "anchors": ["src/lib.rs:Display for SdpSession", "src/attribute_type.rs:Display for SdpAttribute", "src/media_type.rs:Display for SdpMedia", "src/error.rs:Display for SdpParserError"]}
{"id": "C81", "title": "Canonical texts are reproduced byte for byte", "statement": "If a text is the canonical text of a well-formed session with a media section, it is parsed to that session without errors and warnings, whether or not unsupported lines are errors, and printing the result gives the same text; likewise for attributes.", "quantifier": "every well-formed session, its canonical text, both settings; every well-formed attribute", "why_tests_cant": "All sessions.", "anchors": ["src/lib.rs:parse_sdp", "src/lib.rs:Display for SdpSession", "src/attribute_type.rs:SdpAttribute::from_str"]}
{"id": "C82", "title": "Decimal fractions are read with correct rounding", "statement": "Frame rates (f64) and the ratios and preferences of imageattr (f32) are read from exactly the texts with an optional sign, digits with at most one point and an optional exponent, or inf, infinity, nan in any case. The result is the float nearest to the decimal number, ties to even, however long the text. Every other text is an error, which says 'empty' only for the empty text.", "quantifier": "all texts, both float widths", "why_tests_cant": "There are infinitely many texts, and rounding errors occur at isolated points (half way between floats, at the subnormal and overflow borders).", "anchors": ["src/attribute_type.rs:parse_framerate", "src/attribute_type.rs:parse_image_attr_set", "src/error.rs:SdpParserInternalError::Float"]}
{"id": "C83", "title": "Floats are written as the shortest text that is read back", "statement": "The text written for a float has the fewest digits among all decimals that are read as this float, is the closest of these, has no exponent, and is read back as the same float. Only NaN loses its sign.", "quantifier": "all bit patterns of both widths, all decimals", "why_tests_cant": "2^64 bit patterns, and minimality quantifies over all decimals.", "anchors": ["src/attribute_type.rs:Display for SdpAttribute", "src/attribute_type.rs:Display for SdpAttributeImageAttrSet"]}
{"id": "C84", "title": "Ranges of ratios are compared by value", "statement": "In sar and par ranges and sar lists, a bound is rejected exactly if it is not less than the next one as a number; both zeros are equal; NaN bounds are accepted.", "quantifier": "all texts, all pairs of f32", "why_tests_cant": "2^64 pairs; signs, zeros and NaN behave differently.", "anchors": ["src/attribute_type.rs:parse_image_attr_set"]}
{"id": "C85", "title": "A session built through the API is read back unless it is inconsistent or has a section without fitting formats", "statement": "Start from a new session with version 0 and call the mutators of the session and of its sections in any order, successfully or not, with arguments that are right one by one. If the text has at least 51 bytes, parse_sdp gives back this very session exactly if the session-wide rules hold (C03-C09) and every section has at least one format of the kind its type demands. A section without formats, as add_media makes it and as remove_codecs leaves it, makes the text unreadable. A data channel of the old kind is read back with another value of the same text.", "quantifier": "every finite history of API calls with right arguments, both settings of parse_sdp", "why_tests_cant": "Histories are unbounded, and right arguments could combine to a wrong text.", "anchors": ["src/lib.rs:SdpSession::new", "src/lib.rs:SdpSession::add_media", "src/lib.rs:SdpSession::extend_media", "src/media_type.rs:SdpMedia::add_codec", "src/media_type.rs:SdpMedia::remove_codecs", "src/media_type.rs:SdpMedia::add_datachannel", "src/lib.rs:parse_sdp"]}
{"id": "C86", "title": "Anonymized sessions can be read again, unless they have fingerprints or too many ports", "statement": "Clone a well-formed session and then its media sections with one anonymizer that may have been used before. Every secret is replaced by its mask, the same mask in all places, and nothing else changes. If at most 65535 different ports were masked, the text of the result is accepted exactly if the session has no fingerprint, and then it is read as that very result. A masked fingerprint is always an error of its line, and a masked candidate can be read exactly if its masked ports fit into 16 bits, which the 65536th different port does not.", "quantifier": "every well-formed session, every history of the anonymizer, every attribute, both settings of parse_sdp", "why_tests_cant": "Masks depend on the whole history of the anonymizer, and the failures need tens of thousands of ports.", "anchors": ["src/lib.rs:SdpSession::masked_clone", "src/media_type.rs:SdpMedia::masked_clone", "src/attribute_type.rs:SdpAttribute::masked_clone", "src/anonymizer.rs:StatefulSdpAnonymizer"]}
{"id": "C87", "title": "The vector parsers stop at the first wrong line and leave the rest", "statement": "For every session and every vector of lines, parse_session_vector either takes over all lines, returns Ok and leaves the vector empty, or takes over exactly the lines before the first one that a session must not hold, returns a Sequence error with that line's number and the message for it, and leaves exactly the lines after it in the vector. A caller that goes on calling after every error ends with an empty vector and a session that took over exactly the good lines, in order. parse_media_vector panics on an empty vector, rejects a vector that does not start with an m= line, and otherwise either returns all sections and leaves the vector empty, or returns a Sequence error for the first line that cannot be added to the section it stands in, and leaves the lines after it.", "quantifier": "all sessions, all vectors of lines, any number of calls", "why_tests_cant": "The first wrong line can stand anywhere, after any history of lines that decides whether it is wrong.", "anchors": ["src/lib.rs:SdpSession::parse_session_vector", "src/media_type.rs:parse_media_vector"]}
{"id": "C88", "title": "Exactly the well-formed values survive printing and parsing", "statement": "An attribute is read back from its printed form (alone or as an a= line) exactly if it is well-formed, which is a condition on its fields alone. A session is read back from its printed form, with whatever warnings, exactly if it is well-formed and the text has at least 51 bytes; there are no warnings then, and the flag that turns warnings into errors does not matter. Of what was parsed exactly the attributes in which the printer loses nothing (five attributes have such corners) are read back, and exactly the sessions with only such attributes.", "quantifier": "all attributes, all sessions, all texts, both settings of parse_sdp; host names that the host parser does not change", "why_tests_cant": "That everything outside the condition fails is a claim about infinitely many broken values, in which two errors could cancel.", "anchors": ["src/attribute_type.rs:SdpAttribute::from_str", "src/attribute_type.rs:SdpAttribute (Display)", "src/lib.rs:parse_sdp", "src/lib.rs:SdpSession (Display)"]}
{"id": "C89", "title": "A parsed session that is edited through the API is read back unless a rule is broken", "statement": "Parse a text, edit the session by any calls of the mutators of the session and its sections, successfully or not, with arguments that are right one by one, and print it. If the attributes of the parsed session print without loss and the text has at least 51 bytes, parse_sdp gives back the edited session, without warnings, exactly if the session-wide rules hold (C03-C09) and the formats of each section fit its type. Calls that add no section, keep the formats, add no rtcp-mux-only, rid, simulcast or extmap and remove no rtcp-mux, rid or simulcast never break a rule, so after any number of them the text is always accepted.", "quantifier": "every accepted text, every finite history of API calls with right arguments, both settings of parse_sdp", "why_tests_cant": "Texts and histories are unbounded, and rules span attributes of different sections.", "anchors": ["src/lib.rs:SdpSession::add_attribute", "src/lib.rs:SdpSession::set_connection", "src/media_type.rs:SdpMedia::set_attribute", "src/media_type.rs:SdpMedia::remove_attribute", "src/media_type.rs:SdpMedia::add_codec", "src/lib.rs:parse_sdp"]}
{"id": "C90", "title": "Parsing and printing again and again comes to an end", "statement": "A session that was parsed, printed and parsed again differs only in its attributes: each becomes what its own text is read as, of the same type and with the same text or a shorter one, or is lost. So each round of parsing and printing leaves the text as it is or makes it shorter, or rejects it, and after at most as many rounds as the first printed text has characters nothing changes any more; the text then is that of a session that is read back without loss. Attributes other than rid and simulcast do not change after the first round. No fixed number of rounds is enough for all: for every n there is a simulcast attribute that changes n times.", "quantifier": "every accepted text, every number of rounds, both settings of parse_sdp", "why_tests_cant": "Texts and the number of rounds are unbounded; termination of the iteration is a property of all of them.", "anchors": ["src/lib.rs:parse_sdp", "src/lib.rs:SdpSession", "src/attribute_type.rs:SdpAttribute", "src/attribute_type.rs:parse_rid", "src/attribute_type.rs:parse_simulcast", "src/attribute_type.rs:parse_fmtp"]}
{"id": "C91", "title": "Media sections do not depend on each other", "statement": "Let a text consist of a session part and blocks that each begin with a supported m= line. It is accepted if and only if, for each block, the text made of the session part and that block alone is accepted. The session then has the sections of the blocks one after the other, and everything else is as in each of the single texts. So rearranging blocks rearranges sections, and leaving some (not all) out leaves their sections out, and neither changes acceptance or anything else but warnings.", "quantifier": "every session part, every list of blocks, every text with these lines, both settings of parse_sdp", "why_tests_cant": "The number and size of blocks is unbounded, and independence is about all pairs of blocks.", "anchors": ["src/lib.rs:parse_sdp", "src/lib.rs:parse_sdp_vector", "src/lib.rs:sanity_check_sdp_session", "src/media_type.rs:parse_media_vector"]}
{"id": "C92", "title": "The order of lines inside a section matters only for c=, t= and simulcast", "statement": "If neighbouring lines of a text, none of them a v=, o=, s= or m= line, are put into another order in which the c= lines, t= lines and simulcast attributes among them keep theirs, then parse_sdp accepts the new text as it did the old one, and the session differs in nothing but the order of bandwidths and attributes (and the warnings). The exceptions are needed: of several simulcast attributes only the first is checked, and of several c= or t= lines of the session part the last one counts.", "quantifier": "every accepted text and every such permutation of any stretch of its lines, both settings of parse_sdp", "why_tests_cant": "There are unboundedly many texts and permutations.", "anchors": ["src/lib.rs:parse_sdp", "src/lib.rs:SdpSession::parse_session_vector", "src/lib.rs:sanity_check_sdp_session", "src/media_type.rs:parse_media_vector"]}
{"id": "C93", "title": "What a session and its sections hold after any history of calls", "statement": "After any sequence of mutator calls, successful or failed: a section's attributes are those it had and those that were given to it and are allowed at media level, in this order, without those of whose type a later call removed all (remove_attribute, set_attribute, remove_codecs, add_datachannel); its port and connection are those set last, its bandwidths those it had and then those added, its protocol never changes, its type becomes application with the first data channel, and its formats are those left by the last call that replaced them followed by the payload types of the codecs added since. A session keeps version, origin, name and warnings; connection and timing are those given last, by a call or by a line of a vector; bandwidths, allowed attributes and sections are appended in order, and get_attribute finds the first of its type. So for a session or section made by its constructor the getters give the arguments of the constructor and of the calls, and for any session or section they give what its text says.", "quantifier": "all sessions and sections, all finite histories of calls", "why_tests_cant": "Statement about all histories, of any length; the position of each attribute depends on the whole rest of the history.", "anchors": ["src/media_type.rs:SdpMedia::set_attribute", "src/media_type.rs:SdpMedia::remove_codecs", "src/media_type.rs:SdpMedia::add_datachannel", "src/lib.rs:SdpSession::add_media", "src/lib.rs:SdpSession::parse_session_vector"]}
{"id": "C94", "title": "A session is not bigger than the text it was read from", "statement": "Count the characters of all texts a session keeps, plus one for each text and for each entry of a list (attributes, bandwidths, sections, formats, numbers in lists, lines quoted by warnings), at any depth. If parse_sdp accepts a text, its session counts at most the number of characters of the text: no input makes the parser keep more than a fixed amount per character. A host name may count anything up to the characters it was made from, since the host parser may make it longer. An attribute read from text counts at most two more than its text has characters.", "quantifier": "every text, both settings of parse_sdp", "why_tests_cant": "A bound on memory is a statement about all inputs of all sizes; tests sample it.", "anchors": ["src/lib.rs:parse_sdp", "src/attribute_type.rs:SdpAttribute::from_str", "src/attribute_type.rs:parse_image_attr", "src/attribute_type.rs:parse_fmtp", "src/media_type.rs:parse_media"]}
{"id": "C95", "title": "Exactly which error a rejected line or text gives", "statement": "For each kind of line and each attribute there is a fixed list of faults, in a fixed order, each with its error: the kind (a number, address, float or other error, or unsupported) and the message. SdpAttribute::from_str fails exactly if the attribute has one of them, and then with the error of the first one it has. A line fails exactly if it lacks '=', has a wrong type or an empty value, or its value has a fault, and the error carries that cause, the line and its number; it is an Unsupported error exactly if the fault says so. So the result of parse_sdp is determined completely by the text, including the cause of every error and every warning: too short, the first unsupported line (if these are errors), else the last wrong line, else the fault of the sequence, else the session with one warning for each unsupported line.", "quantifier": "every attribute and line of less than 2^31 characters, every text of less than 2^31 bytes, both settings of parse_sdp", "why_tests_cant": "Inputs with several faults, in any combination and at any place of lists of any length, must give the error of the first; tests try single faults.", "anchors": ["src/lib.rs:parse_sdp", "src/lib.rs:parse_sdp_line", "src/attribute_type.rs:SdpAttribute::from_str", "src/attribute_type.rs:parse_candidate", "src/attribute_type.rs:parse_fmtp", "src/attribute_type.rs:parse_image_attr", "src/media_type.rs:parse_media"]}
{"id": "C96", "title": "Equality of image attributes", "statement": "Two image attribute set lists are equal (==) exactly if they have the same sizes and the same numbers in the same places; two floats are the same number exactly if they are no NaN and are identical or both zero. So equality is symmetric and transitive, equal values differ at most in the signs of zeros, and a value is equal to itself, and to what is read from its own text, exactly if there is no NaN in it. The parser accepts texts whose values are not equal to themselves, and equal values can have different texts.", "quantifier": "all image attribute values, all floats of 32 bits", "why_tests_cant": "Equality of floats is not reflexive; whether this shows in the values of the API depends on all values, among them the bit patterns nobody writes down.", "anchors": ["src/attribute_type.rs:SdpAttributeImageAttrSetList", "src/attribute_type.rs:SdpAttributeImageAttrSet", "src/attribute_type.rs:SdpAttributeImageAttrSRange", "src/attribute_type.rs:SdpAttributeImageAttrPRange", "src/attribute_type.rs:SdpAttributeImageAttrXyRange"]}
{"id": "C97", "title": "Adding and removing one line", "statement": "Take an accepted description and add one a= or b= line between its s= line and its first m= line, or after an m= line; or remove such a line. A b= line can always be added or removed. An a= line can be added to the session exactly if its attribute is allowed there and, should it be an extmap, no section has one; it can always be removed. It can be added to a section exactly if its attribute is allowed there, an extmap meets none in the session, an rtcp-mux-only meets an rtcp-mux, the formats of a rid are those of the m= line, and a simulcast is not the first or is defined by the rids. It can be removed from a section unless it is the rtcp-mux of an rtcp-mux-only, or a rid or simulcast whose absence leaves the first simulcast undefined. In each case the new result is the old one with that one entry more or less in that place (a dtls-message in a section leaves no entry), up to the warnings.", "quantifier": "all accepted texts, all attributes and bandwidths, all places for the line, either mode, every behaviour of the host name parser", "why_tests_cant": "A test adds one line to one description; whether a line that is fine here is fine everywhere depends on all the other lines of the text.", "anchors": ["src/lib.rs:parse_sdp", "src/lib.rs:parse_sdp_vector", "src/lib.rs:sanity_check_sdp_session", "src/media_type.rs:parse_media_vector"]}
{"id": "C98", "title": "Which c= and t= lines count, and which are needed", "statement": "Take a description and add or remove one c= or t= line. Between the s= line and the first m= line such a line can always be added; the session then has that connection or timing, unless a later line of the same kind comes before the first m= line. A t= line can be removed from there exactly if there is another; a c= line exactly if there is another or every section has its own; what then counts is the last one left. A c= line can be added to a section exactly if the section has none, and removed from it exactly if the session has one. Nothing else of the result changes, up to the warnings. No accepted description has a t= line after an m= line, or another v=, o= or s= line after its s= line.", "quantifier": "all texts, all c= and t= lines, all places for the line, either mode, every behaviour of the host name parser", "why_tests_cant": "Whether a line is needed depends on all the other lines of the text and on all sections, of which there may be any number.", "anchors": ["src/lib.rs:parse_sdp", "src/lib.rs:parse_sdp_vector", "src/lib.rs:sanity_check_sdp_session", "src/media_type.rs:parse_media_vector"]}
{"id": "C99", "title": "One anonymizer for any sequence of masked calls and clones", "statement": "However calls of the anonymizer and masked clones of candidates, fingerprints, sources, attributes, connections, origins, media sections and sessions follow each other on one anonymizer, each result is the thing given, apart from its secrets, each of which is replaced by a mask that depends only on its kind and on how many different secrets of the kind came first before it, anywhere in the sequence. So the same thing always has the same result. Different things have different results as long as no kind has more different secrets than masks (2^8 for fingerprints, 2^32 for ports and IPv4 addresses, 2^64 for names and passwords, 2^128 for IPv6 addresses). And replacing the secrets one-to-one by others of their kinds changes no result. What a clone drops: the sections and warnings of a session, and the value of a source without attribute.", "quantifier": "all finite sequences of mask calls and masked clones of arbitrary values on a new anonymizer", "why_tests_cant": "The state of the anonymizer is the whole history, and the claims compare results of any two moments of it.", "anchors": ["src/anonymizer.rs:StatefulSdpAnonymizer", "src/anonymizer.rs:AnonymizingClone", "src/attribute_type.rs:masked_clone", "src/media_type.rs:masked_clone", "src/lib.rs:masked_clone"]}
{"id": "C100", "title": "Only what the lines say counts, and everything they say", "statement": "Two lines say the same if both have the same value (for a session name up to the white space around it), or both are blank, both unsupported, or both wrong. Replacing lines of a text by lines that say the same never changes the outcome: it is the same session with warnings for the same lines, or an error of the same kind with the same line number (and the same message, if it is about the sequence of lines). Conversely, for any two lines that do not say the same there are lines to put before and after them such that the outcomes differ. So lines can be exchanged freely exactly if they say the same.", "quantifier": "all pairs of texts whose lines say the same one by one; all pairs of lines that do not, whatever the reason", "why_tests_cant": "The first part compares all pairs of texts; the second must find surroundings for any two different lines, in which neither the rules of the session nor those of the section hide the difference.", "anchors": ["src/lib.rs:parse_sdp", "src/lib.rs:parse_sdp_line", "src/lib.rs:parse_sdp_vector", "src/lib.rs:sanity_check_sdp_session", "src/media_type.rs:parse_media_vector"]}
{"id": "C101", "title": "Descriptions that are cut off", "statement": "Cut an accepted text off after any of its lines. In front of the first m= line, what is left is accepted exactly if it has 51 bytes and a t= line, and gives the values of the lines that are left and no section. After an m= line, what is left is accepted exactly if the session or each section left has a connection, and the last section still has the rtcp-mux its rtcp-mux-only needs and the rids its first simulcast names; then the session level and the sections before are those of the whole text, and the last section has the values of its lines that are left. So a cut text never gives a value the whole text does not give, and its attributes, bandwidths, warnings and sections are the first ones of the whole text. A text cut off inside a line can give another value.", "quantifier": "all accepted texts, all places between two lines, and both settings of the warning flag", "why_tests_cant": "A transfer can end anywhere, and what is checked at the end of the text looks back at all lines.", "anchors": ["src/lib.rs:parse_sdp", "src/lib.rs:parse_sdp_vector", "src/media_type.rs:parse_media_vector", "src/lib.rs:sanity_check_sdp_session"]}
{"id": "C102", "title": "Only host names and letters outside ASCII are left to other libraries", "statement": "What parse_sdp returns (session, warnings and errors with their messages) depends on the host parser of the url crate only through its answers for the words of the text that stand where an address is expected (o=, c=, the address and raddr of a candidate, rtcp, remote-candidates) and are not IP addresses, and on the Unicode tables only if the text has a character outside ASCII. So an ASCII text with IP addresses only is parsed to the same with every version of these libraries. With a host name or another character the result can differ.", "quantifier": "all texts, both settings of the warning flag, and all pairs of host parsers and Unicode tables", "why_tests_cant": "A test runs with one version of the url crate and of the standard library.", "anchors": ["src/lib.rs:parse_sdp", "src/address.rs:Address::from_str", "src/attribute_type.rs:SdpAttribute::from_str", "src/network.rs:parse_network_type"]}
{"id": "C103", "title": "Words quoted in error messages can be read back", "statement": "Where an error message quotes a word of the text with {:?} (an unknown kind of group or source group, an unknown feedback type or parameter, an unknown description of a list of streams), an ASCII word stands between quotation marks as the body of a string literal for it, without unprintable characters and with no more characters than such a literal needs. A word without control characters, quotation marks and backslashes stands there as it is, and different words give different messages.", "quantifier": "all ASCII words", "why_tests_cant": "Control characters, quotation marks and backslashes can stand anywhere in a word.", "anchors": ["src/attribute_type.rs:parse_group", "src/attribute_type.rs:parse_ssrc_group", "src/attribute_type.rs:parse_rtcp_fb", "src/attribute_type.rs:parse_simulcast_version_list"]}
{"id": "C104", "title": "Lengths are counted in UTF-8 bytes", "statement": "A text is accepted only if its UTF-8 encoding has at least 51 bytes, however many characters these are, and there are texts of 51 bytes and 50 characters that are accepted. The type of a line is one byte, so a line whose type is a character outside of ASCII is wrong whatever follows. White space is what Unicode says: 25 characters. ASCII letters change case as usual and no other character does.", "quantifier": "all strings and all characters", "why_tests_cant": "Tests use short ASCII texts, where bytes and characters are the same.", "anchors": ["src/lib.rs:parse_sdp", "src/lib.rs:parse_sdp_line"]}
{"id": "C105", "title": "Anonymizing what is anonymized changes nothing", "statement": "Masking with a new anonymizer what another one has masked, in the same order, gives the same masks again: a description, a media section, an attribute or a whole history of things that has been anonymized is not changed by anonymizing it again, however many secrets it has. The anonymizer that made the masks takes them for new secrets and gives them other masks; in another order they are numbered anew.", "quantifier": "all histories of things masked with one anonymizer, of any length and with any number of secrets, also more than there are masks", "why_tests_cant": "Tests mask a value once; the claim is about the order of first use in arbitrary histories and about what happens when masks repeat.", "anchors": ["src/anonymizer.rs:StatefulSdpAnonymizer", "src/lib.rs:SdpSession::masked_clone", "src/attribute_type.rs:SdpAttribute::masked_clone"]}
{"id": "C106", "title": "Attributes that follow the standards are accepted", "statement": "Every value that the grammar of its RFC allows is accepted: candidate, remote-candidates, ice-ufrag, ice-pwd, ice-options and ice-pacing (RFC 8839, 6544), fingerprint (8122), mid and group (5888), ssrc and ssrc-group (5576), msid (8830), label (4574), rtpmap, ptime and maxptime (8866), extmap (8285), rtcp-fb (4585, 5104), rtcp (3605), setup (4145), sctp-port and max-message-size (8841), rid (8851) and simulcast (8853), apart from the exceptions that are listed beside the rules and are shown to be rejected, such as upper-case hash functions, fractional packet times, the extmap direction inactive and rid parameters without a value. A rid has the id, the direction and the formats of the text, and the streams of a simulcast are those of its lists. The dependencies of a rid are under another name than in RFC 8851 and only the first remote candidate is kept.", "quantifier": "all texts of the grammars, of any length, with any numbers up to the limit of the field, any letter case where the RFC allows it and any white space in byte strings", "why_tests_cant": "The RFC grammars have infinitely many texts; tests are a few typical lines written by the authors of the parser.", "anchors": ["src/attribute_type.rs:SdpAttribute::from_str", "src/attribute_type.rs:parse_candidate", "src/attribute_type.rs:parse_rid", "src/attribute_type.rs:parse_simulcast", "src/attribute_type.rs:parse_fingerprint", "src/attribute_type.rs:parse_rtcp_fb", "src/attribute_type.rs:parse_extmap", "src/attribute_type.rs:parse_ssrc"]}
{"id": "C107", "title": "Lines that follow RFC 8866 are accepted", "statement": "A line is accepted, as a line of its kind, if it follows the grammar RFC 8866 gives for v=, o=, s=, c=, b=, t= and m= lines, and an a= line with an attribute of C106 or one of those without a value is accepted as the attribute its name says. An a= line with any other attribute the grammar allows is unsupported, so it is only warned about. What RFC 8866 allows beyond that is listed beside the rules and shown to be rejected: i=, u=, e=, p=, k=, r= and z= lines are errors, and so are some payload types and numbers of addresses; the number of IPv6 addresses is taken for a time to live.", "quantifier": "all lines of the grammars, of any length, with any line number and with any numbers up to the limit of the field", "why_tests_cant": "The grammar of RFC 8866 has infinitely many lines; tests are a few typical ones.", "anchors": ["src/lib.rs:parse_sdp_line", "src/lib.rs:parse_origin", "src/lib.rs:parse_connection", "src/lib.rs:parse_bandwidth", "src/lib.rs:parse_timing", "src/media_type.rs:parse_media", "src/attribute_type.rs:SdpAttribute::from_str"]}
{"id": "C108", "title": "Descriptions that follow RFC 8866 are accepted", "statement": "A description in the order of RFC 8866 whose lines follow their grammars (C107), of at least 51 bytes, is accepted if its lines are in their places: a c= line for the session or for every section, attributes at the level they belong to, extmap at one level only, rtcp-mux-only together with rtcp-mux, the formats of a rid among the formats of the m= line, and the streams of a simulcast defined by rids of the same direction. The session has the media sections of the text, a connection and bandwidths where the text has c= and b= lines, and there is a warning for exactly the attributes the library does not know; without such attributes it is accepted with fail_on_warning too. Lines of the grammar in any order give a session or a sequence error, never a line error. Each of the places is needed, and so is the length: a valid description of 49 bytes is rejected. The example of RFC 8866 itself is rejected because of its i=, u=, e= and p= lines.", "quantifier": "all descriptions with any number of lines and sections, with any values of the grammars and any attributes that are not known; all lists of lines of the grammar", "why_tests_cant": "The descriptions that conform to RFC 8866 are infinitely many; tests are a few.", "anchors": ["src/lib.rs:parse_sdp", "src/lib.rs:parse_sdp_vector", "src/lib.rs:parse_sdp_line", "src/lib.rs:sanity_check_sdp_session", "src/media_type.rs:parse_media_vector"]}
{"id": "C109", "title": "When the lines that are written are in the order of RFC 8866", "statement": "RFC 8866 says that lines MUST be in a fixed order. What is written for a session (with no line feeds in its strings) is in that order exactly if the session has a timing, no connection and no bandwidths of its own, and no section with both a connection and bandwidths: in the session part t= is written before b= and c=, in a section b= before c=. For what parse_sdp returns only the last three count. So a description that follows RFC 8866 is written back in the order of RFC 8866 exactly if it has no c= and b= lines for the session and no section with both.", "quantifier": "all sessions without line feeds in their strings, with any number of lines and sections; all texts that are accepted; all descriptions that follow RFC 8866", "why_tests_cant": "It is a statement about all combinations of fields that are present and absent in a session and all its sections, in both directions.", "anchors": ["src/lib.rs:SdpSession", "src/lib.rs:parse_sdp", "src/media_type.rs:SdpMedia"]}
{"id": "C110", "title": "The remaining attributes of the standards are accepted", "statement": "A value of fmtp that follows RFC 8866 with the parameters of RFC 6184, 7741, 7587, 4588, 2198 and 4733, a framerate of RFC 8866, an imageattr of RFC 6236, an identity of RFC 8827, and msid-semantic, sctpmap and dtls-message as in their drafts are accepted and give a value of that kind. The limits of the library are part of the rules, and each is shown by texts of the RFC that are rejected or not understood: rtx-time before apt, a space after a semicolon, telephone events above 100, numbers beyond a double, the same direction twice, ranges that do not increase, upper case.", "quantifier": "all texts that follow the rules, with any number of parameters, sets, keys and values", "why_tests_cant": "The rules describe infinitely many texts, and two grammars (the one of the RFC and the one of the parser) have to be compared.", "anchors": ["src/attribute_type.rs:SdpAttribute", "src/attribute_type.rs:parse_fmtp", "src/attribute_type.rs:parse_image_attr"]}
{"id": "C111", "title": "What is written for attributes that follow the standards follows them too", "statement": "If the value of candidate, extmap, fingerprint, group, ice-options, ice-pacing, ice-pwd, ice-ufrag, identity, label, max-message-size, maxptime, mid, msid, msid-semantic, dtls-message, ptime, remote-candidates, rid, rtcp, rtcp-fb, rtpmap, sctpmap, sctp-port, setup, simulcast, ssrc or ssrc-group follows the rule of its RFC, the line is accepted and what is written for it has the same name and a value that follows the same rule. A frame rate that was read is always written as a number of RFC 8866. An image attribute is written by the rule of RFC 6236, where only the decimals that are whole numbers lose their point, and every decimal keeps its value. Format parameters without spaces are written by the same rule, or not at all. Where this fails it is shown: an ssrc value of white space only, image attributes with whole decimals, format parameters at their defaults or with a space after a semicolon.", "quantifier": "all texts that follow the rules; for host names, all host parsers that give back host names", "why_tests_cant": "The rules describe infinitely many texts, and the writer has to be compared with the grammar for each of them.", "anchors": ["src/attribute_type.rs:SdpAttribute", "src/attribute_type.rs:SdpAttributeCandidate", "src/attribute_type.rs:SdpAttributeRid", "src/attribute_type.rs:SdpAttributeExtmap"]}
{"id": "C112", "title": "Descriptions that follow the RFCs are written as lines that follow the RFCs", "statement": "Parse a text whose lines follow RFC 8866 and the RFCs of their attributes, in whatever order, and print the session: every line of the output is a v=, o=, s=, c=, b=, t=, m= or a= line that follows the rule for its letter, and an attribute the rule for its name, with three differences: framerate may have any number of digits, a whole number in imageattr may be without its point, and if nothing is written for any attribute of a part there is an empty a= line. Left out are descriptions with an ssrc attribute whose value is blank and with format parameters that have more than one space (C111 has the counterexamples). In particular this holds for every description in the order of RFC 8866 with its lines in their places, which is accepted. Every single attribute keeps its name.", "quantifier": "all lists of lines that follow the rules, both settings of fail_on_warning, all host parsers whose names are fixed points of it and keep the form of host names", "why_tests_cant": "Concerns every description of a grammar with unbounded repetition; a peer rejects a line that breaks its grammar, and a test shows that only for the descriptions it contains.", "anchors": ["src/lib.rs:parse_sdp", "src/lib.rs:SdpSession", "src/lib.rs:SdpOrigin", "src/lib.rs:SdpConnection", "src/lib.rs:SdpBandwidth", "src/lib.rs:SdpTiming", "src/media_type.rs:SdpMediaLine", "src/media_type.rs:SdpMedia", "src/attribute_type.rs:SdpAttribute", "src/address.rs:ExplicitlyTypedAddress"]}
{"id": "C113", "title": "The IP addresses that are read are exactly those of RFC 3986", "statement": "A text that is an IPv4address or an IPv6address of RFC 3986, section 3.2.2, with all nine forms of the latter, is read as the address it stands for, and where an address type is declared (o=, c=, rtcp) only behind IP4 or IP6 respectively; behind the other type it is refused. No text is both. A text that is neither is not read as an IP address by the crate's own address parsing: what becomes of it is what the host parser says. Every address is written as the RFC says. The rules for addresses used in the statements about RFC 8866 and the other RFCs are these.", "quantifier": "all texts, all addresses, all host parsers", "why_tests_cant": "Which texts are addresses is a claim about every text: the shortened forms of IPv6 with a gap in every place and dotted quads at the end are too many for tests, and so are the texts that must be refused.", "anchors": ["src/address.rs:Address", "src/address.rs:ExplicitlyTypedAddress", "src/address.rs:AddressType"]}
{"id": "C114", "title": "Descriptions built through the API follow RFC 8866", "statement": "Start a session of version 0 with SdpSession::new, make any calls of its public operations and those of its media sections, failed ones included, with arguments that fit the RFCs one by one (addresses and host names, a connection without a number of addresses the RFC has no place for, tokens as names, ports up to 65535, RTP payload types, attributes whose text follows the rule for their name). Then the session, field by field, is a description that follows RFC 8866 exactly if a timing is set and every section has at least one format. In that case the lines of its text are exactly those of the description, none with a NUL, CR or LF, and the text is in the order of RFC 8866 exactly if the session has no bandwidth and no connection of its own and no section has both. Attributes with values within the limits of their RFCs fit, and so do those that are read from texts that follow the rules, except frame rates and image attributes.", "quantifier": "all histories of calls with fitting arguments, all origins and names that fit, all host parsers", "why_tests_cant": "Ranges over all histories of API calls of any length, with arbitrary arguments; a test shows that one offer is well-formed.", "anchors": ["src/lib.rs:SdpSession", "src/lib.rs:add_media", "src/lib.rs:parse_session_vector", "src/media_type.rs:SdpMedia", "src/media_type.rs:add_codec", "src/media_type.rs:add_datachannel", "src/media_type.rs:remove_codecs", "src/media_type.rs:set_attribute", "src/attribute_type.rs:SdpAttribute", "src/address.rs:ExplicitlyTypedAddress"]}
{"id": "C115", "title": "Whether anonymized descriptions follow the RFCs", "statement": "Take a session that follows the RFCs field by field and that is read back from its text, and anonymize it with an anonymizer that has already masked anything, with at most 65535 different ports. The result follows RFC 8866 and the RFCs of its attributes exactly if the session has no ice-ufrag, ice-pwd or fingerprint attribute; in that case the lines of its text are those of the description, and they are in the order of the RFC exactly if those of the original are. Attribute by attribute: what stands for an attribute follows the RFCs exactly if the attribute is none of the three; the masks of these follow no rule at all, whatever the attribute was (user fragments and passwords get a '-', which is not an ice-char, fingerprints get eight bytes).", "quantifier": "all such sessions and attributes, all anonymizers reached by any calls, all host parsers that take the host names of the masks", "why_tests_cant": "Ranges over all sessions and all states of the anonymizer; the project's tests compare single masks with fixed texts and never ask whether they are legal.", "anchors": ["src/lib.rs:masked_clone", "src/anonymizer.rs:StatefulSdpAnonymizer", "src/anonymizer.rs:ToBytesVec", "src/attribute_type.rs:AnonymizingClone", "src/attribute_type.rs:SdpAttributeCandidate"]}
{"id": "C116", "title": "Descriptions of the RFCs that are read, edited and written follow the RFCs", "statement": "Read a text whose lines follow the grammar of RFC 8866 and whose known attributes follow their RFCs and keep their value when they are written (no ssrc with a blank value, no fmtp with more than one space, no framerate or imageattr, none that is written as nothing). The session that results follows the RFCs field by field. Make any calls of the API on it, with arguments that fit their rules, in any order: every field still fits; the session is a description of the RFCs exactly if every section has a format; its text then has exactly the lines of this description, and is its text letter for letter exactly if there is no session-level bandwidth or connection and no section has both. All lines that are written are lines of the RFCs again, so that reading them again succeeds or fails with a sequence error, never with a syntax error or as unsupported.", "quantifier": "all such texts under 2 GiB, all sequences of calls whose arguments fit, all host parsers that take the host names of the RFCs", "why_tests_cant": "Ranges over all legal texts and all histories of calls on what was read from them; a test edits one session and compares one text.", "anchors": ["src/lib.rs:parse_sdp", "src/lib.rs:SdpSession", "src/lib.rs:add_media", "src/media_type.rs:SdpMedia", "src/media_type.rs:add_codec", "src/attribute_type.rs:SdpAttribute"]}
{"id": "C117", "title": "A description is a sequence of calls", "statement": "What parse_sdp returns is what the API gives when it is called line by line: SdpSession::new with the version, origin and name of the first three lines, and then one call for each further line (add_attribute, add_bandwidth, set_connection, set_timing on the session before the first m= line; extend_media with an empty section for an m= line; add_attribute, add_bandwidth, set_connection on the last section after it). A text is accepted exactly if it has 51 bytes, no line is wrong, the first three lines are v=, o=, s=, every call is taken (attributes are allowed at their level, with dtls-message in a section ignored; no second connection for a section; no t=, v=, o=, s= where there is no call) and the session at the end satisfies the rules over whole descriptions. Hence every session that can be parsed can be built through the API with one call per line, and lines appended to an accepted text act on its session as the calls for them.", "quantifier": "all texts, both values of the flag, all lines appended to an accepted text", "why_tests_cant": "Ranges over all texts and relates two ways to obtain a session, the parser and the API, which tests exercise separately.", "anchors": ["src/lib.rs:parse_sdp", "src/lib.rs:parse_sdp_vector", "src/lib.rs:SdpSession", "src/lib.rs:parse_session_vector", "src/lib.rs:extend_media", "src/media_type.rs:parse_media_vector", "src/media_type.rs:SdpMedia"]}
{"id": "C118", "title": "A call changes its own lines of the text only", "statement": "Compare the text of a session before and after a call of the API. A call on a media section leaves all text before and after this section as it is. Inside the section, the m= line changes only by set_port, remove_codecs, add_codec and add_datachannel; add_bandwidth adds a line after the other b= lines; set_connection puts its c= line in the place of the one there was; the a= lines of the types that the call replaces or removes go, the others stay in their order and those the call adds follow them. A call on the session adds one line at the end of its kind, or replaces the timing or connection; an attribute of the wrong level changes nothing; extend_media and add_media append the text of the new sections. This is so if every attribute is written as something, as is every attribute that survives printing; an attribute with an empty value can be hidden by the next one.", "quantifier": "all sessions and sections, all calls with all arguments", "why_tests_cant": "Ranges over all sessions, all calls and their arguments, and says what does not change in the whole text; a test compares the line it expects to change.", "anchors": ["src/lib.rs:SdpSession", "src/lib.rs:add_media", "src/lib.rs:add_attribute", "src/lib.rs:extend_media", "src/media_type.rs:SdpMedia", "src/media_type.rs:set_attribute", "src/media_type.rs:remove_codecs", "src/media_type.rs:add_codec", "src/media_type.rs:add_datachannel"]}
{"id": "C119", "title": "Calls on different things can be made in any order", "statement": "An application may interleave its calls as it likes. Two histories that make the same calls on a session and the same calls on each of its sections, in the same order within each, lead to the same session, however they are mixed (calls on sections being about sections that were there at the start). Within a section the same holds for port, connection, bandwidths and content (codecs, data channels, attributes), and within a session for connection, timing, bandwidths, attributes and sections. The attributes of one type after any history depend only on the calls that remove or add attributes of this type. Whether a call succeeds and which error it gives does not depend on the calls before it.", "quantifier": "all sessions and sections, all pairs of histories of calls of any length that agree part by part", "why_tests_cant": "Ranges over all interleavings of all histories; tests make one sequence of calls.", "anchors": ["src/lib.rs:SdpSession", "src/lib.rs:add_media", "src/lib.rs:extend_media", "src/lib.rs:parse_session_vector", "src/media_type.rs:SdpMedia", "src/media_type.rs:set_attribute", "src/media_type.rs:add_codec", "src/media_type.rs:add_datachannel"]}
{"id": "C120", "title": "Exactly which values can be read", "statement": "A program that inspects a parsed session may rely on the conditions every parsed session satisfies and on no others. These conditions are on the fields alone: version 0, a user name without white space, texts without white space at their ends, numbers within limits, no line feeds, attributes at their level, consistent pairs of attributes, and for each attribute the conditions of its kind. They hold of every parsed attribute and session, and for every attribute or session that meets them there is a text that is parsed to it; its warnings may be any that report unsupported lines in ascending order, or none if warnings are errors. So a statement is true of all parsed sessions exactly if it is true of all sessions that meet them. The values that survive printing are those of them without the listed peculiarities of fmtp, imageattr, msid-semantic, rid and simulcast.", "quantifier": "all attributes, all sessions, both values of the flag, all statements about sessions", "why_tests_cant": "Says what the range of the parser is, over all texts and all values; tests see single texts, and cannot show that a value is out of reach or that every value is in reach.", "anchors": ["src/lib.rs:parse_sdp", "src/attribute_type.rs:SdpAttribute", "src/attribute_type.rs:parse_fmtp", "src/attribute_type.rs:parse_image_attr", "src/attribute_type.rs:parse_rid", "src/attribute_type.rs:parse_simulcast", "src/attribute_type.rs:parse_msid_semantic"]}
{"id": "C121", "title": "Exactly what anonymized data reveals", "statement": "Take two sequences of things (values of the anonymizer's own calls, candidates, fingerprints, sources, attributes, connections, origins, media sections, sessions), each masked with its own new anonymizer, and neither with more different secrets of a kind than there are masks. The results are equal exactly if the second sequence is the first one with its secrets replaced one-to-one by others of their kinds. So the results tell everything that is no secret, the kinds of the secrets and which of them are equal, and nothing else. Without the bound the results of such sequences are still equal. In particular this holds of two sessions. A sequence is the result of an anonymizer exactly if masking it changes nothing, and no two different results stand for the same thing in disguise.", "quantifier": "all pairs of finite sequences of things; both directions", "why_tests_cant": "That nothing else leaks is a statement about all pairs of inputs and all replacements of secrets; a test compares single outputs.", "anchors": ["src/anonymizer.rs:StatefulSdpAnonymizer", "src/anonymizer.rs:AnonymizingClone", "src/lib.rs:SdpSession", "src/attribute_type.rs:SdpAttribute"]}
{"id": "C122", "title": "Which parsed values are written alike", "statement": "Two parsed sessions have the same text exactly if version, origin, name, timing, bandwidths, connection and the m=, b= and c= lines of each section are equal and their attributes have the same texts in the same order, attributes without text (fmtp with defaults only) being skipped unless there is nothing else. Two parsed attributes with the same text are equal, or of the same one of the types fmtp, imageattr, msid-semantic, rid and simulcast with one at least that does not survive printing. msid-semantic values are written alike exactly if they are equal or one has no ids and the other only the id *; imageattr values exactly if they differ only in the signs of NaNs. simulcast values exactly if they differ only in empty alternatives; rid values exactly if they differ only in empty names of streams they depend on, or have no limits and the formats of one stand in the other as a first unknown parameter; fmtp values exactly if what is not written next to retransmission parameters, how commas divide the unknown parameters, or, with defaults only, the payload type is all that differs. So sessions are written alike exactly if this holds one by one of the attributes that have a text. And parsed sessions without such attributes and with the same text are equal but for the warnings, even if the text is too short to be read.", "quantifier": "all pairs of parsed sessions, all pairs of parsed attributes", "why_tests_cant": "Injectivity is about all pairs of values; a test prints single ones.", "anchors": ["src/lib.rs:SdpSession", "src/attribute_type.rs:SdpAttribute", "src/media_type.rs:SdpMedia", "src/attribute_type.rs:SdpAttributeMsidSemantic", "src/attribute_type.rs:SdpAttributeImageAttr"]}
{"id": "C123", "title": "Anonymizing rewrites secrets on the spot and nothing else", "statement": "The text of an anonymized session (the masked clone with masked clones of its media sections, after any earlier use of the anonymizer) is the text of the session, line by line, with each secret replaced by its mask where it stands: no line is added, lost or moved, and what stands before, between and behind secrets is the same. Secrets stand only in these places: user and address of o=, the address of the session's own c=, the values of ice-pwd and ice-ufrag, the bytes of a fingerprint, the value of an ssrc cname, address and port of remote-candidates, and address, port, raddr and rport of a candidate. This holds of every session that was parsed, and of every other one without an empty ice-pwd or ice-ufrag and without an ssrc value that has no attribute; for those three the line changes otherwise (shown). The same holds of a single section.", "quantifier": "all parsed sessions, all sessions and sections without the three odd attributes, all earlier histories of the anonymizer", "why_tests_cant": "A test compares a few lines; that no text anywhere in a line leaks or changes is a statement about all sessions and histories.", "anchors": ["src/lib.rs:SdpSession", "src/media_type.rs:SdpMedia", "src/attribute_type.rs:SdpAttribute", "src/anonymizer.rs:StatefulSdpAnonymizer", "src/lib.rs:SdpOrigin", "src/lib.rs:SdpConnection"]}
{"id": "C124", "title": "What was read is not written much longer", "statement": "If parse_sdp accepts a text, the text of its session (to_string) has at most 500 times as many characters, provided the host parser does not make a name more than 500 times as long as what it was given; likewise for an attribute read by SdpAttribute::from_str, with three characters more allowed. No u64 is written with more than 20 characters, no IP address with more than 39, no f32 with more than 56 and no f64 with more than 344. It can get longer: a frame rate of five characters is written with 309.", "quantifier": "every text, both settings of parse_sdp; every number and address", "why_tests_cant": "A bound on the size of what is written is a statement about all inputs of all sizes; the longest numbers are not found by sampling.", "anchors": ["src/lib.rs:SdpSession", "src/lib.rs:parse_sdp", "src/media_type.rs:SdpMedia", "src/attribute_type.rs:SdpAttribute", "src/attribute_type.rs:SdpAttributeFmtpParameters", "src/attribute_type.rs:SdpAttributeImageAttrSet"]}
{"id": "C125", "title": "Where things are in the JSON", "statement": "With the serialize feature, the JSON of a session has exactly the members version, origin, session, connection, bandwidth, timing, attribute, media and warnings, in this order, and that of a media section media, connection, bandwidth and attribute; the numbers, texts and addresses of the session are found under the names of their fields, and the i-th bandwidth, attribute, section or warning at index i, with null or nothing where a part is missing. An attribute, a kind of media and a protocol are tagged with their SDP names up to case, hyphens and slashes, with one exception: remote-candidates is tagged RemoteCandidate. The fields of the values of attributes are found under their names, and what is named in them (candidate types, setup, hash algorithms, directions, feedback types, group semantics) is tagged with its SDP name or with the name SDP abbreviates. An attribute is a bare tag exactly if what to_string gives is its name alone. At every depth, no object has two members of the same name. However large the session, nothing in its JSON is more than eleven members or entries deep, and eleven is reached. If the session is that of a text parse_sdp accepted, its version is 0, the times are there, and the connection is not null in the session or not null in any section.", "quantifier": "every session, media section, attribute and parser error that can be made, every index", "why_tests_cant": "It ranges over all sessions and all nested values; a test sees the members of the values it was given.", "anchors": ["src/lib.rs:SdpSession", "src/lib.rs:SdpOrigin", "src/lib.rs:SdpConnection", "src/lib.rs:SdpBandwidth", "src/lib.rs:SdpTiming", "src/media_type.rs:SdpMedia", "src/media_type.rs:SdpMediaLine", "src/attribute_type.rs:SdpAttribute", "src/error.rs:SdpParserError"]}
