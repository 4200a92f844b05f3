import Verif.Conformance.Env
/-!
# The crate's own unit tests, run on the model: lines

Written by scripts/conformance.py from the test files of /repo. These are tests, not proofs of properties:
they show that the model does what the crate's authors expect of the crate.
-/

namespace Sdp.Conformance

attribute [local instance] testEnv

/-! src/lib_tests.rs:44 `test_session_works` -/
example : [c%"topic"].all (fun s => accepts (parseSessionName s)) = true := by decide +kernel

/-! src/lib_tests.rs:50 `test_version_works` -/
example : [c%"0"].all (fun s => accepts (parseVersion s)) = true := by decide +kernel

/-! src/lib_tests.rs:56 `test_version_unsupported_input` -/
example : [c%"1", c%"11", c%"a"].all (fun s => rejects (parseVersion s)) = true := by decide +kernel

/-! src/lib_tests.rs:63 `test_origin_works` -/
example : [c%"mozilla 506705521068071134 0 IN IP4 0.0.0.0", c%"mozilla 506705521068071134 0 IN IP6 2001:db8::1"].all (fun s => accepts (parseOrigin s)) = true := by decide +kernel

/-! src/lib_tests.rs:70 `test_origin_missing_username` -/
example : [c%""].all (fun s => rejects (parseOrigin s)) = true := by decide +kernel

/-! src/lib_tests.rs:75 `test_origin_missing_session_id` -/
example : [c%"mozilla "].all (fun s => rejects (parseOrigin s)) = true := by decide +kernel

/-! src/lib_tests.rs:80 `test_origin_missing_session_version` -/
example : [c%"mozilla 506705521068071134 "].all (fun s => rejects (parseOrigin s)) = true := by decide +kernel

/-! src/lib_tests.rs:85 `test_origin_missing_nettype` -/
example : [c%"mozilla 506705521068071134 0 "].all (fun s => rejects (parseOrigin s)) = true := by decide +kernel

/-! src/lib_tests.rs:90 `test_origin_unsupported_nettype` -/
example : [c%"mozilla 506705521068071134 0 UNSUPPORTED IP4 0.0.0.0"].all (fun s => rejects (parseOrigin s)) = true := by decide +kernel

/-! src/lib_tests.rs:95 `test_origin_missing_addtype` -/
example : [c%"mozilla 506705521068071134 0 IN "].all (fun s => rejects (parseOrigin s)) = true := by decide +kernel

/-! src/lib_tests.rs:100 `test_origin_missing_ip_addr` -/
example : [c%"mozilla 506705521068071134 0 IN IP4 "].all (fun s => rejects (parseOrigin s)) = true := by decide +kernel

/-! src/lib_tests.rs:105 `test_origin_unsupported_addrtpe` -/
example : [c%"mozilla 506705521068071134 0 IN IP1 0.0.0.0"].all (fun s => rejects (parseOrigin s)) = true := by decide +kernel

/-! src/lib_tests.rs:110 `test_origin_invalid_ip_addr` -/
example : [c%"mozilla 506705521068071134 0 IN IP4 1.1.1.256", c%"mozilla 506705521068071134 0 IN IP6 ::g"].all (fun s => rejects (parseOrigin s)) = true := by decide +kernel

/-! src/lib_tests.rs:116 `test_origin_addr_type_mismatch` -/
example : [c%"mozilla 506705521068071134 0 IN IP4 ::1"].all (fun s => rejects (parseOrigin s)) = true := by decide +kernel

/-! src/lib_tests.rs:121 `connection_works` -/
example : [c%"IN IP4 127.0.0.1", c%"IN IP4 127.0.0.1/10/10", c%"IN IP6 ::1", c%"IN IP6 ::1/1/1"].all (fun s => accepts (parseConnection s)) = true := by decide +kernel

/-! src/lib_tests.rs:130 `connection_lots_of_whitespace` -/
example : [c%"IN   IP4   127.0.0.1"].all (fun s => accepts (parseConnection s)) = true := by decide +kernel

/-! src/lib_tests.rs:136 `connection_wrong_amount_of_tokens` -/
example : [c%"IN IP4", c%"IN IP4 0.0.0.0 foobar"].all (fun s => rejects (parseConnection s)) = true := by decide +kernel

/-! src/lib_tests.rs:142 `connection_unsupported_nettype` -/
example : [c%"UNSUPPORTED IP4 0.0.0.0"].all (fun s => rejects (parseConnection s)) = true := by decide +kernel

/-! src/lib_tests.rs:147 `connection_unsupported_addrtpe` -/
example : [c%"IN IP1 0.0.0.0"].all (fun s => rejects (parseConnection s)) = true := by decide +kernel

/-! src/lib_tests.rs:152 `connection_broken_ip_addr` -/
example : [c%"IN IP4 1.1.1.256", c%"IN IP6 ::g"].all (fun s => rejects (parseConnection s)) = true := by decide +kernel

/-! src/lib_tests.rs:158 `connection_addr_type_mismatch` -/
example : [c%"IN IP4 ::1"].all (fun s => rejects (parseConnection s)) = true := by decide +kernel

/-! src/lib_tests.rs:163 `bandwidth_works` -/
example : [c%"AS:1", c%"CT:123", c%"TIAS:12345"].all (fun s => accepts (parseBandwidth s)) = true := by decide +kernel

/-! src/lib_tests.rs:171 `bandwidth_wrong_amount_of_tokens` -/
example : [c%"TIAS", c%"TIAS:12345:xyz"].all (fun s => rejects (parseBandwidth s)) = true := by decide +kernel

/-! src/lib_tests.rs:177 `bandwidth_unsupported_type` -/
example : [c%"UNSUPPORTED:12345"].all (fun s => accepts (parseBandwidth s)) = true := by decide +kernel

/-! src/lib_tests.rs:183 `test_timing_works` -/
example : [c%"0 0"].all (fun s => accepts (parseTiming s)) = true := by decide +kernel

/-! src/lib_tests.rs:189 `test_timing_non_numeric_tokens` -/
example : [c%"a 0", c%"0 a"].all (fun s => rejects (parseTiming s)) = true := by decide +kernel

/-! src/lib_tests.rs:195 `test_timing_wrong_amount_of_tokens` -/
example : [c%"0", c%"0 0 0"].all (fun s => rejects (parseTiming s)) = true := by decide +kernel

/-! src/lib_tests.rs:201 `test_parse_sdp_line_works` -/
example : [c%"v=0", c%"s=somesession"].all (fun s => accepts ((parseSdpLine · 0) s)) = true := by decide +kernel

/-! src/lib_tests.rs:208 `test_parse_sdp_line_empty_line` -/
example : [c%""].all (fun s => rejects ((parseSdpLine · 0) s)) = true := by decide +kernel

/-! src/lib_tests.rs:213 `test_parse_sdp_line_unsupported_types` -/
example : [c%"e=foobar", c%"i=foobar", c%"k=foobar", c%"p=foobar", c%"r=foobar", c%"u=foobar", c%"z=foobar"].all (fun s => rejects ((parseSdpLine · 0) s)) = true := by decide +kernel

/-! src/lib_tests.rs:224 `test_parse_sdp_line_unknown_key` -/
example : [c%"y=foobar"].all (fun s => rejects ((parseSdpLine · 0) s)) = true := by decide +kernel

/-! src/lib_tests.rs:229 `test_parse_sdp_line_too_long_type` -/
example : [c%"ab=foobar"].all (fun s => rejects ((parseSdpLine · 0) s)) = true := by decide +kernel

/-! src/lib_tests.rs:234 `test_parse_sdp_line_without_equal` -/
example : [c%"abcd", c%"ab cd"].all (fun s => rejects ((parseSdpLine · 0) s)) = true := by decide +kernel

/-! src/lib_tests.rs:240 `test_parse_sdp_line_empty_value` -/
example : [c%"v=", c%"o="].all (fun s => rejects ((parseSdpLine · 0) s)) = true := by decide +kernel

/-! src/lib_tests.rs:246 `test_parse_sdp_line_empty_name` -/
example : [c%"=abc"].all (fun s => rejects ((parseSdpLine · 0) s)) = true := by decide +kernel

/-! src/lib_tests.rs:251 `test_parse_sdp_line_valid_a_line` -/
example : [c%"a=rtpmap:8 PCMA/8000"].all (fun s => accepts ((parseSdpLine · 0) s)) = true := by decide +kernel

/-! src/lib_tests.rs:257 `test_parse_sdp_line_invalid_a_line` -/
example : [c%"a=rtpmap:200 PCMA/8000"].all (fun s => rejects ((parseSdpLine · 0) s)) = true := by decide +kernel

/-! src/lib_tests.rs:300 `test_sanity_check_sdp_connection` -/
example : [c%"mozilla 506705521068071134 0 IN IP4 0.0.0.0"].all (fun s => accepts (parseOrigin s)) = true := by decide +kernel
example : [c%"IN IP6 ::1", c%"IN IP4 0.0.0.0"].all (fun s => accepts (parseConnection s)) = true := by decide +kernel

/-! src/lib_tests.rs:342 `test_sanity_check_sdp_session_extmap` -/
example : [c%"extmap:3 http://www.webrtc.org/experiments/rtp-hdrext/abs-send-time", c%"extmap:1/sendonly urn:ietf:params:rtp-hdrext:ssrc-audio-level"].all (fun s => accepts (attrFromStr s)) = true := by decide +kernel

/-! src/lib_tests.rs:540 `test_mask_origin` -/
example : [c%"mozilla 506705521068071134 0 IN IP4 0.0.0.0"].all (fun s => accepts (parseOrigin s)) = true := by decide +kernel

/-! src/lib_tests.rs:618 `test_parse_session_vector` -/
example : [c%"a=sendrecv"].all (fun s => accepts ((parseSdpLine · 0) s)) = true := by decide +kernel

/-! src/lib_tests.rs:627 `test_parse_session_vector_non_session_attribute` -/
example : [c%"a=bundle-only"].all (fun s => accepts ((parseSdpLine · 0) s)) = true := by decide +kernel

/-! src/lib_tests.rs:636 `test_parse_session_vector_version_repeated` -/
example : [c%"v=0"].all (fun s => accepts ((parseSdpLine · 0) s)) = true := by decide +kernel

/-! src/lib_tests.rs:644 `test_parse_session_vector_contains_media_type` -/
example : [c%"m=audio 0 UDP/TLS/RTP/SAVPF 0"].all (fun s => accepts ((parseSdpLine · 0) s)) = true := by decide +kernel

/-! src/lib_tests.rs:652 `test_parse_sdp_vector_no_media_section` -/
example : [c%"v=0", c%"o=ausername 4294967296 2 IN IP4 127.0.0.1", c%"s=SIP Call", c%"t=0 0", c%"c=IN IP6 ::1"].all (fun s => accepts ((parseSdpLine · 0) s)) = true := by decide +kernel

/-! src/lib_tests.rs:666 `test_parse_sdp_vector_with_media_section` -/
example : [c%"v=0", c%"o=ausername 4294967296 2 IN IP4 127.0.0.1", c%"s=SIP Call", c%"t=0 0", c%"m=video 56436 RTP/SAVPF 120", c%"c=IN IP6 ::1"].all (fun s => accepts ((parseSdpLine · 0) s)) = true := by decide +kernel

/-! src/lib_tests.rs:681 `test_parse_sdp_vector_with_missing_rtcp_mux` -/
example : [c%"v=0", c%"o=ausername 4294967296 2 IN IP4 127.0.0.1", c%"s=SIP Call", c%"t=0 0", c%"m=video 56436 RTP/SAVPF 120", c%"c=IN IP6 ::1", c%"a=rtcp-mux-only"].all (fun s => accepts ((parseSdpLine · 0) s)) = true := by decide +kernel

/-! src/lib_tests.rs:697 `test_parse_sdp_vector_too_short` -/
example : [c%"v=0"].all (fun s => accepts ((parseSdpLine · 0) s)) = true := by decide +kernel

/-! src/lib_tests.rs:704 `test_parse_sdp_vector_missing_version` -/
example : [c%"o=ausername 4294967296 2 IN IP4 127.0.0.1", c%"a=sendrecv"].all (fun s => accepts ((parseSdpLine · 0) s)) = true := by decide +kernel

/-! src/lib_tests.rs:717 `test_parse_sdp_vector_missing_origin` -/
example : [c%"v=0", c%"a=sendrecv"].all (fun s => accepts ((parseSdpLine · 0) s)) = true := by decide +kernel

/-! src/lib_tests.rs:727 `test_parse_sdp_vector_missing_session` -/
example : [c%"v=0", c%"o=ausername 4294967296 2 IN IP4 127.0.0.1", c%"a=sendrecv"].all (fun s => accepts ((parseSdpLine · 0) s)) = true := by decide +kernel

/-! src/media_type_tests.rs:217 `test_parse_media_token` -/
example : [c%"audio", c%"VIDEO", c%"aPplIcatIOn"].all (fun s => accepts (parseMediaToken s)) = true := by decide +kernel
example : [c%"", c%"foobar"].all (fun s => rejects (parseMediaToken s)) = true := by decide +kernel

/-! src/media_type_tests.rs:231 `test_parse_protocol_rtp_token` -/
example : [c%"", c%"foobar"].all (fun s => rejects (parseProtocolToken s)) = true := by decide +kernel

/-! src/media_type_tests.rs:273 `test_media_works` -/
example : [c%"audio 9 UDP/TLS/RTP/SAVPF 109", c%"video 9 UDP/TLS/RTP/SAVPF 126", c%"application 9 DTLS/SCTP 5000", c%"application 9 UDP/DTLS/SCTP webrtc-datachannel", c%"audio 9 UDP/TLS/RTP/SAVPF 109 9 0 8", c%"audio 0 UDP/TLS/RTP/SAVPF 8", c%"audio 9/2 UDP/TLS/RTP/SAVPF 8"].all mediaPrintsBack = true := by decide +kernel

/-! src/media_type_tests.rs:285 `test_media_missing_token` -/
example : [c%"video 9 UDP/TLS/RTP/SAVPF"].all (fun s => rejects (parseMedia s)) = true := by decide +kernel

/-! src/media_type_tests.rs:290 `test_media_invalid_port_number` -/
example : [c%"video 75123 UDP/TLS/RTP/SAVPF 8"].all (fun s => rejects (parseMedia s)) = true := by decide +kernel

/-! src/media_type_tests.rs:295 `test_media_invalid_type` -/
example : [c%"invalid 9 UDP/TLS/RTP/SAVPF 8"].all (fun s => rejects (parseMedia s)) = true := by decide +kernel

/-! src/media_type_tests.rs:300 `test_media_invalid_port` -/
example : [c%"audio / UDP/TLS/RTP/SAVPF 8"].all (fun s => rejects (parseMedia s)) = true := by decide +kernel

/-! src/media_type_tests.rs:305 `test_media_invalid_transport` -/
example : [c%"audio 9 invalid/invalid 8"].all (fun s => rejects (parseMedia s)) = true := by decide +kernel

/-! src/media_type_tests.rs:310 `test_media_invalid_payload` -/
example : [c%"audio 9 UDP/TLS/RTP/SAVPF 300"].all (fun s => rejects (parseMedia s)) = true := by decide +kernel

/-! src/network_tests.rs:7 `test_parse_network_type` -/
example : [c%"iN"].all (fun s => accepts (parseNetworkType s)) = true := by decide +kernel
example : [c%"", c%"FOO"].all (fun s => rejects (parseNetworkType s)) = true := by decide +kernel

/-! src/network_tests.rs:16 `test_parse_address_type` -/
example : [c%"iP4", c%"Ip6"].all (fun s => accepts (parseAddressType s)) = true := by decide +kernel
example : [c%"", c%"IP5"].all (fun s => rejects (parseAddressType s)) = true := by decide +kernel

/-! src/network_tests.rs:28 `test_parse_unicast_address` -/
example : [c%"127.0.0.1", c%"::1"].all (fun s => accepts (parseUnicastAddress s)) = true := by decide +kernel

end Sdp.Conformance
