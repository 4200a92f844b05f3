import Verif.Conformance.Env
/-!
# The crate's own unit tests, run on the model: whole texts

Written by scripts/conformance.py from the test files of /repo. These are tests, not proofs of properties:
they show that the model does what the crate's authors expect of the crate.
-/

namespace Sdp.Conformance

attribute [local instance] testEnv

/-! src/lib_tests.rs:396 `test_parse_sdp_zero_length_string_fails` -/
example : rejects (parseSdp c%"" true) = true := by decide +kernel

/-! src/lib_tests.rs:401 `test_parse_sdp_to_short_string` -/
example : rejects (parseSdp c%"fooooobarrrr" true) = true := by decide +kernel

/-! src/lib_tests.rs:406 `test_parse_sdp_minimal_sdp_successfully` -/
example : accepts (parseSdp c%"v=0\r\n\no=- 0 0 IN IP6 ::1\r\n\ns=-\r\n\nc=IN IP6 ::1\r\n\nt=0 0\r\n" true) = true := by decide +kernel

/-! src/lib_tests.rs:419 `test_parse_sdp_too_short` -/
example : rejects (parseSdp c%"v=0\r\n\no=- 0 0 IN IP4 0.0.0.0\r\n\ns=-\r\n" true) = true := by decide +kernel

/-! src/lib_tests.rs:430 `test_parse_sdp_line_error` -/
example : rejects (parseSdp c%"v=0\r\n\no=- 0 0 IN IP4 0.0.0.0\r\n\ns=-\r\n\nt=0 foobar\r\n\nm=audio 0 UDP/TLS/RTP/SAVPF 0\r\n" true) = true := by decide +kernel

/-! src/lib_tests.rs:443 `test_parse_sdp_unsupported_error` -/
example : rejects (parseSdp c%"v=0\r\n\no=- 0 0 IN IP4 0.0.0.0\r\n\ns=-\r\n\nt=0 0\r\n\nm=foobar 0 UDP/TLS/RTP/SAVPF 0\r\n" true) = true := by decide +kernel

/-! src/lib_tests.rs:456 `test_parse_sdp_unsupported_warning` -/
example : accepts (parseSdp c%"v=0\r\n\no=- 0 0 IN IP4 0.0.0.0\r\n\ns=-\r\n\nc=IN IP4 198.51.100.7\r\n\nt=0 0\r\n\nm=audio 0 UDP/TLS/RTP/SAVPF 0\r\n\na=unsupported\r\n" false) = true := by decide +kernel

/-! src/lib_tests.rs:471 `test_parse_sdp_sequence_error` -/
example : rejects (parseSdp c%"v=0\r\n\no=- 0 0 IN IP4 0.0.0.0\r\n\ns=-\r\n\nt=0 0\r\n\na=bundle-only\r\n\nm=audio 0 UDP/TLS/RTP/SAVPF 0\r\n" true) = true := by decide +kernel

/-! src/lib_tests.rs:485 `test_parse_sdp_integer_error` -/
example : rejects (parseSdp c%"v=0\r\n\no=- 0 0 IN IP4 0.0.0.0\r\n\ns=-\r\n\nt=0 0\r\n\nm=audio 0 UDP/TLS/RTP/SAVPF 0\r\n\na=rtcp:34er21\r\n" true) = true := by decide +kernel

/-! src/lib_tests.rs:499 `test_parse_sdp_ipaddr_error` -/
example : rejects (parseSdp c%"v=0\r\n\no=- 0 0 IN IP4 0.a.b.0\r\n\ns=-\r\n\nt=0 0\r\n\nm=audio 0 UDP/TLS/RTP/SAVPF 0\r\n" true) = true := by decide +kernel

/-! src/lib_tests.rs:512 `test_parse_sdp_invalid_session_attribute` -/
example : rejects (parseSdp c%"v=0\r\n\no=- 0 0 IN IP4 0.a.b.0\r\n\ns=-\r\n\nt=0 0\r\n\na=bundle-only\r\n\nm=audio 0 UDP/TLS/RTP/SAVPF 0\r\n" true) = true := by decide +kernel

/-! src/lib_tests.rs:526 `test_parse_sdp_invalid_media_attribute` -/
example : rejects (parseSdp c%"v=0\r\n\no=- 0 0 IN IP4 0.a.b.0\r\n\ns=-\r\n\nt=0 0\r\n\nm=audio 0 UDP/TLS/RTP/SAVPF 0\r\n\na=ice-lite\r\n" true) = true := by decide +kernel

/-! src/lib_tests.rs:559 `test_mask_sdp` -/
example : accepts (parseSdp c%"v=0\r\n\n        o=ausername 4294967296 2 IN IP4 127.0.0.1\r\n\n        s=SIP Call\r\n\n        c=IN IP4 198.51.100.7/51\r\n\n        a=ice-pwd:12340\r\n\n        a=ice-ufrag:4a799b2e\r\n\n        a=fingerprint:sha-1 CD:34:D1:62:16:95:7B:B7:EB:74:E2:39:27:97:EB:0B:23:73:AC:BC\r\n\n        t=0 0\r\n\n        m=video 56436 RTP/SAVPF 120\r\n\n        a=candidate:77142221 1 udp 2113937151 192.168.137.1 54081 typ host\r\n\n        a=remote-candidates:0 10.0.0.1 5555\r\n\n        a=rtpmap:120 VP8/90000\r\n" true) = true := by decide +kernel

/-! tests/parse_sdp_tests.rs:15 `parse_minimal_sdp` -/
example : let s := c%"v=0\r\no=- 1 1 IN IP4 0.0.0.0\r\ns=-\r\nt=0 0\r\nc=IN IP4 0.0.0.0\r\nm=audio 0 UDP/TLS/RTP/SAVPF 0\r\n"
    satisfies (parseSdp s true) (fun r => true && r.media.length == 1 && r.session == some c%"-" && r.attrs.length == 0 && (r.media[0]?.map Media.getPort) == some 0) = true := by decide +kernel

/-! tests/parse_sdp_tests.rs:57 `parse_minimal_sdp_with_emtpy_lines` -/
example : let s := c%"v=0\r\n\n\r\n\no=- 0 0 IN IP4 0.0.0.0\r\n\n \r\n\ns=-\r\n\nc=IN IP4 0.0.0.0\r\n\nt=0 0\r\n\nm=audio 0 UDP/TLS/RTP/SAVPF 0\r\n"
    satisfies (parseSdp s false) (fun r => true && r.session == some c%"-") = true := by decide +kernel

/-! tests/parse_sdp_tests.rs:76 `parse_minimal_sdp_with_single_space_session` -/
example : let s := c%"v=0\r\n\n\r\n\no=- 0 0 IN IP4 0.0.0.0\r\n\n \r\n\ns= \r\n\nc=IN IP4 0.0.0.0\r\n\nt=0 0\r\n\nm=audio 0 UDP/TLS/RTP/SAVPF 0\r\n"
    satisfies (parseSdp s false) (fun r => true && r.session == none) = true := by decide +kernel

/-! tests/parse_sdp_tests.rs:95 `parse_minimal_sdp_with_most_session_types` -/
example : let s := c%"v=0\r\no=- 0 0 IN IP4 0.0.0.0\r\ns=-\r\nt=0 0\r\nb=AS:1\r\nb=CT:123\r\nb=TIAS:12345\r\nb=UNKNOWN:9\r\nc=IN IP6 ::1/1/1\r\na=ice-options:trickle\r\nm=audio 0 UDP/TLS/RTP/SAVPF 0\r\n"
    satisfies (parseSdp s false) (fun r => true && r.session == some c%"-") = true := by decide +kernel

/-! tests/parse_sdp_tests.rs:120 `parse_minimal_sdp_with_most_media_types` -/
example : let s := c%"v=0\r\no=- 0 0 IN IP4 0.0.0.0\r\ns=-\r\nt=0 0\r\nm=video 0 UDP/TLS/RTP/SAVPF 0\r\nb=AS:1\r\nb=CT:123\r\nb=TIAS:12345\r\nc=IN IP4 0.0.0.0\r\na=sendrecv\r\n"
    satisfies (parseSdp s false) (fun r => true && r.media.length == 1 && r.session == some c%"-" && r.attrs.length == 0 && (r.media[0]?.map Media.getPort) == some 0) = true := by decide +kernel

/-! tests/parse_sdp_tests.rs:162 `parse_firefox_audio_offer` -/
example : let s := c%"v=0\r\no=mozilla...THIS_IS_SDPARTA-52.0a1 506705521068071134 0 IN IP4 0.0.0.0\r\ns=-\r\nt=0 0\r\na=fingerprint:sha-256 CD:34:D1:62:16:95:7B:B7:EB:74:E2:39:27:97:EB:0B:23:73:AC:BC:BF:2F:E3:91:CB:57:A9:9D:4A:A2:0B:40\r\na=group:BUNDLE sdparta_0\r\na=ice-options:trickle\r\na=msid-semantic:WMS *\r\nm=audio 9 UDP/TLS/RTP/SAVPF 109 9 0 8\r\nc=IN IP4 0.0.0.0\r\na=sendrecv\r\na=extmap:1/sendonly urn:ietf:params:rtp-hdrext:ssrc-audio-level\r\na=fmtp:109 maxplaybackrate=48000;stereo=1;useinbandfec=1\r\na=ice-pwd:e3baa26dd2fa5030d881d385f1e36cce\r\na=ice-ufrag:58b99ead\r\na=mid:sdparta_0\r\na=msid:{5a990edd-0568-ac40-8d97-310fc33f3411} {218cfa1c-617d-2249-9997-60929ce4c405}\r\na=rtcp-mux\r\na=rtpmap:109 opus/48000/2\r\na=rtpmap:9 G722/8000/1\r\na=rtpmap:0 PCMU/8000\r\na=rtpmap:8 PCMA/8000\r\na=setup:actpass\r\na=ssrc:2655508255 cname:{735484ea-4f6c-f74a-bd66-7425f8476c2e}\r\n"
    satisfies (parseSdp s true) (fun r => true && r.media.length == 1 && (r.media[0]?.map Media.getPort) == some 9) = true := by decide +kernel

/-! tests/parse_sdp_tests.rs:251 `parse_firefox_video_offer` -/
example : let s := c%"v=0\r\no=mozilla...THIS_IS_SDPARTA-52.0a1 506705521068071134 0 IN IP4 0.0.0.0\r\ns=-\r\nt=0 0\r\na=extmap-allow-mixed\r\n\na=fingerprint:sha-256 CD:34:D1:62:16:95:7B:B7:EB:74:E2:39:27:97:EB:0B:23:73:AC:BC:BF:2F:E3:91:CB:57:A9:9D:4A:A2:0B:40\r\na=group:BUNDLE sdparta_2\r\na=ice-options:trickle\r\na=msid-semantic:WMS *\r\nm=video 9 UDP/TLS/RTP/SAVPF 126 120 97\r\nc=IN IP4 0.0.0.0\r\na=recvonly\r\na=fmtp:126 profile-level-id=42e01f;level-asymmetry-allowed=1;packetization-mode=1\r\na=fmtp:120 max-fs=12288;max-fr=60\r\na=fmtp:97 profile-level-id=42e01f;level-asymmetry-allowed=1\r\na=ice-pwd:e3baa26dd2fa5030d881d385f1e36cce\r\na=ice-ufrag:58b99ead\r\na=mid:sdparta_2\r\na=rtcp-fb:126 nack\r\na=rtcp-fb:126 nack pli\r\na=rtcp-fb:126 ccm fir\r\na=rtcp-fb:126 goog-remb\r\na=rtcp-fb:120 nack\r\na=rtcp-fb:120 nack pli\r\na=rtcp-fb:120 ccm fir\r\na=rtcp-fb:120 goog-remb\r\na=rtcp-fb:97 nack\r\na=rtcp-fb:97 nack pli\r\na=rtcp-fb:97 ccm fir\r\na=rtcp-fb:97 goog-remb\r\na=rtcp-mux\r\na=rtpmap:126 H264/90000\r\na=rtpmap:120 VP8/90000\r\na=rtpmap:97 H264/90000\r\na=setup:actpass\r\na=extmap-allow-mixed\r\n\na=ssrc:2709871439 cname:{735484ea-4f6c-f74a-bd66-7425f8476c2e}"
    satisfies (parseSdp s true) (fun r => true && r.media.length == 1 && (r.media[0]?.map Media.getPort) == some 9) = true := by decide +kernel

/-! tests/parse_sdp_tests.rs:360 `parse_firefox_datachannel_offer` -/
example : let s := c%"v=0\r\no=mozilla...THIS_IS_SDPARTA-52.0a2 3327975756663609975 0 IN IP4 0.0.0.0\r\ns=-\r\nt=0 0\r\na=sendrecv\r\na=fingerprint:sha-256 AC:72:CB:D6:1E:A3:A3:B0:E7:97:77:25:03:4B:5B:FF:19:6C:02:C6:93:7D:EB:5C:81:6F:36:D9:02:32:F8:23\r\na=ice-options:trickle\r\na=msid-semantic:WMS *\r\nm=application 49760 DTLS/SCTP 5000\r\nc=IN IP4 172.16.156.106\r\na=candidate:0 1 UDP 2122252543 172.16.156.106 49760 typ host\r\na=sendrecv\r\na=end-of-candidates\r\na=ice-pwd:24f485c580129b36447b65df77429a82\r\na=ice-ufrag:4cba30fe\r\na=mid:sdparta_0\r\na=sctpmap:5000 webrtc-datachannel 256\r\na=setup:active\r\na=ssrc:3376683177 cname:{62f78ee0-620f-a043-86ca-b69f189f1aea}\r\n"
    satisfies (parseSdp s true) (fun r => true && r.media.length == 1 && (r.media[0]?.map Media.getPort) == some 49760) = true := by decide +kernel

/-! tests/parse_sdp_tests.rs:445 `parse_chrome_audio_video_offer` -/
example : let s := c%"v=0\r\n\no=- 3836772544440436510 2 IN IP4 127.0.0.1\r\n\ns=-\r\n\nt=0 0\r\n\na=group:BUNDLE audio video\r\n\na=msid-semantic: WMS HWpbmTmXleVSnlssQd80bPuw9cxQFroDkkBP\r\n\nm=audio 9 UDP/TLS/RTP/SAVPF 111 103 104 9 0 8 106 105 13 126\r\n\nc=IN IP4 0.0.0.0\r\n\na=rtcp:9 IN IP4 0.0.0.0\r\n\na=ice-ufrag:A4by\r\n\na=ice-pwd:Gfvb2rbYMiW0dZz8ZkEsXICs\r\n\na=fingerprint:sha-256 15:B0:92:1F:C7:40:EE:22:A6:AF:26:EF:EA:FF:37:1D:B3:EF:11:0B:8B:73:4F:01:7D:C9:AE:26:4F:87:E0:95\r\n\na=setup:actpass\r\n\na=mid:audio\r\n\na=extmap:1 urn:ietf:params:rtp-hdrext:ssrc-audio-level\r\n\na=sendrecv\r\n\na=rtcp-mux\r\n\na=rtpmap:111 opus/48000/2\r\n\na=rtcp-fb:111 transport-cc\r\n\na=fmtp:111 minptime=10;useinbandfec=1\r\n\na=rtpmap:103 ISAC/16000\r\n\na=rtpmap:104 ISAC/32000\r\n\na=rtpmap:9 G722/8000\r\n\na=rtpmap:0 PCMU/8000\r\n\na=rtpmap:8 PCMA/8000\r\n\na=rtpmap:106 CN/32000\r\n\na=rtpmap:105 CN/16000\r\n\na=rtpmap:13 CN/8000\r\n\na=rtpmap:126 telephone-event/8000\r\n\na=ssrc:162559313 cname:qPTZ+BI+42mgbOi+\r\n\na=ssrc:162559313 msid:HWpbmTmXleVSnlssQd80bPuw9cxQFroDkkBP f6188af5-d8d6-462c-9c75-f12bc41fe322\r\n\na=ssrc:162559313 mslabel:HWpbmTmXleVSnlssQd80bPuw9cxQFroDkkBP\r\n\na=ssrc:162559313 label:f6188af5-d8d6-462c-9c75-f12bc41fe322\r\n\nm=video 9 UDP/TLS/RTP/SAVPF 100 101 107 116 117 96 97 99 98\r\n\nc=IN IP4 0.0.0.0\r\n\na=rtcp:9 IN IP4 0.0.0.0\r\n\na=ice-ufrag:A4by\r\n\na=ice-pwd:Gfvb2rbYMiW0dZz8ZkEsXICs\r\n\na=fingerprint:sha-256 15:B0:92:1F:C7:40:EE:22:A6:AF:26:EF:EA:FF:37:1D:B3:EF:11:0B:8B:73:4F:01:7D:C9:AE:26:4F:87:E0:95\r\n\na=setup:actpass\r\n\na=mid:video\r\n\na=extmap:2 urn:ietf:params:rtp-hdrext:toffset\r\n\na=extmap:3 http://www.webrtc.org/experiments/rtp-hdrext/abs-send-time\r\n\na=extmap:4 urn:3gpp:video-orientation\r\n\na=extmap:5 http://www.ietf.org/id/draft-holmer-rmcat-transport-wide-cc-extensions-01\r\n\na=extmap:6 http://www.webrtc.org/experiments/rtp-hdrext/playout-delay\r\n\na=sendrecv\r\n\na=rtcp-mux\r\n\na=rtcp-rsize\r\n\na=rtpmap:100 VP8/90000\r\n\na=rtcp-fb:100 ccm fir\r\n\na=rtcp-fb:100 nack\r\n\na=rtcp-fb:100 nack pli\r\n\na=rtcp-fb:100 goog-remb\r\n\na=rtcp-fb:100 transport-cc\r\n\na=rtpmap:101 VP9/90000\r\n\na=rtcp-fb:101 ccm fir\r\n\na=rtcp-fb:101 nack\r\n\na=rtcp-fb:101 nack pli\r\n\na=rtcp-fb:101 goog-remb\r\n\na=rtcp-fb:101 transport-cc\r\n\na=rtpmap:107 H264/90000\r\n\na=rtcp-fb:107 ccm fir\r\n\na=rtcp-fb:107 nack\r\n\na=rtcp-fb:107 nack pli\r\n\na=rtcp-fb:107 goog-remb\r\n\na=rtcp-fb:107 transport-cc\r\n\na=fmtp:107 level-asymmetry-allowed=1;packetization-mode=1;profile-level-id=42e01f\r\n\na=rtpmap:116 red/90000\r\n\na=rtpmap:117 ulpfec/90000\r\n\na=rtpmap:96 rtx/90000\r\n\na=fmtp:96 apt=100\r\n\na=rtpmap:97 rtx/90000\r\n\na=fmtp:97 apt=101\r\n\na=rtpmap:99 rtx/90000\r\n\na=fmtp:99 apt=107\r\n\na=rtpmap:98 rtx/90000\r\n\na=fmtp:98 apt=116\r\n\na=ssrc-group:FID 3156517279 2673335628\r\n\na=ssrc:3156517279 cname:qPTZ+BI+42mgbOi+\r\n\na=ssrc:3156517279 msid:HWpbmTmXleVSnlssQd80bPuw9cxQFroDkkBP b6ec5178-c611-403f-bbec-3833ed547c09\r\n\na=ssrc:3156517279 mslabel:HWpbmTmXleVSnlssQd80bPuw9cxQFroDkkBP\r\n\na=ssrc:3156517279 label:b6ec5178-c611-403f-bbec-3833ed547c09\r\n\na=ssrc:2673335628 cname:qPTZ+BI+42mgbOi+\r\n\na=ssrc:2673335628 msid:HWpbmTmXleVSnlssQd80bPuw9cxQFroDkkBP b6ec5178-c611-403f-bbec-3833ed547c09\r\n\na=ssrc:2673335628 mslabel:HWpbmTmXleVSnlssQd80bPuw9cxQFroDkkBP\r\n\na=ssrc:2673335628 label:b6ec5178-c611-403f-bbec-3833ed547c09\r\n"
    satisfies (parseSdp s true) (fun r => true && r.media.length == 2 && (r.media[0]?.map Media.getPort) == some 9 && (r.media[1]?.map Media.getPort) == some 9) = true := by decide +kernel

/-! tests/parse_sdp_tests.rs:571 `parse_firefox_simulcast_offer` -/
example : let s := c%"v=0\r\n\no=mozilla...THIS_IS_SDPARTA-55.0a1 983028567300715536 0 IN IP4 0.0.0.0\r\n\ns=-\r\n\nt=0 0\r\n\na=fingerprint:sha-256 68:42:13:88:B6:C1:7D:18:79:07:8A:C6:DC:28:D6:DC:DD:E3:C9:41:E7:80:A7:FE:02:65:FB:76:A0:CD:58:ED\r\n\na=ice-options:trickle\r\n\na=msid-semantic:WMS *\r\n\nm=video 9 UDP/TLS/RTP/SAVPF 120 121 126 97\r\n\nc=IN IP4 0.0.0.0\r\n\na=sendrecv\r\n\na=extmap:1 http://www.webrtc.org/experiments/rtp-hdrext/abs-send-time\r\n\na=extmap:2 urn:ietf:params:rtp-hdrext:toffset\r\n\na=extmap:3/sendonly urn:ietf:params:rtp-hdrext:sdes:rtp-stream-id\r\n\na=fmtp:126 profile-level-id=42e01f;level-asymmetry-allowed=1;packetization-mode=1\r\n\na=fmtp:97 profile-level-id=42e01f;level-asymmetry-allowed=1\r\n\na=fmtp:120 max-fs=12288;max-fr=60\r\n\na=fmtp:121 max-fs=12288;max-fr=60\r\n\na=ice-pwd:4af388405d558b91f5ba6c2c48f161bf\r\n\na=ice-ufrag:ce1ac488\r\n\na=mid:sdparta_0\r\n\na=msid:{fb6d1fa3-d993-f244-a0fe-d9fb99214c23} {8be9a0f7-9272-6c42-90f3-985d55bd8de5}\r\n\na=rid:foo send\r\n\na=rid:bar send\r\n\na=rtcp-fb:120 nack\r\n\na=rtcp-fb:120 nack pli\r\n\na=rtcp-fb:120 ccm fir\r\n\na=rtcp-fb:120 goog-remb\r\n\na=rtcp-fb:121 nack\r\n\na=rtcp-fb:121 nack pli\r\n\na=rtcp-fb:121 ccm fir\r\n\na=rtcp-fb:121 goog-remb\r\n\na=rtcp-fb:126 nack\r\n\na=rtcp-fb:126 nack pli\r\n\na=rtcp-fb:126 ccm fir\r\n\na=rtcp-fb:126 goog-remb\r\n\na=rtcp-fb:97 nack\r\n\na=rtcp-fb:97 nack pli\r\n\na=rtcp-fb:97 ccm fir\r\n\na=rtcp-fb:97 goog-remb\r\n\na=rtcp-mux\r\n\na=rtpmap:120 VP8/90000\r\n\na=rtpmap:121 VP9/90000\r\n\na=rtpmap:126 H264/90000\r\n\na=rtpmap:97 H264/90000\r\n\na=setup:actpass\r\n\na=simulcast: send rid=foo;bar\r\n\na=ssrc:2988475468 cname:{77067f00-2e8d-8b4c-8992-cfe338f56851}\r\n\na=ssrc:1649784806 cname:{77067f00-2e8d-8b4c-8992-cfe338f56851}\r\n"
    satisfies (parseSdp s true) (fun r => true && r.media.length == 1) = true := by decide +kernel

/-! tests/parse_sdp_tests.rs:630 `parse_firefox_simulcast_answer` -/
example : let s := c%"v=0\r\no=mozilla...THIS_IS_SDPARTA-55.0a1 7548296603161351381 0 IN IP4 0.0.0.0\r\ns=-\r\nt=0 0\r\na=fingerprint:sha-256 B1:47:49:4F:7D:83:03:BE:E9:FC:73:A3:FB:33:38:40:0B:3B:6A:56:78:EB:EE:D5:6D:2D:D5:3A:B6:13:97:E7\r\na=ice-options:trickle\r\na=msid-semantic:WMS *\r\nm=video 9 UDP/TLS/RTP/SAVPF 120\r\nc=IN IP4 0.0.0.0\r\n\n    a=recvonly\r\na=extmap:1 http://www.webrtc.org/experiments/rtp-hdrext/abs-send-time\r\na=extmap:2 urn:ietf:params:rtp-hdrext:toffset\r\na=fmtp:120 max-fs=12288;max-fr=60\r\na=ice-pwd:c886e2caf2ae397446312930cd1afe51\r\na=ice-ufrag:f57396c0\r\na=mid:sdparta_0\r\na=rtcp-fb:120 nack\r\na=rtcp-fb:120 nack pli\r\na=rtcp-fb:120 ccm fir\r\na=rtcp-fb:120 goog-remb\r\na=rtcp-mux\r\na=rtpmap:120 VP8/90000\r\na=setup:active\r\na=ssrc:2564157021 cname:{cae1cd32-7433-5b48-8dc8-8e3f8b2f96cd}\r\na=simulcast: recv rid=foo;bar\r\na=rid:foo recv\r\na=rid:bar recv\r\na=extmap:3/recvonly urn:ietf:params:rtp-hdrext:sdes:rtp-stream-id\r\n"
    satisfies (parseSdp s true) (fun r => true && r.media.length == 1) = true := by decide +kernel

/-! tests/parse_sdp_tests.rs:691 `serialize_complex_sdp_and_validate_no_empty_lines` -/
example : let s := c%"v=0\r\n\no=- 3836772544440436510 2 IN IP4 127.0.0.1\r\n\ns=-\r\n\nt=0 0\r\n\na=group:BUNDLE audio video\r\n\na=msid-semantic: WMS HWpbmTmXleVSnlssQd80bPuw9cxQFroDkkBP\r\n\nm=audio 9 UDP/TLS/RTP/SAVPF 111 103 104 9 0 8 106 105 13 126\r\n\nc=IN IP4 0.0.0.0\r\n\na=rtcp:9 IN IP4 0.0.0.0\r\n\na=ice-ufrag:A4by\r\n\na=ice-pwd:Gfvb2rbYMiW0dZz8ZkEsXICs\r\n\na=fingerprint:sha-256 15:B0:92:1F:C7:40:EE:22:A6:AF:26:EF:EA:FF:37:1D:B3:EF:11:0B:8B:73:4F:01:7D:C9:AE:26:4F:87:E0:95\r\n\na=setup:actpass\r\n\na=mid:audio\r\n\na=extmap:1 urn:ietf:params:rtp-hdrext:ssrc-audio-level\r\n\na=sendrecv\r\n\na=rtcp-mux\r\n\na=rtcp-mux-only\r\n\na=rtpmap:111 opus/48000/2\r\n\na=rtcp-fb:111 transport-cc\r\n\na=fmtp:111 minptime=10;useinbandfec=1\r\n\na=rtpmap:103 ISAC/16000\r\n\na=rtpmap:104 ISAC/32000\r\n\na=rtpmap:9 G722/8000\r\n\na=rtpmap:0 PCMU/8000\r\n\na=rtpmap:8 PCMA/8000\r\n\na=rtpmap:106 CN/32000\r\n\na=rtpmap:105 CN/16000\r\n\na=rtpmap:13 CN/8000\r\n\na=rtpmap:126 telephone-event/8000\r\n\na=ssrc:162559313 cname:qPTZ+BI+42mgbOi+\r\n\na=ssrc:162559313 msid:HWpbmTmXleVSnlssQd80bPuw9cxQFroDkkBP f6188af5-d8d6-462c-9c75-f12bc41fe322\r\n\na=ssrc:162559313 mslabel:HWpbmTmXleVSnlssQd80bPuw9cxQFroDkkBP\r\n\na=ssrc:162559313 label:f6188af5-d8d6-462c-9c75-f12bc41fe322\r\n\nm=video 9 UDP/TLS/RTP/SAVPF 100 101 107 116 117 96 97 99 98\r\n\nc=IN IP4 0.0.0.0\r\n\na=rtcp:9 IN IP4 0.0.0.0\r\n\na=ice-ufrag:A4by\r\n\na=ice-pwd:Gfvb2rbYMiW0dZz8ZkEsXICs\r\n\na=fingerprint:sha-256 15:B0:92:1F:C7:40:EE:22:A6:AF:26:EF:EA:FF:37:1D:B3:EF:11:0B:8B:73:4F:01:7D:C9:AE:26:4F:87:E0:95\r\n\na=setup:actpass\r\n\na=mid:video\r\n\na=extmap:2 urn:ietf:params:rtp-hdrext:toffset\r\n\na=extmap:3 http://www.webrtc.org/experiments/rtp-hdrext/abs-send-time\r\n\na=extmap:4 urn:3gpp:video-orientation\r\n\na=extmap:5 http://www.ietf.org/id/draft-holmer-rmcat-transport-wide-cc-extensions-01\r\n\na=extmap:6 http://www.webrtc.org/experiments/rtp-hdrext/playout-delay\r\n\na=sendrecv\r\n\na=rtcp-mux\r\n\na=rtcp-rsize\r\n\na=rtpmap:100 VP8/90000\r\n\na=rtcp-fb:100 ccm fir\r\n\na=rtcp-fb:100 nack\r\n\na=rtcp-fb:100 nack pli\r\n\na=rtcp-fb:100 goog-remb\r\n\na=rtcp-fb:100 transport-cc\r\n\na=rtpmap:101 VP9/90000\r\n\na=rtcp-fb:101 ccm fir\r\n\na=rtcp-fb:101 nack\r\n\na=rtcp-fb:101 nack pli\r\n\na=rtcp-fb:101 goog-remb\r\n\na=rtcp-fb:101 transport-cc\r\n\na=rtpmap:107 H264/90000\r\n\na=rtcp-fb:107 ccm fir\r\n\na=rtcp-fb:107 nack\r\n\na=rtcp-fb:107 nack pli\r\n\na=rtcp-fb:107 goog-remb\r\n\na=rtcp-fb:107 transport-cc\r\n\na=fmtp:107 level-asymmetry-allowed=1;packetization-mode=1;profile-level-id=42e01f\r\n\na=rtpmap:116 red/90000\r\n\na=rtpmap:117 ulpfec/90000\r\n\na=rtpmap:96 rtx/90000\r\n\na=fmtp:96 apt=100\r\n\na=rtpmap:97 rtx/90000\r\n\na=fmtp:97 apt=101\r\n\na=rtpmap:99 rtx/90000\r\n\na=fmtp:99 apt=107\r\n\na=rtpmap:98 rtx/90000\r\n\na=fmtp:98 apt=116\r\n\na=ssrc-group:FID 3156517279 2673335628\r\n\na=ssrc:3156517279 cname:qPTZ+BI+42mgbOi+\r\n\na=ssrc:3156517279 msid:HWpbmTmXleVSnlssQd80bPuw9cxQFroDkkBP b6ec5178-c611-403f-bbec-3833ed547c09\r\n\na=ssrc:3156517279 mslabel:HWpbmTmXleVSnlssQd80bPuw9cxQFroDkkBP\r\n\na=ssrc:3156517279 label:b6ec5178-c611-403f-bbec-3833ed547c09\r\n\na=ssrc:2673335628 cname:qPTZ+BI+42mgbOi+\r\n\na=ssrc:2673335628 msid:HWpbmTmXleVSnlssQd80bPuw9cxQFroDkkBP b6ec5178-c611-403f-bbec-3833ed547c09\r\n\na=ssrc:2673335628 mslabel:HWpbmTmXleVSnlssQd80bPuw9cxQFroDkkBP\r\n\na=ssrc:2673335628 label:b6ec5178-c611-403f-bbec-3833ed547c09\r\n"
    satisfies (parseSdp s true) (fun r => true && !hasEmptyLine (showSession r)) = true := by decide +kernel

end Sdp.Conformance
