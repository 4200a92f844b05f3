import Verif.Conformance.Env
/-!
# The crate's own unit tests, run on the model: attributes

Written by scripts/conformance.py from the test files of /repo. These are tests, not proofs of properties:
they show that the model does what the crate's authors expect of the crate.
-/

namespace Sdp.Conformance

attribute [local instance] testEnv

/-! src/attribute_type_tests.rs:47 `test_parse_attribute_candidate_and_serialize` -/
example : [c%"candidate:1 1 TCP 1685987071 24.23.204.141 54609 typ srflx raddr 192.168.1.4 rport 61665 tcptype passive generation 1 ufrag +DGd network-cost 1 unsupported foo"].all (fun s => accepts (attrFromStr s)) = true := by decide +kernel
example : [c%"candidate:0 1 UDP 2122252543 172.16.156.106 49760 typ host", c%"candidate:foo 1 UDP 2122252543 172.16.156.106 49760 typ host", c%"candidate:0 1 TCP 2122252543 172.16.156.106 49760 typ host", c%"candidate:0 1 TCP 2122252543 ::1 49760 typ host", c%"candidate:0 1 TCP 2122252543 2001:db8:4860::4444 49760 typ host", c%"candidate:0 1 UDP 2122252543 172.16.156.106 49760 typ srflx", c%"candidate:0 1 UDP 2122252543 172.16.156.106 49760 typ prflx", c%"candidate:0 1 UDP 2122252543 172.16.156.106 49760 typ relay", c%"candidate:0 1 TCP 2122252543 172.16.156.106 49760 typ host tcptype active", c%"candidate:0 1 TCP 2122252543 172.16.156.106 49760 typ host tcptype passive", c%"candidate:0 1 TCP 2122252543 172.16.156.106 49760 typ host tcptype so", c%"candidate:0 1 TCP 2122252543 172.16.156.106 49760 typ host ufrag foobar", c%"candidate:0 1 TCP 2122252543 172.16.156.106 49760 typ host network-cost 50", c%"candidate:1 1 UDP 1685987071 24.23.204.141 54609 typ srflx raddr 192.168.1.4 rport 61665 generation 0", c%"candidate:1 1 UDP 1685987071 24.23.204.141 54609 typ srflx raddr 192.168.1.4 rport 61665", c%"candidate:1 1 TCP 1685987071 24.23.204.141 54609 typ srflx raddr 192.168.1.4 rport 61665 tcptype passive", c%"candidate:1 1 TCP 1685987071 24.23.204.141 54609 typ srflx raddr 192.168.1.4 rport 61665 tcptype passive generation 1", c%"candidate:1 1 TCP 1685987071 24.23.204.141 54609 typ srflx raddr 192.168.1.4 rport 61665 tcptype passive generation 1 ufrag +DGd", c%"candidate:1 1 TCP 1685987071 24.23.204.141 54609 typ srflx raddr 192.168.1.4 rport 61665 tcptype passive generation 1 ufrag +DGd network-cost 1", c%"candidate:0 1 TCP 2122252543 172.16.156.106 49760 typ host unsupported foo", c%"candidate:0 1 TCP 2122252543 172.16.156.106 49760 typ host unsupported foo more_unsupported bar"].all attributePrintsBack = true := by decide +kernel

/-! src/attribute_type_tests.rs:118 `test_anonymize_attribute_candidate` -/
example : [c%"candidate:0 1 TCP 2122252543 ::8 49760 typ host", c%"candidate:0 1 UDP 2122252543 172.16.156.106 19361 typ srflx", c%"candidate:1 1 TCP 1685987071 24.23.204.141 54609 typ srflx raddr 192.168.1.4 rport 61665 tcptype passive generation 1 ufrag +DGd"].all (fun s => accepts (attrFromStr s)) = true := by decide +kernel

/-! src/attribute_type_tests.rs:153 `test_parse_attribute_candidate_errors` -/
example : [c%"candidate:0 1 UDP 2122252543 172.16.156.106 49760 typ", c%"candidate:0 foo UDP 2122252543 172.16.156.106 49760 typ host", c%"candidate:0 1 FOO 2122252543 172.16.156.106 49760 typ host", c%"candidate:0 1 UDP foo 172.16.156.106 49760 typ host", c%"candidate:0 1 UDP 2122252543 372.16.356 49760 typ host", c%"candidate:0 1 UDP 2122252543 172.16.156.106 70000 typ host", c%"candidate:0 1 UDP 2122252543 172.16.156.106 49760 type host", c%"candidate:0 1 UDP 2122252543 172.16.156.106 49760 typ fost", c%"candidate:0 1 TCP 2122252543 172.16.156.106 49760 typ host unsupported", c%"candidate:0 1 TCP 2122252543 172.16.156.106 49760 typ host network-cost", c%"candidate:1 1 UDP 1685987071 24.23.204.141 54609 typ srflx raddr 192.168.1.4 rport 61665 generation B", c%"candidate:0 1 TCP 2122252543 172.16.156.106 49760 typ host network-cost C", c%"candidate:1 1 UDP 1685987071 24.23.204.141 54609 typ srflx raddr 1%92.168.1 rport 61665", c%"candidate:0 1 TCP 2122252543 172.16.156.106 49760 typ host tcptype foobar", c%"candidate:1 1 UDP 1685987071 24.23.204.141 54609 typ srflx raddr 192.168.1.4 rport 70000"].all (fun s => rejects (attrFromStr s)) = true := by decide +kernel

/-! src/attribute_type_tests.rs:194 `test_parse_dtls_message` -/
example : [c%"dtls-message:client SGVsbG8gV29ybGQ=", c%"dtls-message:server SGVsbG8gV29ybGQ="].all (fun s => accepts (attrFromStr s)) = true := by decide +kernel
example : [c%"dtls-message:client", c%"dtls-message:server", c%"dtls-message:unsupported SGVsbG8gV29ybGQ="].all (fun s => rejects (attrFromStr s)) = true := by decide +kernel
example : [c%"dtls-message:client SGVsbG8gV29ybGQ=", c%"dtls-message:server SGVsbG8gV29ybGQ=", c%"dtls-message:client IGlzdCBl/W4gUeiBtaXQg+JSB1bmQCAkJJkSNEQ=", c%"dtls-message:server IGlzdCBl/W4gUeiBtaXQg+JSB1bmQCAkJJkSNEQ="].all attributePrintsBack = true := by decide +kernel

/-! src/attribute_type_tests.rs:228 `test_parse_attribute_end_of_candidates` -/
example : [c%"end-of-candidates foobar"].all (fun s => rejects (attrFromStr s)) = true := by decide +kernel
example : [c%"end-of-candidates"].all attributePrintsBack = true := by decide +kernel

/-! src/attribute_type_tests.rs:237 `test_parse_attribute_extmap` -/
example : [c%"extmap:1/sendrecv", c%"extmap:a/sendrecv urn:ietf:params:rtp-hdrext:ssrc-audio-level", c%"extmap:4/unsupported urn:ietf:params:rtp-hdrext:ssrc-audio-level"].all (fun s => rejects (attrFromStr s)) = true := by decide +kernel
example : [c%"extmap:1/sendonly urn:ietf:params:rtp-hdrext:ssrc-audio-level", c%"extmap:2/sendrecv urn:ietf:params:rtp-hdrext:ssrc-audio-level", c%"extmap:3 http://www.webrtc.org/experiments/rtp-hdrext/abs-send-time", c%"extmap:3 http://www.webrtc.org/experiments/rtp-hdrext/abs-send-time ext_attributes"].all attributePrintsBack = true := by decide +kernel

/-! src/attribute_type_tests.rs:267 `test_parse_attribute_fingerprint` -/
example : [c%"fingerprint:sha-1", c%"fingerprint:unsupported CD:34:D1:62:16:95:7B:B7:EB:74:E1:39:27:97:EB:0B:23:73:AC:BC", c%"fingerprint:sha-1 CDA:34:D1:62:16:95:7B:B7:EB:74:E1:39:27:97:EB:0B:23:73:AC:BC", c%"fingerprint:sha-1 CD:34:D1:62:16:95:7B:B7:EB:74:E1:39:27:97:EB:0B:23:73:AC:", c%"fingerprint:sha-1 CD:34:D1:62:16:95:7B:B7:EB:74:E1:39:27:97:EB:0B:23:73:AC", c%"fingerprint:sha-1 CX:34:D1:62:16:95:7B:B7:EB:74:E1:39:27:97:EB:0B:23:73:AC:BC", c%"fingerprint:sha-1 0xCD:34:D1:62:16:95:7B:B7:EB:74:E2:39:27:97:EB:0B:23:73:AC:BC", c%"fingerprint:sha-1 CD:0x34:D1:62:16:95:7B:B7:EB:74:E2:39:27:97:EB:0B:23:73:AC:BC", c%"fingerprint:sha-1 CD::D1:62:16:95:7B:B7:EB:74:E2:39:27:97:EB:0B:23:73:AC:BC", c%"fingerprint:sha-1 CD:0000A:D1:62:16:95:7B:B7:EB:74:E2:39:27:97:EB:0B:23:73:AC:BC", c%"fingerprint:sha-1 CD:B:D1:62:16:95:7B:B7:EB:74:E2:39:27:97:EB:0B:23:73:AC:BC"].all (fun s => rejects (attrFromStr s)) = true := by decide +kernel
example : [c%"fingerprint:sha-1 CD:34:D1:62:16:95:7B:B7:EB:74:E2:39:27:97:EB:0B:23:73:AC:BC", c%"fingerprint:sha-224 CD:34:D1:62:16:95:7B:B7:EB:74:E2:39:27:97:EB:0B:23:73:AC:BC:27:97:EB:0B:23:73:AC:BC", c%"fingerprint:sha-256 CD:34:D1:62:16:95:7B:B7:EB:74:E2:39:27:97:EB:0B:23:73:AC:BC:27:97:EB:0B:23:73:AC:BC:CD:34:D1:62", c%"fingerprint:sha-384 CD:34:D1:62:16:95:7B:B7:EB:74:E2:39:27:97:EB:0B:23:73:AC:BC:27:97:EB:0B:23:73:AC:BC:CD:34:D1:62:16:95:7B:B7:EB:74:E2:39:27:97:EB:0B:23:73:AC:BC", c%"fingerprint:sha-512 CD:34:D1:62:16:95:7B:B7:EB:74:E2:39:27:97:EB:0B:23:73:AC:BC:97:EB:0B:23:73:AC:BC:CD:34:D1:62:16:95:7B:B7:EB:74:E2:39:27:EB:0B:23:73:AC:BC:27:97:EB:0B:23:73:AC:BC:27:97:EB:0B:23:73:BC:EB:0B:23"].all attributePrintsBack = true := by decide +kernel

/-! src/attribute_type_tests.rs:340 `test_parse_attribute_fmtp` -/
example : [c%"fmtp:109 maxplaybackrate=48000;stereo=1;useinbandfec=1", c%"fmtp:109 maxplaybackrate=48000; stereo=1; useinbandfec=1", c%"fmtp:109 maxplaybackrate=48000; stereo=1;useinbandfec=1", c%"fmtp:8 ;maxplaybackrate=48000", c%"fmtp:8 packetization-mode=2;;maxplaybackrate=48000", c%"fmtp:8 packetization-mode=2; maxplaybackrate=48000", c%"fmtp:8 maxplaybackrate=48000;", c%"fmtp:8 x-google-start-bitrate=800; maxplaybackrate=48000;"].all (fun s => accepts (attrFromStr s)) = true := by decide +kernel
example : [c%"fmtp:77 ", c%"fmtp:109 stereo=2;", c%"fmtp:109 111/129;", c%"fmtp:109 packetization-mode=3;", c%"fmtp:109 maxplaybackrate=48000stereo=1;"].all (fun s => rejects (attrFromStr s)) = true := by decide +kernel
example : [c%"fmtp:109 maxplaybackrate=46000;stereo=1;useinbandfec=1", c%"fmtp:126 profile-level-id=42e01f;level-asymmetry-allowed=1;packetization-mode=1", c%"fmtp:66 0-15", c%"fmtp:109 0-15,66", c%"fmtp:66 111/115", c%"fmtp:8 maxplaybackrate=46000", c%"fmtp:8 maxaveragebitrate=46000", c%"fmtp:8 maxaveragebitrate=46000;ptime=60;minptime=20;maxptime=120", c%"fmtp:8 max-cpb=1234;max-dpb=32000;max-br=3;max-mbps=46000;usedtx=1;cbr=1", c%"fmtp:97 apt=96", c%"fmtp:97 apt=96;rtx-time=3000", c%"fmtp:102 packetization-mode=1;sprop-parameter-sets=Z0LAFYyNQKD5APCIRqA=,aM48gA==", c%"fmtp:97 profile=2;level-idx=3;tier=1"].all attributePrintsBack = true := by decide +kernel

/-! src/attribute_type_tests.rs:380 `test_parse_attribute_framerate` -/
example : [c%"framerate:", c%"framerate:abc", c%"framerate:0"].all (fun s => rejects (attrFromStr s)) = true := by decide +kernel
example : [c%"framerate:1", c%"framerate:60", c%"framerate:23.5", c%"framerate:4294967297"].all attributePrintsBack = true := by decide +kernel

/-! src/attribute_type_tests.rs:396 `test_anonymize_attribute_fingerprint` -/
example : [c%"fingerprint:sha-1 CD:34:D1:62:16:95:7B:B7:EB:74:E2:39:27:97:EB:0B:23:73:AC:BC"].all (fun s => accepts (attrFromStr s)) = true := by decide +kernel

/-! src/attribute_type_tests.rs:409 `test_parse_attribute_group` -/
example : [c%"group:", c%"group:NEVER_SUPPORTED_SEMANTICS"].all (fun s => rejects (attrFromStr s)) = true := by decide +kernel
example : [c%"group:LS", c%"group:LS 1 2", c%"group:FID 1 2", c%"group:SRF 1 2", c%"group:FEC S1 R1", c%"group:ANAT S1 R1", c%"group:DDP L1 L2 L3", c%"group:BUNDLE sdparta_0 sdparta_1 sdparta_2"].all attributePrintsBack = true := by decide +kernel

/-! src/attribute_type_tests.rs:431 `test_parse_attribute_bundle_only` -/
example : [c%"bundle-only foobar"].all (fun s => rejects (attrFromStr s)) = true := by decide +kernel
example : [c%"bundle-only"].all attributePrintsBack = true := by decide +kernel

/-! src/attribute_type_tests.rs:441 `test_parse_attribute_ice_lite` -/
example : [c%"ice-lite foobar"].all (fun s => rejects (attrFromStr s)) = true := by decide +kernel
example : [c%"ice-lite"].all attributePrintsBack = true := by decide +kernel

/-! src/attribute_type_tests.rs:451 `test_parse_attribute_extmap_allow_mixed` -/
example : [c%"extmap-allow-mixed 100"].all (fun s => rejects (attrFromStr s)) = true := by decide +kernel
example : [c%"extmap-allow-mixed"].all attributePrintsBack = true := by decide +kernel

/-! src/attribute_type_tests.rs:461 `test_parse_attribute_ice_mismatch` -/
example : [c%"ice-mismatch foobar"].all (fun s => rejects (attrFromStr s)) = true := by decide +kernel
example : [c%"ice-mismatch"].all attributePrintsBack = true := by decide +kernel

/-! src/attribute_type_tests.rs:471 `test_parse_attribute_ice_options` -/
example : [c%"ice-options:"].all (fun s => rejects (attrFromStr s)) = true := by decide +kernel
example : [c%"ice-options:trickle"].all attributePrintsBack = true := by decide +kernel

/-! src/attribute_type_tests.rs:482 `test_parse_attribute_ice_pacing` -/
example : [c%"ice-pacing:", c%"ice-pacing:10000000000", c%"ice-pacing:50 100", c%"ice-pacing:foobar"].all (fun s => rejects (attrFromStr s)) = true := by decide +kernel
example : [c%"ice-pacing:50"].all attributePrintsBack = true := by decide +kernel

/-! src/attribute_type_tests.rs:496 `test_parse_attribute_ice_pwd` -/
example : [c%"ice-pwd:"].all (fun s => rejects (attrFromStr s)) = true := by decide +kernel
example : [c%"ice-pwd:e3baa26dd2fa5030d881d385f1e36cce"].all attributePrintsBack = true := by decide +kernel

/-! src/attribute_type_tests.rs:507 `test_parse_attribute_ice_ufrag` -/
example : [c%"ice-ufrag:"].all (fun s => rejects (attrFromStr s)) = true := by decide +kernel
example : [c%"ice-ufrag:58b99ead"].all attributePrintsBack = true := by decide +kernel

/-! src/attribute_type_tests.rs:518 `test_parse_attribute_identity` -/
example : [c%"identity:"].all (fun s => rejects (attrFromStr s)) = true := by decide +kernel
example : [c%"identity:eyJpZHAiOnsiZG9tYWluIjoiZXhhbXBsZS5vcmciLCJwcm90b2NvbCI6ImJvZ3VzIn0sImFzc2VydGlvbiI6IntcImlkZW50aXR5XCI6XCJib2JAZXhhbXBsZS5vcmdcIixcImNvbnRlbnRzXCI6XCJhYmNkZWZnaGlqa2xtbm9wcXJzdHV2d3l6XCIsXCJzaWduYXR1cmVcIjpcIjAxMDIwMzA0MDUwNlwifSJ9"].all attributePrintsBack = true := by decide +kernel

/-! src/attribute_type_tests.rs:529 `test_parse_attribute_imageattr` -/
example : [c%"imageattr:97 recv [x=800,y=640,sar=1.1] send [x=330,y=250]", c%"imageattr:100 recv [x=320,y=240]", c%"imageattr:97 recv [x=800,y=640,sar=1.1,foo=[123,456],q=0.5] send [x=330,y=250,bar=foo,sar=[20-40]]", c%"imageattr:97 recv [x=800,y=640,sar=1.1,foo=abc xyz,q=0.5] send [x=330,y=250,bar=foo,sar=[20-40]]"].all (fun s => accepts (attrFromStr s)) = true := by decide +kernel
example : [c%"imageattr:", c%"imageattr:100", c%"imageattr:120 send * recv * send *", c%"imageattr:99 send [x=320]", c%"imageattr:99 recv [y=240]", c%"imageattr:99 send [x=320,y=240", c%"imageattr:99 send x=320,y=240]", c%"imageattr:97 send [x=800,y=640,sar=1.1] send [x=330,y=250]"].all (fun s => rejects (attrFromStr s)) = true := by decide +kernel
example : [c%"imageattr:120 send * recv *", c%"imageattr:99 send [x=320,y=240] recv [x=320,y=240]", c%"imageattr:97 send [x=800,y=640,sar=1.1,q=0.6] [x=480,y=320] recv [x=330,y=250]", c%"imageattr:97 send [x=[480:16:800],y=[320:16:640],par=[1.2-1.3],q=0.6] [x=[176:8:208],y=[144:8:176],par=[1.2-1.3]] recv *", c%"imageattr:99 send [x=320,y=240]"].all attributePrintsBack = true := by decide +kernel

/-! src/attribute_type_tests.rs:558 `test_parse_attribute_imageattr_recv_and_verify` -/
example : [c%"imageattr:* recv [x=800,y=[50,80,30],sar=1.1] send [x=330,y=250,sar=[1.1,1.3,1.9],q=0.1]"].all (fun s => accepts (attrFromStr s)) = true := by decide +kernel

/-! src/attribute_type_tests.rs:618 `test_parse_attribute_imageattr_send_and_verify` -/
example : [c%"imageattr:97 send [x=[480:16:800],y=[100,200,300],par=[1.2-1.3],q=0.6] [x=1080,y=[144:176],sar=[0.5-0.7]] recv *"].all (fun s => accepts (attrFromStr s)) = true := by decide +kernel

/-! src/attribute_type_tests.rs:669 `test_parse_attribute_inactive` -/
example : [c%"inactive foobar"].all (fun s => rejects (attrFromStr s)) = true := by decide +kernel
example : [c%"inactive"].all attributePrintsBack = true := by decide +kernel

/-! src/attribute_type_tests.rs:678 `test_parse_attribute_label` -/
example : [c%"label:"].all (fun s => rejects (attrFromStr s)) = true := by decide +kernel
example : [c%"label:1", c%"label:foobar", c%"label:foobar barfoo"].all attributePrintsBack = true := by decide +kernel

/-! src/attribute_type_tests.rs:691 `test_parse_attribute_maxptime` -/
example : [c%"maxptime:", c%"maxptime:60 100", c%"maxptime:foobar"].all (fun s => rejects (attrFromStr s)) = true := by decide +kernel
example : [c%"maxptime:60"].all attributePrintsBack = true := by decide +kernel

/-! src/attribute_type_tests.rs:704 `test_parse_attribute_mid` -/
example : [c%"mid:"].all (fun s => rejects (attrFromStr s)) = true := by decide +kernel
example : [c%"mid:sdparta_0", c%"mid:sdparta_0 sdparta_1 sdparta_2"].all attributePrintsBack = true := by decide +kernel

/-! src/attribute_type_tests.rs:715 `test_parse_attribute_msid` -/
example : [c%"msid:"].all (fun s => rejects (attrFromStr s)) = true := by decide +kernel
example : [c%"msid:{5a990edd-0568-ac40-8d97-310fc33f3411}", c%"msid:{5a990edd-0568-ac40-8d97-310fc33f3411} {218cfa1c-617d-2249-9997-60929ce4c405}"].all attributePrintsBack = true := by decide +kernel

/-! src/attribute_type_tests.rs:729 `test_parse_attribute_msid_semantics` -/
example : [c%"msid-semantic:"].all (fun s => rejects (attrFromStr s)) = true := by decide +kernel
example : [c%"msid-semantic:WMS *", c%"msid-semantic:WMS foo"].all attributePrintsBack = true := by decide +kernel

/-! src/attribute_type_tests.rs:741 `test_parse_attribute_ptime` -/
example : [c%"ptime:"].all (fun s => rejects (attrFromStr s)) = true := by decide +kernel
example : [c%"ptime:30"].all attributePrintsBack = true := by decide +kernel

/-! src/attribute_type_tests.rs:751 `test_anonymize_remote_candidate` -/
example : [c%"remote-candidates:0 10.0.0.1 5555"].all (fun s => accepts (attrFromStr s)) = true := by decide +kernel

/-! src/attribute_type_tests.rs:766 `test_parse_attribute_rid` -/
example : [c%"rid:110 send pt=9, 10;max-fs=10;UNKNOWN=100; depends=1, 2, 3", c%"rid:110 send max-fs=10", c%"rid:110 recv max-width=1920;max-height=1080"].all (fun s => accepts (attrFromStr s)) = true := by decide +kernel
example : [c%"rid:", c%"rid:120 send pt=", c%"rid:120 send pt=;max-width=10", c%"rid:120 send pt=9;max-width=", c%"rid:120 send pt=9;max-width=;max-width=10"].all (fun s => rejects (attrFromStr s)) = true := by decide +kernel
example : [c%"rid:foo send pt=10", c%"rid:110 send pt=9,10", c%"rid:110 send pt=9,10;max-fs=10", c%"rid:110 send pt=9,10;max-width=10;depends=1,2,3", c%"rid:110 recv max-mbps=420;max-cpb=3;max-dpb=3", c%"rid:110 recv scale-down-by=1.35;depends=1,2,3", c%"rid:110 recv max-width=10;depends=1,2,3", c%"rid:110 recv max-fs=10;UNKNOWN=100;depends=1,2,3"].all attributePrintsBack = true := by decide +kernel

/-! src/attribute_type_tests.rs:794 `test_parse_attribute_rid_and_verify` -/
example : [c%"rid:foo send", c%"rid:110 send pt=9", c%"rid:110 send pt=9,10;max-fs=10;UNKNOWN=100;depends=1,2,3", c%"rid:110 recv max-fps=42;max-fs=10;max-br=3;max-pps=1000"].all (fun s => accepts (attrFromStr s)) = true := by decide +kernel
example : [c%"rid:foo send", c%"rid:110 send pt=9", c%"rid:110 send pt=9,10;max-fs=10;UNKNOWN=100;depends=1,2,3", c%"rid:110 recv max-fps=42;max-fs=10;max-br=3;max-pps=1000"].all attributePrintsBack = true := by decide +kernel

/-! src/attribute_type_tests.rs:829 `test_parse_attribute_recvonly` -/
example : [c%"recvonly foobar"].all (fun s => rejects (attrFromStr s)) = true := by decide +kernel
example : [c%"recvonly"].all attributePrintsBack = true := by decide +kernel

/-! src/attribute_type_tests.rs:838 `test_parse_attribute_remote_candidate` -/
example : [c%"remote-candidates:abc 10.0.0.1 5555", c%"remote-candidates:0 10.0.0.1 70000", c%"remote-candidates:0 10.0.0.1", c%"remote-candidates:0", c%"remote-candidates:"].all (fun s => rejects (attrFromStr s)) = true := by decide +kernel
example : [c%"remote-candidates:0 10.0.0.1 5555", c%"remote-candidates:12345 ::1 5555"].all attributePrintsBack = true := by decide +kernel

/-! src/attribute_type_tests.rs:854 `test_parse_attribute_sendonly` -/
example : [c%"sendonly foobar"].all (fun s => rejects (attrFromStr s)) = true := by decide +kernel
example : [c%"sendonly"].all attributePrintsBack = true := by decide +kernel

/-! src/attribute_type_tests.rs:863 `test_parse_attribute_sendrecv` -/
example : [c%"sendrecv foobar"].all (fun s => rejects (attrFromStr s)) = true := by decide +kernel
example : [c%"sendrecv"].all attributePrintsBack = true := by decide +kernel

/-! src/attribute_type_tests.rs:872 `test_parse_attribute_setup` -/
example : [c%"setup:", c%"setup:foobar"].all (fun s => rejects (attrFromStr s)) = true := by decide +kernel
example : [c%"setup:active", c%"setup:passive", c%"setup:actpass", c%"setup:holdconn"].all attributePrintsBack = true := by decide +kernel

/-! src/attribute_type_tests.rs:887 `test_parse_attribute_rtcp` -/
example : [c%"rtcp:", c%"rtcp:70000", c%"rtcp:9 IN", c%"rtcp:9 IN IP4", c%"rtcp:9 IN IP4 ::1"].all (fun s => rejects (attrFromStr s)) = true := by decide +kernel
example : [c%"rtcp:5000", c%"rtcp:9 IN IP4 0.0.0.0", c%"rtcp:9 IN IP6 2001:db8::1"].all attributePrintsBack = true := by decide +kernel

/-! src/attribute_type_tests.rs:904 `test_parse_attribute_rtcp_fb` -/
example : [c%"rtcp-fb:101 unknown", c%"rtcp-fb:101 ack", c%"rtcp-fb:101 ccm unknwon", c%"rtcp-fb:101 nack unknown", c%"rtcp-fb:101 trr-int", c%"rtcp-fb:101 trr-int a", c%"rtcp-fb:101 goog-remb unknown", c%"rtcp-fb:101 transport-cc unknown"].all (fun s => rejects (attrFromStr s)) = true := by decide +kernel
example : [c%"rtcp-fb:101 ack rpsi", c%"rtcp-fb:101 ack app", c%"rtcp-fb:101 ccm", c%"rtcp-fb:101 ccm fir", c%"rtcp-fb:101 ccm tmmbr", c%"rtcp-fb:101 ccm tstr", c%"rtcp-fb:101 ccm vbcm", c%"rtcp-fb:101 nack", c%"rtcp-fb:101 nack sli", c%"rtcp-fb:101 nack pli", c%"rtcp-fb:101 nack rpsi", c%"rtcp-fb:101 nack app", c%"rtcp-fb:101 trr-int 1", c%"rtcp-fb:101 goog-remb", c%"rtcp-fb:101 transport-cc"].all attributePrintsBack = true := by decide +kernel

/-! src/attribute_type_tests.rs:936 `test_parse_attribute_rtcp_mux` -/
example : [c%"rtcp-mux foobar"].all (fun s => rejects (attrFromStr s)) = true := by decide +kernel
example : [c%"rtcp-mux"].all attributePrintsBack = true := by decide +kernel

/-! src/attribute_type_tests.rs:945 `test_parse_attribute_rtcp_mux_only` -/
example : [c%"rtcp-mux-only bar"].all (fun s => rejects (attrFromStr s)) = true := by decide +kernel
example : [c%"rtcp-mux-only"].all attributePrintsBack = true := by decide +kernel

/-! src/attribute_type_tests.rs:954 `test_parse_attribute_rtcp_rsize` -/
example : [c%"rtcp-rsize foobar"].all (fun s => rejects (attrFromStr s)) = true := by decide +kernel
example : [c%"rtcp-rsize"].all attributePrintsBack = true := by decide +kernel

/-! src/attribute_type_tests.rs:963 `test_parse_attribute_rtpmap` -/
example : [c%"rtpmap: ", c%"rtpmap:109 ", c%"rtpmap:109 opus", c%"rtpmap:128 opus/48000"].all (fun s => rejects (attrFromStr s)) = true := by decide +kernel
example : [c%"rtpmap:109 opus/48000", c%"rtpmap:109 opus/48000/2"].all attributePrintsBack = true := by decide +kernel

/-! src/attribute_type_tests.rs:978 `test_parse_attribute_sctpmap` -/
example : [c%"sctpmap:70000 webrtc-datachannel", c%"sctpmap:70000 webrtc-datachannel 256", c%"sctpmap:5000 unsupported 256", c%"sctpmap:5000 webrtc-datachannel 2a"].all (fun s => rejects (attrFromStr s)) = true := by decide +kernel
example : [c%"sctpmap:5000 webrtc-datachannel 256"].all attributePrintsBack = true := by decide +kernel

/-! src/attribute_type_tests.rs:992 `test_parse_attribute_sctp_port` -/
example : [c%"sctp-port:", c%"sctp-port:70000"].all (fun s => rejects (attrFromStr s)) = true := by decide +kernel
example : [c%"sctp-port:5000"].all attributePrintsBack = true := by decide +kernel

/-! src/attribute_type_tests.rs:1004 `test_parse_attribute_max_message_size` -/
example : [c%"max-message-size:", c%"max-message-size:abc"].all (fun s => rejects (attrFromStr s)) = true := by decide +kernel
example : [c%"max-message-size:1", c%"max-message-size:100000", c%"max-message-size:4294967297", c%"max-message-size:0"].all attributePrintsBack = true := by decide +kernel

/-! src/attribute_type_tests.rs:1019 `test_parse_attribute_simulcast` -/
example : [c%"simulcast: send rid=foo;bar"].all (fun s => accepts (attrFromStr s)) = true := by decide +kernel
example : [c%"simulcast:", c%"simulcast:send", c%"simulcast:foobar 1", c%"simulcast:send 1 foobar 2", c%"simulcast: send foo=8;10"].all (fun s => rejects (attrFromStr s)) = true := by decide +kernel
example : [c%"simulcast:send 1", c%"simulcast:recv test", c%"simulcast:recv ~test", c%"simulcast:recv test;foo", c%"simulcast:recv foo,bar", c%"simulcast:recv foo,bar;test", c%"simulcast:send 1;4,5 recv 6;7", c%"simulcast:send 1,2,3;~4,~5 recv 6;~7,~8"].all attributePrintsBack = true := by decide +kernel

/-! src/attribute_type_tests.rs:1044 `test_parse_attribute_ssrc` -/
example : [c%"ssrc:", c%"ssrc:foo"].all (fun s => rejects (attrFromStr s)) = true := by decide +kernel
example : [c%"ssrc:2655508255", c%"ssrc:2655508255 foo", c%"ssrc:2655508255 cname:{735484ea-4f6c-f74a-bd66-7425f8476c2e}", c%"ssrc:2082260239 msid:1d0cdb4e-5934-4f0f-9f88-40392cb60d31 315b086a-5cb6-4221-89de-caf0b038c79d"].all attributePrintsBack = true := by decide +kernel

/-! src/attribute_type_tests.rs:1059 `test_anonymize_attribute_ssrc` -/
example : [c%"ssrc:2655508255 cname:{735484ea-4f6c-f74a-bd66-7425f8476c2e}", c%"ssrc:2082260239 msid:1d0cdb4e-5934-4f0f-9f88-40392cb60d31 315b086a-5cb6-4221-89de-caf0b038c79d"].all (fun s => accepts (attrFromStr s)) = true := by decide +kernel

/-! src/attribute_type_tests.rs:1088 `test_parse_attribute_ssrc_group` -/
example : [c%"ssrc-group:FID 3156517279 2673335628"].all (fun s => accepts (attrFromStr s)) = true := by decide +kernel
example : [c%"ssrc-group:", c%"ssrc-group:BLAH", c%"ssrc-group:FID"].all (fun s => rejects (attrFromStr s)) = true := by decide +kernel

/-! src/attribute_type_tests.rs:1116 `test_parse_unknown_attribute` -/
example : [c%"unknown"].all (fun s => rejects (attrFromStr s)) = true := by decide +kernel

end Sdp.Conformance
