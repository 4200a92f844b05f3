import Verif.Model.Example
import Verif.Props.Scan
import Verif.Props.Num
import Verif.Props.Panic
import Verif.Props.RoundTrip
import Verif.Lemmas.Clean
/-!
# C75: the example program, C76: constructors
-/

namespace Sdp

/-- A comment line of the example program: a semicolon, possibly after white space. -/
def Comment (l : Str) : Prop := ∃ w r, Blank w ∧ l = w ++ ';' :: r

theorem takeWhile_isWs : ∀ {l : Str} {c : Char}, c ∈ l.takeWhile isWs → isWs c = true
  | [], _, h => by simp at h
  | d :: l, c, h => by
    rw [List.takeWhile_cons] at h
    by_cases hd : isWs d = true
    · rw [if_pos hd] at h
      rcases List.mem_cons.1 h with rfl | h
      · exact hd
      · exact takeWhile_isWs h
    · rw [if_neg hd] at h; simp at h

theorem comment_iff {l : Str} : Comment l ↔ startsWithC ';' (trimStart l) = true := by
  constructor
  · rintro ⟨w, r, hw, rfl⟩
    have : trimStart (w ++ ';' :: r) = ';' :: r := by
      unfold trimStart
      rw [List.dropWhile_append_of_pos hw]
      rfl
    rw [this]; rfl
  · intro h
    refine ⟨l.takeWhile isWs, (trimStart l).tail, fun c hc => takeWhile_isWs hc, ?_⟩
    unfold startsWithC trimStart at h
    conv => lhs; rw [← List.takeWhile_append_dropWhile (p := isWs) (l := l)]
    congr 1
    unfold trimStart
    cases hd : l.dropWhile isWs with
    | nil => simp [hd] at h
    | cons c r => simp [hd] at h; simp [h]

instance (l : Str) : Decidable (Comment l) := decidable_of_iff _ comment_iff.symm

/-- The lines of a file that are no comments. -/
def uncommented (s : Str) : List Str := (lines s).filter fun l => decide (¬ Comment l)

theorem stripComments_eq (s : Str) : stripComments s = joinS c%"\r\n" (uncommented s) := by
  unfold stripComments uncommented
  congr 2
  funext l
  by_cases h : Comment l
  · simp [h, comment_iff.1 h]
  · have : startsWithC ';' (trimStart l) = false := by
      rw [← Bool.not_eq_true]; exact fun e => h (comment_iff.2 e)
    simp [h, this]

theorem lines_joined : ∀ {ls : List Str}, (∀ l ∈ ls, '\n' ∉ l) →
    (lines (joinS c%"\r\n" ls)).filter (fun l => decide (¬ Blank l)) = ls.filter fun l => decide (¬ Blank l)
  | [], _ => rfl
  | [l], h => by
    have hs : splitC '\n' l = [l] := splitC_of_not_mem (h l (by simp))
    unfold lines joinS
    rw [hs]
    cases l with
    | nil => rfl
    | cons c l => rfl
  | l :: m :: ls, h => by
    have ih := lines_joined (ls := m :: ls) fun x hx => h x (by simp [hx])
    have h1 : '\n' ∉ l ++ ['\r'] := by
      have := h l (by simp)
      simp [this]
    have h2 : splitC '\n' (joinS c%"\r\n" (l :: m :: ls)) = (l ++ ['\r']) :: splitC '\n' (joinS c%"\r\n" (m :: ls)) := by
      have : joinS c%"\r\n" (l :: m :: ls) = (l ++ ['\r']) ++ '\n' :: joinS c%"\r\n" (m :: ls) := by
        simp [joinS]
      rw [this, splitC_append h1]
    unfold lines at ih ⊢
    rw [h2, linesGo_cons (splitC_ne_nil _ _)]
    have h3 : stripCR (l ++ ['\r']) = l := by simp [stripCR, endsWithC]
    rw [h3]
    simp only [List.filter_cons] at ih ⊢
    rw [ih]

theorem not_mem_line {s l : Str} (h : l ∈ lines s) : '\n' ∉ l := by
  intro hc
  obtain ⟨u, hu, hs⟩ := linesGo_sub h
  exact splitC_not_mem hu (hs _ hc)

section
variable [Env]

/-- **C75.** What the exit code of the example program says. Without a flag it is 0 exactly if the
lines that are no comments, joined with CRLF, are accepted without warnings; with the flag it is 0
exactly if they are not. -/
theorem C75_exit_code {name s : Str} {args : List Str} {read : Str → FileRead} (hr : read name = .text s) :
    fileParser (name :: args) read = 0 ↔
      (args = [] ∧ ∃ r, parseSdp (joinS c%"\r\n" (uncommented s)) true = .ok r) ∨
      ∃ x more, args = x :: more ∧ lower x = c%"--expect-failure" ∧
        ¬ ∃ r, parseSdp (joinS c%"\r\n" (uncommented s)) true = .ok r := by
  unfold fileParser
  rw [← stripComments_eq]
  simp only [hr]
  rcases args with _ | ⟨x, more⟩
  · cases parseSdp (stripComments s) true <;> simp [panicCode]
  · by_cases hx : lower x = c%"--expect-failure"
    · cases parseSdp (stripComments s) true <;> simp [hx, panicCode]
    · simp [hx]

/-- **C75.** The other exit codes: 1 for wrong usage and for an unexpected success, 101 for unreadable
files and unexpected failures. -/
theorem C75_failures {args : List Str} {read : Str → FileRead} :
    (fileParser args read = 1 ↔ args = [] ∨ ∃ name s x more, args = name :: x :: more ∧ read name = .text s ∧
      (lower x = c%"--expect-failure" → ∃ r, parseSdp (joinS c%"\r\n" (uncommented s)) true = .ok r)) ∧
    (fileParser args read = 101 ↔ ∃ name more, args = name :: more ∧
      ((∀ s, read name ≠ .text s) ∨ more = [] ∧ ∃ s, read name = .text s ∧
        ¬ ∃ r, parseSdp (joinS c%"\r\n" (uncommented s)) true = .ok r)) := by
  unfold fileParser
  rcases args with _ | ⟨name, args⟩
  · simp
  cases hr : read name with
  | openError => simp [hr, panicCode]
  | readError => simp [hr, panicCode]
  | text s =>
    simp only [hr, ← stripComments_eq]
    rcases args with _ | ⟨x, more⟩
    · cases h : parseSdp (stripComments s) true <;> simp [hr, panicCode, h]
    · by_cases hx : lower x = c%"--expect-failure"
      · cases h : parseSdp (stripComments s) true <;> simp [hx, hr, h]
      · simp [hx, hr]

/-- **C75.** Comment lines, blank lines and line ends do not matter for the exit code, as long as 51
bytes are left. -/
theorem C75_comments {name s s' : Str} {args : List Str} {read read' : Str → FileRead} (hr : read name = .text s)
    (hr' : read' name = .text s')
    (hl : (uncommented s).filter (fun l => decide (¬ Blank l)) = (uncommented s').filter fun l => decide (¬ Blank l))
    (h : 51 ≤ byteLen (joinS c%"\r\n" (uncommented s))) (h' : 51 ≤ byteLen (joinS c%"\r\n" (uncommented s'))) :
    fileParser (name :: args) read = fileParser (name :: args) read' := by
  have key := C17_only_nonblank_lines_matter h h' (by
    rw [lines_joined, lines_joined, hl]
    · exact fun l hl => not_mem_line (List.mem_filter.1 hl).1
    · exact fun l hl => not_mem_line (List.mem_filter.1 hl).1) true
  unfold fileParser
  simp only [hr, hr', stripComments_eq]
  cases h1 : parseSdp (joinS c%"\r\n" (uncommented s)) true <;>
    cases h2 : parseSdp (joinS c%"\r\n" (uncommented s')) true <;>
    rw [h1, h2] at key <;> first | rfl | (simp [unnumbered] at key; done)

/-- **C75.** When a failure is expected and the text is not huge, code 0 means that the parser has
returned an error; it has not panicked. -/
theorem C75_real_failure {name s x : Str} {more : List Str} {read : Str → FileRead} (hr : read name = .text s)
    (h : fileParser (name :: x :: more) read = 0) (hs : byteLen (joinS c%"\r\n" (uncommented s)) < 2^31) :
    ∃ e, parseSdp (joinS c%"\r\n" (uncommented s)) true = .err e := by
  rcases (C75_exit_code hr).1 h with ⟨h, -⟩ | ⟨_, _, -, -, h⟩
  · simp at h
  · exact (C01_parse_sdp_never_panics _ true hs).resolve_left h

/-- **C76.** A candidate made with `new` prints the mandatory part of a candidate line, and nothing
more, and that line is read back as the same candidate. -/
theorem C76_candidate {foundation : Str} {component : UInt32} {transport : CandTransport} {priority : UInt64}
    {address : Address} {port : UInt32} {cType : CandType} (hf : Token foundation) (ha : address.WF)
    (hp : port.toNat ≤ 65535) (n : Nat) :
    let c := Candidate.new foundation component transport priority address port cType
    let text := c%"a=candidate:" ++ foundation ++ ' ' :: showNat component.toNat ++ ' ' :: showCandTransport transport ++
      ' ' :: showNat priority.toNat ++ ' ' :: showAddress address ++ ' ' :: showNat port.toNat ++ c%" typ " ++
      showCandType cType
    c%"a=" ++ showAttribute (.candidate c) = text ∧
      parseSdpLine text n = .ok ⟨n, .attr (.candidate c), text⟩ := by
  intro c text
  have ht : c%"a=" ++ showAttribute (.candidate c) = text := by
    have hs : showCandidate c = foundation ++ ' ' :: (showNat component.toNat ++ ' ' :: (showCandTransport transport ++
      ' ' :: (showNat priority.toNat ++ ' ' :: (showAddress address ++ ' ' :: (showNat port.toNat ++ c%" typ " ++
      showCandType cType))))) := by
      have h0 : showCandidate c = foundation ++ c%" " ++ showU32 component ++ c%" " ++ showCandTransport transport ++
          c%" " ++ showU64 priority ++ c%" " ++ showAddress address ++ c%" " ++ showU32 port ++ c%" typ " ++
          showCandType cType ++ [] ++ [] ++ [] ++ [] ++ [] ++ [] ++ [] := rfl
      rw [h0]
      unfold showU32 showU64
      generalize showNat component.toNat = a1
      generalize showNat priority.toNat = a2
      generalize showNat port.toNat = a3
      generalize showAddress address = a4
      generalize showCandType cType = a5
      generalize showCandTransport transport = a6
      simp
    have hn : (showCandidate c).isEmpty = false := by
      rw [hs]; cases foundation <;> rfl
    have ha : showAttribute (.candidate c) = c%"candidate:" ++ showCandidate c := by
      show attrToString .candidate (showCandidate c) = _
      unfold attrToString
      rw [hn]; rfl
    rw [ha, hs]
    simp only [text, List.append_assoc, List.cons_append, List.nil_append]
  have hw : (Attribute.candidate c).WF := show Candidate.WF c from
    ⟨hf, ha, hp, fun _ h => (nomatch h), fun _ h => (nomatch h), fun _ h => (nomatch h), fun _ h => (nomatch h)⟩
  have := C24_attribute_line (.candidate c) hw n
  rw [ht] at this
  exact ⟨ht, this⟩

/-- **C76.** A payload format made with `new` has no channel count in its text. -/
theorem C76_rtpmap {pt : UInt8} {codec : Str} {frequency : UInt32} (hp : pt.toNat ≤ 127)
    (hc : '/' ∉ codec ∧ ∀ c ∈ codec, isWs c = false) (n : Nat) :
    let text := c%"a=rtpmap:" ++ showNat pt.toNat ++ ' ' :: codec ++ '/' :: showNat frequency.toNat
    c%"a=" ++ showAttribute (.rtpmap (Rtpmap.new pt codec frequency)) = text ∧
      parseSdpLine text n = .ok ⟨n, .attr (.rtpmap (Rtpmap.new pt codec frequency)), text⟩ := by
  intro text
  have ht : c%"a=" ++ showAttribute (.rtpmap (Rtpmap.new pt codec frequency)) = text := by
    simp [text, showAttribute, attrToString, showRtpmap, Rtpmap.new, optStr, showU32, showU8,
      AttributeType.name]
  refine ⟨ht, ?_⟩
  rw [← ht]
  exact C24_attribute_line (.rtpmap _) (show Rtpmap.WF _ from ⟨hp, hc⟩) n

/-- **C76.** A source made with `new` is just its number. -/
theorem C76_ssrc (id : UInt32) (n : Nat) :
    let text := c%"a=ssrc:" ++ showNat id.toNat
    c%"a=" ++ showAttribute (.ssrc (Ssrc.new id)) = text ∧
      parseSdpLine text n = .ok ⟨n, .attr (.ssrc (Ssrc.new id)), text⟩ := by
  intro text
  have ht : c%"a=" ++ showAttribute (.ssrc (Ssrc.new id)) = text := by
    simp [text, showAttribute, attrToString, showSsrc, Ssrc.new, optStr, showU32, AttributeType.name, showNat_ne_nil]
  refine ⟨ht, ?_⟩
  rw [← ht]
  exact C24_attribute_line (.ssrc _) (show Ssrc.WF _ from ⟨by simp [Ssrc.new], by simp [Ssrc.new]⟩) n

/-- **C76.** A control port made with `new` is just its number. -/
theorem C76_rtcp (port : UInt16) (n : Nat) :
    let text := c%"a=rtcp:" ++ showNat port.toNat
    c%"a=" ++ showAttribute (.rtcp (Rtcp.new port)) = text ∧
      parseSdpLine text n = .ok ⟨n, .attr (.rtcp (Rtcp.new port)), text⟩ := by
  intro text
  have ht : c%"a=" ++ showAttribute (.rtcp (Rtcp.new port)) = text := by
    simp [text, showAttribute, attrToString, showRtcp, Rtcp.new, showU16, AttributeType.name, showNat_ne_nil]
  refine ⟨ht, ?_⟩
  rw [← ht]
  exact C24_attribute_line (.rtcp _) (by intro a ha; simp [Rtcp.new] at ha) n

/-- **C76.** An address made from a number has the type of its family, and its text is read back as it. -/
theorem C76_typed_address (a : IpAddr) :
    (TypedAddress.ofIp a).addressType = family a ∧ (TypedAddress.ofIp a).toAddress = .ip a ∧
      (∀ b, a = .v4 b → TypedAddress.ofV4 b = TypedAddress.ofIp a ∧ (TypedAddress.ofV4 b).addressType = .ipV4) ∧
      (∀ b, a = .v6 b → TypedAddress.ofV6 b = TypedAddress.ofIp a ∧ (TypedAddress.ofV6 b).addressType = .ipV6) ∧
      typedTryFrom (family a) (showIp a) = .ok (TypedAddress.ofIp a) := by
  refine ⟨rfl, rfl, ?_, ?_, C43_match_accepted a⟩
  · rintro b rfl; exact ⟨rfl, rfl⟩
  · rintro b rfl; exact ⟨rfl, rfl⟩

/-- **C76.** What `ip_address_to_string` gives for an address is what a `c=` line needs: the line is read as a connection
with this address, of its family, and no TTL or count. -/
theorem C76_ip_string (a : IpAddr) (n : Nat) :
    let text := c%"c=" ++ ipAddressToString a
    parseSdpLine text n = .ok ⟨n, .connection ⟨.ip a, none, none⟩, text⟩ ∧
      ipAddressToString a = c%"IN " ++ (match family a with | .ipV4 => c%"IP4" | .ipV6 => c%"IP6") ++ ' ' :: showIp a := by
  intro text
  have e : showConnection ⟨.ip a, none, none⟩ = ipAddressToString a := by
    cases a <;> simp [showConnection, showTyped, TypedAddress.addressType, ipAddressType, showAddressType, optStr,
      ipAddressToString, showIp]
  refine ⟨?_, by cases a <;> rfl⟩
  have := C25_connection_line ⟨.ip a, none, none⟩ (by first | trivial | exact ⟨trivial, by simp⟩) n
  rw [e] at this
  exact this

end

/-! ### Concrete cases -/

def commentedFile : Str :=
  c%"; a sample\nv=0\n  ; who\no=- 1 2 IN IP4 0.0.0.0\n\ns=-\nt=0 0\nc=IN IP4 224.0.0.1\nm=audio 9 RTP/SAVPF 0\n"

def plainFile : Str :=
  c%"v=0\r\no=- 1 2 IN IP4 0.0.0.0\r\ns=-\r\nt=0 0\r\nc=IN IP4 224.0.0.1\r\nm=audio 9 RTP/SAVPF 0\r\n;end"

def brokenFile : Str := c%"v=1\no=- 1 2 IN IP4 0.0.0.0\ns=-\nt=0 0\nc=IN IP4 224.0.0.1\nm=audio 9 RTP/SAVPF 0\n"

def sampleRead (n : Str) : FileRead :=
  if n = c%"a.sdp" then .text commentedFile else if n = c%"b.sdp" then .text plainFile
  else if n = c%"c.sdp" then .text brokenFile else .openError

section
attribute [local instance] sampleEnv

/-- A good file with comments, the same without, and a bad one. -/
example :
    fileParser [c%"a.sdp"] sampleRead = 0 ∧ fileParser [c%"b.sdp"] sampleRead = 0 ∧
    fileParser [c%"c.sdp"] sampleRead = 101 ∧ fileParser [c%"d.sdp"] sampleRead = 101 ∧
    fileParser [c%"a.sdp", c%"--expect-failure"] sampleRead = 1 ∧
    fileParser [c%"c.sdp", c%"--Expect-Failure"] sampleRead = 0 ∧ fileParser [c%"c.sdp", c%"-x"] sampleRead = 1 ∧
    fileParser [] sampleRead = 1 := by
  decide +kernel

example : uncommented commentedFile ≠ uncommented plainFile ∧
    (uncommented commentedFile).filter (fun l => decide (¬ Blank l)) =
      (uncommented plainFile).filter (fun l => decide (¬ Blank l)) ∧
    51 ≤ byteLen (joinS c%"\r\n" (uncommented commentedFile)) ∧
    51 ≤ byteLen (joinS c%"\r\n" (uncommented plainFile)) := by
  decide +kernel

example : Token c%"842163049" ∧ Address.WF (.ip (.v4 0x7f000001)) ∧
    showAttribute (.candidate (Candidate.new c%"842163049" 1 .udp 1677729535 (.ip (.v4 0x7f000001)) 9 .host)) =
      c%"candidate:842163049 1 UDP 1677729535 127.0.0.1 9 typ host" ∧
    showAttribute (.rtpmap (Rtpmap.new 111 c%"opus" 48000)) = c%"rtpmap:111 opus/48000" :=
  ⟨⟨by decide, by decide⟩, trivial, by decide +kernel, by decide +kernel⟩

example : ipAddressToString (.v4 0x7f000001) = c%"IN IP4 127.0.0.1" ∧ ipAddressToString (.v6 1) = c%"IN IP6 ::1" := by
  decide +kernel

end

end Sdp
