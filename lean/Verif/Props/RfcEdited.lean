import Verif.Spec.RfcEdited
import Verif.Props.RfcBuilt
import Verif.Props.History
import Verif.Props.Edit
/-!
# C116: descriptions of the RFCs that are read and edited follow the RFCs
-/

namespace Sdp

open Abnf

section
variable [Env]

/-- The value of a line fits. -/
private def Right : SdpType → Prop
  | .version n => n = 0
  | .origin o => o.Fits
  | .session s => Rfc.sessionName s
  | .connection c => c.Fits
  | .bandwidth b => b.Fits
  | .timing _ => True
  | .media m => m.Fits ∧ m.HasFormats
  | .attr a => a.Fits

private theorem line_right (H : Rfc.HostNames) {l : Str} (h : Rfc.anyLine l) (hp : ∀ a, l = c%"a=" ++ a → Rfc.knownAttribute a → Rfc.Lasting a)
    (hl : l.length < 2 ^ 31) {t : SdpType} (ht : LineDenotes l t) : Right t := by
  have hpar : parseSdpLine l 0 = .ok ⟨0, t, l⟩ := (C77_line hl).2 ⟨ht, rfl, rfl⟩
  have same {u : SdpType} (h : parseSdpLine l 0 = .ok ⟨0, u, l⟩) : u = t := by
    rw [hpar] at h
    simpa using h.symm
  obtain ⟨-, q, hq, h⟩ := h
  simp only [List.mem_cons, List.not_mem_nil, or_false] at hq
  rcases hq with rfl | rfl | rfl | rfl | rfl | rfl | rfl | rfl <;> obtain ⟨_, _, rfl, rfl, v, _, rfl, hv, rfl⟩ := h <;>
    simp only [List.append_nil] at hp same hpar
  · rw [← same (C107_version hv 0)]; rfl
  · obtain ⟨o, h, h1, h2⟩ := rfc_origin hv 0
    rw [← same h]; exact ⟨h1, typed_fits H h2⟩
  · rw [← same (C107_session_name hv 0)]; exact hv
  · obtain ⟨c, h, h1⟩ := rfc_connection hv 0
    rw [← same h]; exact connection_fits H h1
  · obtain ⟨b, h, h1⟩ := rfc_bandwidth hv 0
    rw [← same h]; exact h1
  · obtain ⟨t, h⟩ := C107_timing hv 0
    rw [← same h]; trivial
  · obtain ⟨m, h, h1⟩ := rfc_media hv 0
    rw [← same h]; exact media_fits h1
  · obtain ⟨r, hr, hv⟩ := hv
    simp only [List.mem_cons, List.not_mem_nil, or_false] at hr
    rcases hr with rfl | rfl
    · obtain ⟨h1, h2, h3, h4⟩ := hp v rfl hv
      obtain ⟨a, ha, h, -⟩ := C112_attribute H hv h1
      rw [← same (h 0)]
      exact C114_read_attribute H hv h1 h2 h3 ha (h4 a ha)
    · obtain ⟨m, h⟩ := C107_other_attribute hv 0
      rw [hpar] at h
      cases h

private theorem right_session {vs : List SdpLine} {r : Session} (hv : ∀ v ∈ vs, Right v.sdpType) (h : Describes vs r) :
    r.Fits ∧ ∀ m ∈ r.media, m.media.HasFormats := by
  obtain ⟨l0, l1, l2, rest, v, o, name, rfl, -, h0, h1, h2, -, -, rfl, -⟩ := h
  have p0 : Right l0.sdpType := hv _ (by simp)
  have p1 : Right l1.sdpType := hv _ (by simp)
  have p2 : Right l2.sdpType := hv _ (by simp)
  rw [h0] at p0
  rw [h1] at p1
  rw [h2] at p2
  have hv : ∀ v ∈ rest, Right v.sdpType := fun v h => hv v (by simp [h])
  have bands {ws : List SdpLine} (h : ∀ w ∈ ws, w ∈ rest) : ∀ b ∈ bandwidthsOf ws, b.Fits := by
    intro b hb
    obtain ⟨w, hw, e⟩ := List.mem_filterMap.1 hb
    have := hv w (h w hw)
    split at e <;> cases e
    rename_i e
    rwa [e] at this
  have conns {ws : List SdpLine} (h : ∀ w ∈ ws, w ∈ rest) : ∀ b ∈ connectionsOf ws, b.Fits := by
    intro b hb
    obtain ⟨w, hw, e⟩ := List.mem_filterMap.1 hb
    have := hv w (h w hw)
    split at e <;> cases e
    rename_i e
    rwa [e] at this
  have attrs {ws : List SdpLine} (h : ∀ w ∈ ws, w ∈ rest) : ∀ a ∈ attrsOf ws, a.Fits := by
    intro b hb
    obtain ⟨w, hw, e⟩ := List.mem_filterMap.1 hb
    have := hv w (h w hw)
    split at e <;> cases e
    rename_i e
    rwa [e] at this
  have part : ∀ w ∈ rest.takeWhile notMedia, w ∈ rest := fun w hw => (List.takeWhile_sublist _).subset hw
  have line {p : MediaLine × List SdpLine} (hp : p ∈ sectionsOf rest) : p.1.Fits ∧ p.1.HasFormats := by
    obtain ⟨⟨w, hw, e⟩, -⟩ := sections_values hp
    have := hv w hw
    rwa [e] at this
  refine ⟨⟨p0, p1, fun t ht => ?_, bands part, fun c hc => conns part c (List.mem_of_getLast? hc), attrs part, fun m hm => ?_⟩,
    fun m hm => ?_⟩
  · simp only [assemble] at ht
    split at ht
    · cases ht
    · rename_i hb
      cases ht
      refine rep_char.2 ⟨?_, fun c hc => (rep_char.1 p2).2 c (trim_sub hc)⟩
      exact List.length_pos_of_ne_nil fun e => hb (trim_eq_nil.1 e)
  · obtain ⟨p, hp, rfl⟩ := List.mem_map.1 hm
    obtain ⟨-, hin⟩ := sections_values hp
    exact ⟨(line hp).1, bands hin, fun c hc => conns hin c (List.mem_of_head? hc), fun a ha => attrs hin a (List.mem_of_mem_filter ha)⟩
  · obtain ⟨p, hp, rfl⟩ := List.mem_map.1 hm
    exact (line hp).2

/-- **C116.** A session that was read from lines of the RFCs is, field by field, a description of the RFCs. -/
theorem C116_read (H : Rfc.HostNames) {ls : List Str} (h : ∀ l ∈ ls, Rfc.anyLine l)
    (hp : ∀ a, c%"a=" ++ a ∈ ls → Rfc.knownAttribute a → Rfc.Lasting a) (h2 : byteLen (crlf ls) < 2 ^ 31) {f : Bool} {r : Session}
    (hr : parseSdp (crlf ls) f = .ok r) : r.Fits ∧ r.described.Follows := by
  have hl : ∀ l ∈ ls, '\n' ∉ l := fun l hl hn => by
    have := (rep_char.1 (h l hl).1).2 _ hn
    simp at this
  have hlen : ∀ l ∈ ls, l.length < 2 ^ 31 := by
    intro l h
    rw [← lines_crlf_any hl] at h
    exact lines_short h2 l h
  obtain ⟨-, ls', vs, us, r0, ht, hrd, -, hd, e⟩ := (C79_accepts h2 (f := f) (r := r)).1 ⟨r.warnings, hr⟩
  obtain rfl : ls' = ls := (textLines_iff.1 ht).trans (lines_crlf_any hl)
  obtain ⟨h3, h4⟩ := right_session (r := r0) (fun v hv => by
    obtain ⟨l, hl', hd⟩ := reading_values hrd v hv
    exact line_right H (h l hl') (fun a e => hp a (e ▸ hl')) (hlen l hl') hd) hd
  have same : r = { r0 with warnings := r.warnings } := by
    cases r
    cases r0
    simp only [Session.mk.injEq] at e ⊢
    simp [e]
  have hf : r.Fits := by
    rw [same]
    exact ⟨h3.version, h3.origin, h3.name, h3.bandwidth, h3.connection, h3.attrs, h3.media⟩
  refine ⟨hf, (C114_follows hf).2 ⟨?_, ?_⟩⟩
  · obtain ⟨t, ht⟩ := (C03_version_and_timing hr).2
    rw [ht]; simp
  · rw [same]; exact h4

private theorem timing_build {s : Session} (h : s.timing ≠ none) (op : BuildOp) : (s.build op).timing ≠ none := by
  cases op with
  | inSection i op => exact h
  | session op =>
    have := (C93_session s [op]).2.2.2.2.2.1
    intro e
    rw [show (s.build (.session op)).timing = _ from this] at e
    simp at e
    exact h e.2

/-- **C116.** Whatever calls are then made on it, with arguments that fit: all parts of it fit, it is a description of the RFCs exactly
if every section has a format, its text has the lines of this description, and it is the text of the description exactly if it has no
bandwidth and no connection of its own and no section has both. -/
theorem C116_edited (H : Rfc.HostNames) {ls : List Str} (h : ∀ l ∈ ls, Rfc.anyLine l)
    (hp : ∀ a, c%"a=" ++ a ∈ ls → Rfc.knownAttribute a → Rfc.Lasting a) (h2 : byteLen (crlf ls) < 2 ^ 31) {f : Bool} {r : Session}
    (hr : parseSdp (crlf ls) f = .ok r) {ops : List BuildOp} (hops : ∀ op ∈ ops, op.Fits) {s : Session}
    (hs : s = ops.foldl Session.build r) :
    s.Fits ∧ (s.described.Follows ↔ ∀ m ∈ s.media, m.media.HasFormats) ∧
      (s.described.Follows → (lines (showSession s)).Perm s.described.lines ∧
        (showSession s = s.described.text ↔
          s.bandwidth = [] ∧ s.connection = none ∧ ∀ m ∈ s.media, m.bandwidth = [] ∨ m.connection = none)) := by
  obtain ⟨hf, -⟩ := C116_read H h hp h2 hr
  have ht : r.timing ≠ none := by
    obtain ⟨t, ht⟩ := (C03_version_and_timing hr).2
    rw [ht]; simp
  have key : s.Fits ∧ s.timing ≠ none := by
    rw [hs]
    clear hs hr
    induction ops generalizing r with
    | nil => exact ⟨hf, ht⟩
    | cons op ops ih =>
      exact ih (fun o ho => hops o (by simp [ho])) (hf.build (hops op (by simp))) (timing_build ht op)
  have hd := C114_follows key.1
  refine ⟨key.1, ⟨fun h => (hd.1 h).2, fun h => hd.2 ⟨key.2, h⟩⟩, fun h => ?_⟩
  obtain ⟨h3, h4⟩ := hd.1 h
  exact ⟨C114_lines key.1 h3 h4, C114_text key.1 h3 h4⟩

/-- **C116.** The lines of what is written are lines of the RFCs again, so that what is written is read as a session again or refused
because of the order of its lines or the places of its attributes. -/
theorem C116_again (H : Rfc.HostNames) {ls : List Str} (h : ∀ l ∈ ls, Rfc.anyLine l)
    (hp : ∀ a, c%"a=" ++ a ∈ ls → Rfc.knownAttribute a → Rfc.Lasting a) (h2 : byteLen (crlf ls) < 2 ^ 31) {f : Bool} {r : Session}
    (hr : parseSdp (crlf ls) f = .ok r) {ops : List BuildOp} (hops : ∀ op ∈ ops, op.Fits) {s : Session}
    (hs : s = ops.foldl Session.build r) (hm : ∀ m ∈ s.media, m.media.HasFormats) :
    ∃ ls', showSession s = crlf ls' ∧ (∀ l ∈ ls', Rfc.anyLine l) ∧
      (51 ≤ byteLen (showSession s) → byteLen (showSession s) < 2 ^ 31 →
        (∃ q, parseSdp (showSession s) false = .ok q) ∨ ∃ m n, parseSdp (showSession s) false = .err (.sequence m n)) := by
  obtain ⟨hf, h3, -⟩ := C116_edited H h hp h2 hr hops hs
  have all : ∀ l ∈ s.lines, Rfc.anyLine l := fun l hl => follows_anyLine (h3.2 hm) l ((described_perm hf).subset hl)
  rw [showSession_lines]
  exact ⟨s.lines, rfl, all, fun h1 h2 => C108_any_order all h1 h2⟩

end

/-! ## Concrete cases -/

section Examples
attribute [local instance] sampleEnv

/-- Calls that put a codec, a label and a timing into the example of C108 and add a section. -/
def rfcEdits : List BuildOp :=
  [.inSection 1 (.addCodec ⟨100, c%"VP8", 90000, none⟩), .inSection 0 (.setAttribute (.label c%"x")), .session (.setTiming ⟨5, 6⟩),
   .session (.addMedia .audio .sendrecv 9 .rtpAvp (.ip (.v4 0))), .inSection 2 (.addCodec ⟨0, c%"PCMU", 8000, none⟩)]

/-- The hypotheses of C116, with two sections, rid and simulcast (`HostNames` is shown for this host parser beside C111). -/
example : (∀ l ∈ rfcExample.lines, Rfc.anyLine l) ∧ (∀ a, c%"a=" ++ a ∈ rfcExample.lines → Rfc.knownAttribute a → Rfc.Lasting a) ∧
    byteLen (crlf rfcExample.lines) < 2 ^ 31 ∧ (parseSdp (crlf rfcExample.lines) false).isOk = true ∧ ∀ op ∈ rfcEdits, op.Fits := by
  refine ⟨follows_anyLine rfcExample_follows.1, ?_, rfcExample_follows.2.2.2, by decide +kernel, ?_⟩
  · intro a ha _
    have key : ∀ l ∈ rfcExample.lines, l.take 6 ≠ c%"a=ssrc" ∧ l.take 6 ≠ c%"a=fmtp" ∧ l.take 11 ≠ c%"a=framerate" ∧
        l.take 11 ≠ c%"a=imageattr" ∧ (match attrFromStr (l.drop 2) with | .ok x => !(showAttribute x).isEmpty | _ => true) = true := by decide +kernel
    obtain ⟨h1, h2, h3, h4, h5⟩ := key _ ha
    refine ⟨⟨?_, ?_⟩, ?_, ?_, fun x hx => ?_⟩
    · rintro v rfl; exact absurd rfl h1
    · rintro v rfl; exact absurd rfl h2
    · rintro (rfl | ⟨v, rfl⟩) <;> exact absurd rfl h3
    · rintro (rfl | ⟨v, rfl⟩) <;> exact absurd rfl h4
    · have e : (c%"a=" ++ a).drop 2 = a := rfl
      rw [e, hx] at h5
      simpa using h5
  · have tok {t : Str} (h : 1 ≤ t.length ∧ ∀ c ∈ t, Rfc.isTokenChar c = true) : Rfc.token t := rep_char.2 h
    simp only [rfcEdits, List.forall_mem_cons, List.not_mem_nil, false_imp_iff, implies_true, and_true]
    exact ⟨⟨tok (by decide), by unfold FormatNumber; decide⟩, C114_attribute (a := .label _) (tok (by decide)), trivial,
      ⟨C114_attribute trivial, by decide, trivial⟩, tok (by decide), by unfold FormatNumber; decide⟩

/-- What is written. -/
example : (match parseSdp (crlf rfcExample.lines) false with
      | .ok r => lines (showSession (rfcEdits.foldl Session.build r))
      | _ => []) =
    [c%"v=0", c%"o=jdoe 3724394400 3724394405 IN IP4 198.51.100.1", c%"s=Call to John Smith", c%"t=5 6", c%"b=X-YZ:128",
     c%"c=IN IP4 198.51.100.1", c%"m=audio 49170 RTP/AVP 0", c%"a=mid:0", c%"a=rtcp-mux", c%"a=label:x",
     c%"m=video 51372 RTP/AVP 99 100", c%"c=IN IP6 2001:db8::2", c%"a=rtpmap:99 h263-1998/90000", c%"a=sendonly",
     c%"a=rid:hi send pt=99;max-width=1280", c%"a=simulcast:send ~hi", c%"a=rtpmap:100 VP8/90000",
     c%"m=audio 9/1 RTP/AVP 0", c%"c=IN IP4 0.0.0.0", c%"a=sendrecv", c%"a=rtpmap:0 PCMU/8000"] := by
  decide +kernel

end Examples

end Sdp
