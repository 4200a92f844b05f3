import Verif.Lemmas.Rfc
import Verif.Lemmas.ReadsBack
import Verif.Props.Grammar2
import Verif.Props.Grammar4
import Verif.Props.Candidate
/-!
# C106: attributes that follow the standards are accepted

For each rule of Verif/Spec/Rfc.lean: a text of the rule is accepted and gives an attribute of its kind (which one, C49 and
C56 to C66 say exactly). At the end, texts the standards allow and the library rejects.
-/

namespace Sdp

open Abnf

private theorem each_mem {α β : Type} {R : α → β → Prop} {l : List α} {m : List β} (h : Each R l m) :
    ∀ a ∈ l, ∃ b, R a b := by
  induction l generalizing m with
  | nil => simp
  | cons a l ih =>
    cases m with
    | nil => exact h.elim
    | cons b m =>
      intro x hx
      rcases List.mem_cons.1 hx with rfl | hx
      · exact ⟨b, h.1⟩
      · exact ih h.2 x hx

theorem rfc_each_of {α β : Type} {R : α → β → Prop} {l : List α} (h : ∀ a ∈ l, ∃ b, R a b) : ∃ m, Each R l m := by
  induction l with
  | nil => exact ⟨[], trivial⟩
  | cons a l ih =>
    obtain ⟨b, hb⟩ := h a (by simp)
    obtain ⟨m, hm⟩ := ih fun a ha => h a (by simp [ha])
    exact ⟨b :: m, hb, hm⟩

private theorem each_len {α β : Type} {R : α → β → Prop} {l : List α} {m : List β} (h : Each R l m) : l.length = m.length := by
  induction l generalizing m with
  | nil => cases m with
    | nil => rfl
    | cons => exact h.elim
  | cons a l ih => cases m with
    | nil => exact h.elim
    | cons b m => simp [ih h.2]

theorem rfc_each_back {α β : Type} {R : α → β → Prop} {as : List α} {bs : List β} (h : Each R as bs) {b : β} (hb : b ∈ bs) :
    ∃ a ∈ as, R a b := by
  induction as generalizing bs with
  | nil => cases bs with
    | nil => cases hb
    | cons => exact h.elim
  | cons a as ih => cases bs with
    | nil => cases hb
    | cons c bs =>
      rcases List.mem_cons.1 hb with rfl | hb
      · exact ⟨a, by simp, h.1⟩
      · obtain ⟨x, hx, h⟩ := ih h.2 hb
        exact ⟨x, by simp [hx], h⟩

theorem rfc_each_mem {α β : Type} {R : α → β → Prop} {as : List α} {bs : List β} (h : Each R as bs) {a : α} (ha : a ∈ as) :
    ∃ b ∈ bs, R a b := by
  induction as generalizing bs with
  | nil => cases ha
  | cons x as ih => cases bs with
    | nil => exact h.elim
    | cons c bs =>
      rcases List.mem_cons.1 ha with rfl | ha
      · exact ⟨c, by simp, h.1⟩
      · obtain ⟨y, hy, h⟩ := ih h.2 ha
        exact ⟨y, by simp [hy], h⟩

theorem rfc_number_show {n max : Nat} (h : n ≤ max) : number max (showNat n) :=
  ⟨showNat_ne_nil n, fun _ hc => showNat_digits hc, by rwa [decValue_showNat]⟩

theorem rfc_seq_cons {a : Rule} {l : List Rule} {u v : Str} (h : a u) (h' : seq l v) : seq (a :: l) (u ++ v) := ⟨u, v, rfl, h, h'⟩

theorem rfc_seq_one {a : Rule} {u : Str} (h : a u) : seq [a] u := ⟨u, [], by simp, h, rfl⟩

def isIpChar (c : Char) : Prop := (0x2e ≤ c.toNat ∧ c.toNat ≤ 0x7a) ∧ c ≠ '/'

private theorem v4_chars {s : Str} {a : UInt32} (h : V4Text s a) : s ≠ [] ∧ ∀ c ∈ s, isIpChar c := by
  obtain ⟨w, x, y, z, -, -, -, -, rfl, -⟩ := h
  constructor
  · have := showNat_ne_nil w
    simp [joinS]
  · intro c hc
    rcases mem_joinS hc with h | ⟨t, ht, hc⟩
    · simp at h; subst h; exact ⟨by decide, by decide⟩
    · have dig (n : Nat) (h : c ∈ showNat n) : isIpChar c := by
        have := digit_nat (showNat_digits h)
        refine ⟨by omega, ?_⟩
        rintro rfl
        simp at this
      simp at ht
      rcases ht with rfl | rfl | rfl | rfl <;> exact dig _ hc

private theorem hex_chars {t : Str} {g : Nat} (h : HexGroup t g) : ∀ c ∈ t, isIpChar c := by
  intro c hc
  rcases h.2.2.1 c hc with h | ⟨h, h'⟩ | ⟨h, h'⟩
  · have := digit_nat h
    refine ⟨by omega, ?_⟩
    rintro rfl
    simp at this
  all_goals
    have h : _ ≤ c.toNat := h
    have h' : c.toNat ≤ _ := h'
    simp at h h'
    refine ⟨by omega, ?_⟩
    rintro rfl
    simp at h

private theorem groups_chars {s : Str} {gs : List Nat} (h : HexGroups s gs) : ∀ c ∈ s, isIpChar c := by
  obtain ⟨ts, rfl, h⟩ := h
  intro c hc
  rcases mem_joinS hc with h' | ⟨t, ht, hc⟩
  · simp at h'; subst h'; exact ⟨by decide, by decide⟩
  · obtain ⟨g, hg⟩ := each_mem h t ht
    exact hex_chars hg c hc

private theorem mixed_chars {s : Str} {gs : List Nat} (h : MixedGroups s gs) : ∀ c ∈ s, isIpChar c := by
  rcases h with h | ⟨ts, q, hs, a, rfl, h, hq, -⟩
  · exact groups_chars h
  · intro c hc
    rcases mem_joinS hc with h' | ⟨t, ht, hc⟩
    · simp at h'; subst h'; exact ⟨by decide, by decide⟩
    · rcases List.mem_append.1 ht with ht | ht
      · obtain ⟨g, hg⟩ := each_mem h t ht
        exact hex_chars hg c hc
      · rw [List.mem_singleton.1 ht] at hc
        exact (v4_chars hq).2 c hc

theorem rfc_ip_chars {s : Str} {a : IpAddr} (h : IpText s a) : s ≠ [] ∧ ∀ c ∈ s, isIpChar c := by
  cases a with
  | v4 a => exact v4_chars h
  | v6 a =>
    rcases h with ⟨gs, h, hl, -⟩ | ⟨l, r, gl, gr, rfl, h1, h2, -, -⟩
    · refine ⟨?_, mixed_chars h⟩
      rintro rfl
      rcases h with ⟨ts, e, h⟩ | ⟨ts, q, hs, a, e, -, hq, -⟩
      · cases ts with
        | nil => cases gs <;> simp_all [Each]
        | cons t ts =>
          cases gs with
          | nil => simp at hl
          | cons g gs =>
            have := h.1.1
            cases ts <;> simp [joinS] at e
            exact this e
      · have := (v4_chars hq).1
        rcases ts with _ | ⟨t, ts⟩
        · simp [joinS] at e; exact this e
        · rw [show t :: ts ++ [q] = t :: (ts ++ [q]) from rfl] at e
          cases ts <;> simp [joinS] at e
    · refine ⟨by simp, fun c hc => ?_⟩
      simp only [List.mem_append] at hc
      rcases hc with (hc | hc) | hc
      · exact groups_chars h1 c hc
      · simp at hc; subst hc; exact ⟨by decide, by decide⟩
      · exact mixed_chars h2 c hc

theorem rfc_ip_token {s : Str} {a : IpAddr} (h : IpText s a) : Token s :=
  ⟨(rfc_ip_chars h).1, fun c hc => vchar_ws (by have := ((rfc_ip_chars h).2 c hc).1; omega)⟩

theorem rfc_fqdn_token {s : Str} (h : Rfc.fqdn s) : Token s :=
  token_of_chars h (by omega) fun c hc => by
    simp only [Bool.or_eq_true, beq_iff_eq] at hc
    rcases hc with (h | rfl) | rfl
    · have := (alphaNumeric h).1; exact vchar_ws (by omega)
    · rfl
    · rfl

section
variable [Env]

/-- An address, where a host name was read from an FQDN. -/
def FromAddress (a : Address) : Prop := ∀ d, a = .fqdn d → ∃ s, Rfc.fqdn s ∧ Env.hostNA s = .domain d

theorem rfc_address_ok {s : Str} (h : Rfc.address s) : Token s ∧ ∃ a, AddressText s a ∧ FromAddress a := by
  obtain ⟨r, hr, h⟩ := h
  simp at hr
  rcases hr with rfl | rfl
  · obtain ⟨a, h⟩ := h
    exact ⟨rfc_ip_token h, .ip a, .inl ⟨a, h, rfl⟩, fun d h => by cases h⟩
  · obtain ⟨hf, d, hd⟩ := h
    refine ⟨rfc_fqdn_token hf, ?_⟩
    by_cases hi : ∃ ip, IpText s ip
    · obtain ⟨ip, hi⟩ := hi; exact ⟨.ip ip, .inl ⟨ip, hi, rfl⟩, fun d h => by cases h⟩
    · exact ⟨.fqdn d, .inr ⟨fun ip h => hi ⟨ip, h⟩, by rw [hd]⟩, fun d' h => by cases h; exact ⟨s, hf, hd⟩⟩

private theorem attr_at {pre : Str} (name : Str) (he : pre = name ++ [':']) (h1 : ':' ∉ name) (h2 : lower name = name) (v : Str) :
    AttrText (pre ++ v) name (trim v) := by
  have := attr_open h1 h2 v
  rw [he]
  simpa using this

theorem rfc_rtpmap {v : Str} (h : Rfc.rtpmap v) : ∃ r, attrFromStr (c%"rtpmap:" ++ v) = .ok (.rtpmap r) ∧
    r.payloadType.toNat ≤ 127 ∧ Rfc.token r.codecName := by
  obtain ⟨pt, _, rfl, hpt, _, _, rfl, rfl, name, _, rfl, hn, _, _, rfl, rfl, f, _, rfl, hf, o, _, rfl, ho, rfl⟩ := h
  obtain ⟨x, hx, hx'⟩ := number_u8 hpt (by omega)
  obtain ⟨y, hy, -⟩ := number_u32 hf (by omega)
  have htail : ∀ o, o = [] ∨ seq [exactly ['/'], number (2 ^ 32 - 1)] o → ∃ (ch : Option UInt32), Token (name ++ '/' :: (f ++ o)) ∧
      ((Fields '/' (name ++ '/' :: (f ++ o)) [name, f] ∧ ch = none) ∨
        ∃ c n, Fields '/' (name ++ '/' :: (f ++ o)) [name, f, c] ∧ ch = some n ∧ DecText c n.toNat) := by
    have hn1 := token_token hn
    have hf1 := number_token hf
    have n1 : '/' ∉ name := token_not_mem hn (by simp)
    have n2 : '/' ∉ f := number_not_mem hf (by decide)
    rintro o (rfl | ⟨_, _, rfl, rfl, c, _, rfl, hc, rfl⟩)
    · refine ⟨none, ⟨by simp, ?_⟩, .inl ⟨?_, rfl⟩⟩
      · intro c hc
        simp at hc
        rcases hc with hc | rfl | hc
        · exact hn1.2 c hc
        · rfl
        · exact hf1.2 c hc
      · rw [fields_iff, List.append_nil, splitC_append n1, splitC_of_not_mem n2]
    · obtain ⟨n, hn', -⟩ := number_u32 hc (by omega)
      have hc1 := number_token hc
      refine ⟨some n, ⟨by simp, ?_⟩, .inr ⟨c, n, ?_, rfl, hn'⟩⟩
      · intro d hd
        simp at hd
        rcases hd with hd | rfl | hd | rfl | hd
        · exact hn1.2 d hd
        · rfl
        · exact hf1.2 d hd
        · rfl
        · exact hc1.2 d hd
      · rw [fields_iff, splitC_append n1]
        simp only [List.cons_append, List.nil_append, List.append_nil]
        rw [splitC_append n2, splitC_of_not_mem (number_not_mem hc (by decide))]
  obtain ⟨ch, htok, hch⟩ := htail o ho
  refine ⟨⟨x, name, y, ch⟩, C57_rtpmap.2 ⟨_, attr_at c%"rtpmap" rfl (by decide) rfl _, pt, name ++ '/' :: (f ++ o), [], ?_, hx, hx', ?_⟩, hx', hn⟩
  · rw [words_iff, splitWs_trim]
    simp only [List.cons_append, List.nil_append, List.append_nil]
    rw [splitWs_token (number_token hpt), splitWs_last htok]
  · rcases hch with ⟨h, rfl⟩ | ⟨c, n, h, rfl, hc⟩
    · exact .inl ⟨f, h, hy, rfl⟩
    · exact .inr ⟨f, c, [], n, h, hy, rfl, hc⟩

/-- **C106.** `rtpmap` (RFC 8866, 6.6). -/
theorem C106_rtpmap {v : Str} (h : Rfc.rtpmap v) : ∃ r, attrFromStr (c%"rtpmap:" ++ v) = .ok (.rtpmap r) :=
  let ⟨r, h, _⟩ := rfc_rtpmap h; ⟨r, h⟩

/-- **C106.** `ice-ufrag`, `ice-pwd` and `ice-pacing` (RFC 8839, 5.4 and 5.5), `mid` (RFC 5888, 4) and `label` (RFC 4574, 4). -/
theorem C106_words {v : Str} :
    (Rfc.iceUfrag v → attrFromStr (c%"ice-ufrag:" ++ v) = .ok (.iceUfrag v)) ∧
    (Rfc.icePwd v → attrFromStr (c%"ice-pwd:" ++ v) = .ok (.icePwd v)) ∧
    (Rfc.mid v → attrFromStr (c%"mid:" ++ v) = .ok (.mid v)) ∧
    (Rfc.label v → attrFromStr (c%"label:" ++ v) = .ok (.label v)) := by
  have key {name : Str} (h1 : ':' ∉ name) (h2 : lower name = name) (h : Token v) : AttrText (name ++ ':' :: v) name v ∧ v ≠ [] := by
    have := attr_open h1 h2 v
    rw [trim_noWs h.2] at this
    exact ⟨this, h.1⟩
  have ice {lo hi : Nat} (hlo : 0 < lo) (h : reps lo hi (char Rfc.isIceChar) v) : Token v :=
    token_of_chars (reps_rep h) hlo fun _ => iceChar
  refine ⟨fun h => ?_, fun h => ?_, fun h => ?_, fun h => ?_⟩
  · exact C56_texts.2.1.2 (key (name := c%"ice-ufrag") (by decide) rfl (ice (by omega) h))
  · exact C56_texts.1.2 (key (name := c%"ice-pwd") (by decide) rfl (ice (by omega) h))
  · exact C56_texts.2.2.2.2.2 (key (name := c%"mid") (by decide) rfl (token_token h))
  · exact C56_texts.2.2.2.1.2 (key (name := c%"label") (by decide) rfl (token_token h))

private theorem open_token {name v : Str} (h1 : ':' ∉ name) (h2 : lower name = name) (h : Token v) :
    AttrText (name ++ ':' :: v) name v := by
  have := attr_open h1 h2 v
  rwa [trim_noWs h.2] at this

theorem rfc_numbers {v : Str} :
    (Rfc.icePacing v → ∃ n, attrFromStr (c%"ice-pacing:" ++ v) = .ok (.icePacing n) ∧ n.toNat < 10 ^ 10) ∧
    (Rfc.ptime v → ∃ n, attrFromStr (c%"ptime:" ++ v) = .ok (.ptime n)) ∧
    (Rfc.ptime v → ∃ n, attrFromStr (c%"maxptime:" ++ v) = .ok (.maxPtime n)) ∧
    (Rfc.sctpPort v → ∃ n, attrFromStr (c%"sctp-port:" ++ v) = .ok (.sctpPort n) ∧ n.toNat ≤ 65535) ∧
    (Rfc.maxMessageSize v → ∃ n, attrFromStr (c%"max-message-size:" ++ v) = .ok (.maxMessageSize n)) := by
  refine ⟨fun h => ?_, fun h => ?_, fun h => ?_, fun h => ?_, fun h => ?_⟩
  · obtain ⟨h1, h2, h3⟩ := reps_char h
    have hv : decValue v < 10 ^ v.length := by
      clear h h1 h2
      induction v using List.reverseRecOn with
      | nil => simp [decValue]
      | append_singleton v c ih =>
        have ih := ih fun c hc => h3 c (by simp [hc])
        have hc := digit_nat (h3 c (by simp))
        simp only [decValue, List.foldl_append, List.foldl_cons, List.foldl_nil, List.length_append, List.length_singleton,
          Nat.pow_succ] at ih ⊢
        have h0 : '0'.toNat = 48 := rfl
        omega
    have hle : 10 ^ v.length ≤ 10 ^ 10 := Nat.pow_le_pow_right (by omega) h2
    have hn : number (10 ^ 10 - 1) v := ⟨by rintro rfl; simp at h1, h3, by omega⟩
    obtain ⟨x, hx, hx'⟩ := number_u64 hn (by omega)
    exact ⟨x, C56_numbers.2.2.2.1.2 ⟨v, open_token (name := c%"ice-pacing") (by decide) rfl (number_token hn), hx, by omega⟩,
      by omega⟩
  · obtain ⟨x, hx, -⟩ := number_u64 h (by omega)
    exact ⟨x, C56_numbers.2.2.1.2 ⟨v, open_token (name := c%"ptime") (by decide) rfl (number_token h), hx⟩⟩
  · obtain ⟨x, hx, -⟩ := number_u64 h (by omega)
    exact ⟨x, C56_numbers.2.1.2 ⟨v, open_token (name := c%"maxptime") (by decide) rfl (number_token h), hx⟩⟩
  · obtain ⟨x, hx, hx'⟩ := number_u64 h (by omega)
    exact ⟨x, C56_numbers.2.2.2.2.2 ⟨v, open_token (name := c%"sctp-port") (by decide) rfl (number_token h), hx, hx'⟩, hx'⟩
  · obtain ⟨x, hx, -⟩ := number_u64 h (by omega)
    exact ⟨x, C56_numbers.1.2 ⟨v, open_token (name := c%"max-message-size") (by decide) rfl (number_token h), hx⟩⟩

/-- **C106.** `ice-pacing` (RFC 8839, 5.5), `ptime` and `maxptime` (RFC 8866, 6.4 and 6.5), `sctp-port` and `max-message-size`
(RFC 8841, 5 and 6). -/
theorem C106_numbers {v : Str} :
    (Rfc.icePacing v → ∃ n, attrFromStr (c%"ice-pacing:" ++ v) = .ok (.icePacing n)) ∧
    (Rfc.ptime v → ∃ n, attrFromStr (c%"ptime:" ++ v) = .ok (.ptime n)) ∧
    (Rfc.ptime v → ∃ n, attrFromStr (c%"maxptime:" ++ v) = .ok (.maxPtime n)) ∧
    (Rfc.sctpPort v → ∃ n, attrFromStr (c%"sctp-port:" ++ v) = .ok (.sctpPort n)) ∧
    (Rfc.maxMessageSize v → ∃ n, attrFromStr (c%"max-message-size:" ++ v) = .ok (.maxMessageSize n)) :=
  ⟨fun h => let ⟨n, h, _⟩ := rfc_numbers.1 h; ⟨n, h⟩, rfc_numbers.2.1, rfc_numbers.2.2.1,
    fun h => let ⟨n, h, _⟩ := rfc_numbers.2.2.2.1 h; ⟨n, h⟩, rfc_numbers.2.2.2.2⟩

/-- **C106.** `ice-options` (RFC 8839, 5.6): the tags are those of the text. -/
theorem C106_ice_options {v : Str} (h : Rfc.iceOptions v) : ∃ l, attrFromStr (c%"ice-options:" ++ v) = .ok (.iceOptions l) ∧
    v = joinS c%" " l := by
  obtain ⟨a, _, rfl, ha, b, _, rfl, hb, rfl⟩ := h
  have tok {s : Str} (h : rep 1 (char Rfc.isIceChar) s) : Token s := token_of_chars h (by omega) fun _ => iceChar
  obtain ⟨ws, -, hw, rfl⟩ := rep_sep hb
  refine ⟨a :: ws, C56_ice_options.2 ⟨_, attr_at c%"ice-options" rfl (by decide) rfl _, ?_, by simp⟩, ?_⟩
  · rw [words_iff, splitWs_trim, List.append_nil, splitWs_words (tok ha) fun w h => tok (hw w h)]
  · rw [List.append_nil, joinS_words]

/-- **C106.** `setup` (RFC 4145, 4). -/
theorem C106_setup {v : Str} (h : Rfc.setup v) : ∃ x, attrFromStr (c%"setup:" ++ v) = .ok (.setup x) := by
  obtain ⟨r, hr, h⟩ := h
  simp only [List.mem_cons, List.not_mem_nil, or_false] at hr
  rcases hr with rfl | rfl | rfl | rfl
  · exact ⟨.active, C56_setup.2 ⟨v, open_token (name := c%"setup") (by decide) rfl (word_token (by decide) (by decide) h),
      lower_word (by decide) h⟩⟩
  · exact ⟨.passive, C56_setup.2 ⟨v, open_token (name := c%"setup") (by decide) rfl (word_token (by decide) (by decide) h),
      lower_word (by decide) h⟩⟩
  · exact ⟨.actpass, C56_setup.2 ⟨v, open_token (name := c%"setup") (by decide) rfl (word_token (by decide) (by decide) h),
      lower_word (by decide) h⟩⟩
  · exact ⟨.holdconn, C56_setup.2 ⟨v, open_token (name := c%"setup") (by decide) rfl (word_token (by decide) (by decide) h),
      lower_word (by decide) h⟩⟩

theorem rfc_group {v : Str} (h : Rfc.group v) : ∃ g, attrFromStr (c%"group:" ++ v) = .ok (.group g) ∧
    ∀ t ∈ g.tags, Rfc.token t := by
  obtain ⟨a, _, rfl, ⟨r, hr, ha⟩, b, _, rfl, hb, rfl⟩ := h
  obtain ⟨ws, -, hw, rfl⟩ := rep_sep hb
  have key : ∃ g, Token a ∧ upper a = groupText g := by
    simp only [List.mem_cons, List.not_mem_nil, or_false] at hr
    rcases hr with rfl | rfl | rfl | rfl | rfl | rfl | rfl
    · exact ⟨.lipSynchronization, word_token (by decide) (by decide) ha, upper_word (by decide) ha⟩
    · exact ⟨.flowIdentification, word_token (by decide) (by decide) ha, upper_word (by decide) ha⟩
    · exact ⟨.singleReservationFlow, word_token (by decide) (by decide) ha, upper_word (by decide) ha⟩
    · exact ⟨.alternateNetworkAddressType, word_token (by decide) (by decide) ha, upper_word (by decide) ha⟩
    · exact ⟨.forwardErrorCorrection, word_token (by decide) (by decide) ha, upper_word (by decide) ha⟩
    · exact ⟨.decodingDependency, word_token (by decide) (by decide) ha, upper_word (by decide) ha⟩
    · exact ⟨.bundle, word_token (by decide) (by decide) ha, upper_word (by decide) ha⟩
  obtain ⟨g, ht, hg⟩ := key
  refine ⟨⟨g, ws⟩, C59_group.2 ⟨_, attr_at c%"group" rfl (by decide) rfl _, a, ?_, hg⟩, hw⟩
  rw [words_iff, splitWs_trim, List.append_nil, splitWs_words ht fun w h => token_token (hw w h)]

/-- **C106.** `group` (RFC 5888, 5). -/
theorem C106_group {v : Str} (h : Rfc.group v) : ∃ g, attrFromStr (c%"group:" ++ v) = .ok (.group g) :=
  let ⟨g, h, _⟩ := rfc_group h; ⟨g, h⟩

theorem rfc_ssrc_group {v : Str} (h : Rfc.ssrcGroup v) :
    ∃ g l, attrFromStr (c%"ssrc-group:" ++ v) = .ok (.ssrcGroup g l) ∧ l ≠ [] ∧ ∀ s ∈ l, s.attr = none ∧ s.value = none := by
  obtain ⟨a, _, rfl, ⟨r, hr, ha⟩, b, _, rfl, hb, rfl⟩ := h
  obtain ⟨ws, hlen, hw, rfl⟩ := rep_sep hb
  have key : ∃ g, Token a ∧ upper a = ssrcGroupText g := by
    simp only [List.mem_cons, List.not_mem_nil, or_false] at hr
    rcases hr with rfl | rfl | rfl | rfl | rfl
    · exact ⟨.forwardErrorCorrection, word_token (by decide) (by decide) ha, upper_word (by decide) ha⟩
    · exact ⟨.flowIdentification, word_token (by decide) (by decide) ha, upper_word (by decide) ha⟩
    · exact ⟨.forwardErrorCorrectionFr, word_token (by decide) (by decide) ha, upper_word (by decide) ha⟩
    · exact ⟨.duplication, word_token (by decide) (by decide) ha, upper_word (by decide) ha⟩
    · exact ⟨.sim, word_token (by decide) (by decide) ha, upper_word (by decide) ha⟩
  obtain ⟨g, ht, hg⟩ := key
  obtain ⟨l, hl⟩ := rfc_each_of (R := fun t (s : Ssrc) => DecText t s.id.toNat ∧ s.attr = none ∧ s.value = none) (l := ws) fun w h => by
    obtain ⟨x, hx, -⟩ := number_u32 (hw w h) (by omega)
    exact ⟨⟨x, none, none⟩, hx, rfl, rfl⟩
  refine ⟨g, l, C58_ssrc_group.2 ⟨_, attr_at c%"ssrc-group" rfl (by decide) rfl _, a, ws, ?_, hg, ?_, hl⟩, ?_, ?_⟩
  · rw [words_iff, splitWs_trim, List.append_nil, splitWs_words ht fun w h => number_token (hw w h)]
  · rintro rfl; simp at hlen
  · rintro rfl
    cases ws with
    | nil => simp at hlen
    | cons => exact hl.elim
  · intro s hs
    obtain ⟨_, -, h⟩ := rfc_each_back hl hs
    exact h.2

/-- **C106.** `ssrc-group` (RFC 5576, 4.2). -/
theorem C106_ssrc_group {v : Str} (h : Rfc.ssrcGroup v) : ∃ g l, attrFromStr (c%"ssrc-group:" ++ v) = .ok (.ssrcGroup g l) :=
  let ⟨g, l, h, _⟩ := rfc_ssrc_group h; ⟨g, l, h⟩

theorem rfc_msid {v : Str} (h : Rfc.msid v) : ∃ m, attrFromStr (c%"msid:" ++ v) = .ok (.msid m) ∧ Rfc.msid (showMsid m) := by
  have h0 := h
  obtain ⟨a, _, rfl, ha, o, _, rfl, ho, rfl⟩ := h
  have tok {s : Str} (h : reps 1 64 (char Rfc.isTokenChar) s) : Token s := token_token (reps_rep h)
  rcases ho with rfl | ⟨_, _, rfl, rfl, b, _, rfl, hb, rfl⟩
  · refine ⟨⟨a, none⟩, C59_msid.2 ⟨_, attr_at c%"msid" rfl (by decide) rfl _, .inl ⟨?_, rfl⟩⟩, by simpa [showMsid, optStr] using h0⟩
    rw [words_iff, splitWs_trim, List.append_nil, List.append_nil, splitWs_last (tok ha)]
  · refine ⟨⟨a, some b⟩, C59_msid.2 ⟨_, attr_at c%"msid" rfl (by decide) rfl _, .inr ⟨b, [], ?_, rfl⟩⟩,
      by simpa [showMsid, optStr] using h0⟩
    rw [words_iff, splitWs_trim]
    simp only [List.cons_append, List.nil_append, List.append_nil]
    rw [splitWs_token (tok ha), splitWs_last (tok hb)]

/-- **C106.** `msid` (RFC 8830, 2). -/
theorem C106_msid {v : Str} (h : Rfc.msid v) : ∃ m, attrFromStr (c%"msid:" ++ v) = .ok (.msid m) :=
  let ⟨m, h, _⟩ := rfc_msid h; ⟨m, h⟩

omit [Env] in
theorem rfc_trim_after {p b : Str} (h : Trimmed p) : trim (p ++ b) = p ++ trimEnd b := by
  obtain ⟨⟨c, r, hp, hc⟩, r', d, hp', hd⟩ := h
  unfold trim
  rw [trimStart_begins ⟨c, r ++ b, by rw [hp]; rfl, hc⟩, hp', List.append_assoc, List.singleton_append,
    trimEnd_append (w := d :: b) (fun hb => by rw [hb d (by simp)] at hd; cases hd), trimEnd_cons hd]
  simp

omit [Env] in
theorem rfc_trimmed_between {a b : Str} (ha : Token a) (hb : Token b) (m : Str) : Trimmed (a ++ m ++ b) := by
  obtain ⟨c, r, rfl, hc⟩ := ha.begins
  obtain ⟨r', d, rfl, hd⟩ := hb.ends
  exact ⟨⟨c, _, rfl, hc⟩, c :: r ++ m ++ r', d, by simp, hd⟩

theorem rfc_ssrc {v : Str} (h : Rfc.ssrc v) : ∃ s, attrFromStr (c%"ssrc:" ++ v) = .ok (.ssrc s) ∧
    ∃ a, s.attr = some a ∧ Rfc.token a ∧ ∀ b, s.value = some b →
      ∃ p w, v = p ++ ':' :: (b ++ w) ∧ ':' ∉ p ∧ Blank w ∧ ∀ c ∈ b, c.toNat ≠ 0 ∧ c.toNat ≠ 0x0a ∧ c.toNat ≠ 0x0d := by
  obtain ⟨i, _, rfl, hi, _, _, rfl, rfl, a, _, rfl, ⟨r, hr, ha⟩, rfl⟩ := h
  obtain ⟨x, hx, -⟩ := number_u32 hi (by omega)
  simp only [List.mem_cons, List.not_mem_nil, or_false] at hr
  rcases hr with rfl | rfl
  · obtain ⟨n, _, rfl, hn, _, _, rfl, rfl, b, _, rfl, hb, rfl⟩ := ha
    simp only [List.append_nil, List.cons_append, List.nil_append]
    have e : trim (i ++ ' ' :: (n ++ ':' :: b)) = i ++ ' ' :: (n ++ ':' :: trimEnd b) := by
      have h1 : Trimmed (i ++ ' ' :: n ++ [':']) := rfc_trimmed_between (number_token hi) ⟨by simp, by simp; rfl⟩ _
      have := rfc_trim_after (b := b) h1
      simpa using this
    refine ⟨⟨x, some n, some (trimEnd b)⟩, C58_ssrc.2 ⟨_, attr_at c%"ssrc" rfl (by decide) rfl (i ++ ' ' :: (n ++ ':' :: b)), ?_⟩,
      n, rfl, hn, ?_⟩
    · rw [e]
      exact .inr ⟨i, _, rfl, hx, .inr ⟨n, _, rfl, token_not_mem hn (by decide), rfl, rfl⟩⟩
    · rintro b' hb'
      cases hb'
      obtain ⟨w, hw, h⟩ := trimEnd_spec b
      refine ⟨i ++ ' ' :: n, w, by rw [← h]; simp, ?_, hw, fun c hc => ?_⟩
      · have h1 : ':' ∉ n := token_not_mem hn (by decide)
        have h2 : ':' ∉ i := number_not_mem hi rfl
        simp [h1, h2]
      · have := (rep_char.1 hb).2 c (by rw [h]; simp [hc])
        simpa [and_assoc] using this
  · simp only [List.append_nil, List.cons_append, List.nil_append]
    have e : trim (i ++ ' ' :: a) = i ++ ' ' :: a := by
      have := (rfc_trimmed_between (number_token hi) (token_token ha) [' ']).trim
      simpa using this
    refine ⟨⟨x, some a, none⟩, C58_ssrc.2 ⟨_, attr_at c%"ssrc" rfl (by decide) rfl (i ++ ' ' :: a), ?_⟩,
      a, rfl, ha, fun b h => by cases h⟩
    rw [e]
    exact .inr ⟨i, a, rfl, hx, .inl ⟨token_not_mem ha (by decide), rfl, rfl⟩⟩

/-- **C106.** `ssrc` (RFC 5576, 4.1). -/
theorem C106_ssrc {v : Str} (h : Rfc.ssrc v) : ∃ s, attrFromStr (c%"ssrc:" ++ v) = .ok (.ssrc s) :=
  let ⟨s, h, _⟩ := rfc_ssrc h; ⟨s, h⟩

omit [Env] in
private theorem vchars_token {v : Str} (h : rep 1 (char Rfc.isVchar) v) : Token v :=
  token_of_chars h (by omega) fun c hc => by
    simp only [Rfc.isVchar, Bool.and_eq_true, decide_eq_true_eq] at hc
    exact vchar_ws hc

omit [Env] in
private theorem splitWs_chars {s t : Str} (h : t ∈ splitWs s) : ∀ c ∈ t, c ∈ s := splitWs_mem_sub h

theorem rfc_extmap {v : Str} (h : Rfc.extmap v) : ∃ e, attrFromStr (c%"extmap:" ++ v) = .ok (.extmap e) ∧
    rep 1 (char Rfc.isVchar) e.url ∧ ∀ b, e.extensionAttributes = some b → Rfc.byteString b := by
  obtain ⟨n, _, rfl, hn, o, _, rfl, ho, _, _, rfl, rfl, u, _, rfl, hu, x, _, rfl, hx, rfl⟩ := h
  obtain ⟨m, hm, -⟩ := number_u16 hn (by omega)
  simp only [List.append_nil, List.cons_append, List.nil_append]
  have hfirst : ∃ d, Token (n ++ o) ∧ ((DecText (n ++ o) m.toNat ∧ d = none) ∨
      ∃ a b d', n ++ o = a ++ '/' :: b ∧ DecText a m.toNat ∧ d = some d' ∧ lower b = directionText d') := by
    rcases ho with rfl | ⟨_, _, rfl, rfl, b, _, rfl, ⟨r, hr, hb⟩, rfl⟩
    · exact ⟨none, by simpa using number_token hn, .inl ⟨by simpa using hm, rfl⟩⟩
    · have tok (hb : Token b) : Token (n ++ ('/' :: b)) :=
        ⟨by simp, fun c hc => by
          rcases List.mem_append.1 hc with h | h
          · exact (number_token hn).2 c h
          · rcases List.mem_cons.1 h with rfl | h
            · rfl
            · exact hb.2 c h⟩
      simp only [List.append_nil, List.cons_append, List.nil_append]
      simp only [List.mem_cons, List.not_mem_nil, or_false] at hr
      rcases hr with rfl | rfl | rfl
      · exact ⟨some .sendonly, tok (word_token (by decide) (by decide) hb), .inr ⟨n, b, _, rfl, hm, rfl, lower_word (by decide) hb⟩⟩
      · exact ⟨some .recvonly, tok (word_token (by decide) (by decide) hb), .inr ⟨n, b, _, rfl, hm, rfl, lower_word (by decide) hb⟩⟩
      · exact ⟨some .sendrecv, tok (word_token (by decide) (by decide) hb), .inr ⟨n, b, _, rfl, hm, rfl, lower_word (by decide) hb⟩⟩
  obtain ⟨d, htok, hd⟩ := hfirst
  have hu0 := hu
  have hu := vchars_token hu
  have hrest : ∃ rest e, splitWs (u ++ x) = u :: rest ∧ ((rest = [] ∧ e = none) ∨
      (rest ≠ [] ∧ (∀ t ∈ rest, '\x00' ∉ t) ∧ e = some (joinS c%" " rest))) ∧ ∀ b, e = some b → Rfc.byteString b := by
    rcases hx with rfl | ⟨_, _, rfl, rfl, b, _, rfl, hb, rfl⟩
    · exact ⟨[], none, by simpa using splitWs_last hu, .inl ⟨rfl, rfl⟩, by simp⟩
    · simp only [List.append_nil, List.cons_append, List.nil_append]
      by_cases hs : splitWs b = []
      · exact ⟨[], none, by rw [splitWs_token hu, hs], .inl ⟨rfl, rfl⟩, by simp⟩
      · refine ⟨splitWs b, _, splitWs_token hu, .inr ⟨hs, fun t ht h0 => ?_, rfl⟩, ?_⟩
        · have := (rep_char.1 hb).2 _ (splitWs_chars ht _ h0)
          simp at this
        · rintro _ ⟨⟩
          refine rep_char.2 ⟨?_, fun c hc => ?_⟩
          · cases hsp : splitWs b with
            | nil => exact absurd hsp hs
            | cons t ts =>
              have ht := (splitWs_mem (s := b) (t := t) (by simp [hsp])).2
              cases t with
              | nil => exact absurd rfl ht
              | cons c t => cases ts <;> simp [joinS]
          · rcases mem_joinS hc with h | ⟨t, ht, hc⟩
            · simp at h; subst h; decide
            · exact (rep_char.1 hb).2 c (splitWs_chars ht c hc)
  obtain ⟨rest, e, hw, he, heb⟩ := hrest
  refine ⟨⟨m, d, u, e⟩, C60_extmap.2 ⟨_, attr_at c%"extmap" rfl (by decide) rfl (n ++ (o ++ ' ' :: (u ++ x))), n ++ o, rest, ?_, hd, he⟩,
    hu0, heb⟩
  rw [words_iff, splitWs_trim, ← List.append_assoc, splitWs_token htok, hw]

/-- **C106.** `extmap` (RFC 8285, 8). -/
theorem C106_extmap {v : Str} (h : Rfc.extmap v) : ∃ e, attrFromStr (c%"extmap:" ++ v) = .ok (.extmap e) :=
  let ⟨e, h, _⟩ := rfc_extmap h; ⟨e, h⟩

/-- **C106.** `fingerprint` (RFC 8122, 5). -/
theorem C106_fingerprint {v : Str} (h : Rfc.fingerprint v) :
    ∃ f, attrFromStr (c%"fingerprint:" ++ v) = .ok (.fingerprint f) := by
  have byte {s : Str} (h : reps 2 2 (char Rfc.isUhex) s) :
      (∀ c ∈ s, isWs c = false ∧ c ≠ ':') ∧ ∃ x : UInt8, s.length = 2 ∧ HexText s x.toNat := by
    obtain ⟨h1, h2, h3⟩ := reps_char h
    have hc : ∀ c ∈ s, (0x30 ≤ c.toNat ∧ c.toNat ≤ 0x39 ∧ c.isDigit = true) ∨ (0x41 ≤ c.toNat ∧ c.toNat ≤ 0x46) := by
      intro c hc
      have := h3 c hc
      simp only [Rfc.isUhex, Bool.or_eq_true, Bool.and_eq_true, decide_eq_true_eq] at this
      rcases this with h | h
      · have := digit_nat h; exact .inl ⟨this.1, this.2, h⟩
      · exact .inr h
    have hx : ∀ c ∈ s, IsHexDigit c := by
      intro c hm
      rcases hc c hm with ⟨-, -, h⟩ | ⟨h, h'⟩
      · exact .inl h
      · exact .inr (.inr ⟨h, h'⟩)
    refine ⟨fun c hm => ⟨vchar_ws (by have := hc c hm; omega), by rintro rfl; have := hc _ hm; simp at this⟩, ?_⟩
    have hlen : s.length = 2 := by omega
    have hval : hexValue s < 2 ^ 8 := by
      rcases s with _ | ⟨a, _ | ⟨b, _ | ⟨c, s⟩⟩⟩ <;> simp at hlen
      have hv {c : Char} (h : c ∈ [a, b]) : hexDigitValue c < 16 := hexDigitValue_lt (hx c h)
      have h1 := hv (c := a) (by simp); have h2 := hv (c := b) (by simp)
      simp [hexValue]; omega
    have e : (UInt8.ofNat (hexValue s)).toNat = hexValue s := UInt8.toNat_ofNat_of_lt' hval
    exact ⟨.ofNat (hexValue s), hlen, s, .inl rfl, by rintro rfl; simp at hlen, hx, e.symm⟩
  have key {a : HashType} (hv : seq [exactly (hashText a), Rfc.SP, Rfc.fingerprintOf (fingerprintBytes a)] v) :
      ∃ f, attrFromStr (c%"fingerprint:" ++ v) = .ok (.fingerprint f) := by
    obtain ⟨_, _, rfl, rfl, _, _, rfl, rfl, b, _, rfl, ⟨b1, _, rfl, hb1, b2, _, rfl, hb2, rfl⟩, rfl⟩ := hv
    obtain ⟨ws, hws1, hws2, hws, rfl⟩ := reps_sep hb2
    have hall : ∀ w ∈ b1 :: ws, reps 2 2 (char Rfc.isUhex) w := by simpa using ⟨hb1, hws⟩
    obtain ⟨l, hl⟩ := rfc_each_of (R := fun t (x : UInt8) => t.length = 2 ∧ HexText t x.toNat) fun w hw => (byte (hall w hw)).2
    have hlen : (b1 :: ws).length = fingerprintBytes a := by
      have : 0 < fingerprintBytes a := by cases a <;> decide
      simp; omega
    have htok : Token (b1 ++ (ws.map (':' :: ·)).flatten) := by
      constructor
      · obtain ⟨-, x, h1, -⟩ := byte hb1
        intro h
        rw [(List.append_eq_nil_iff.1 h).1] at h1; simp at h1
      · intro c hc
        rw [joinS_words] at hc
        rcases mem_joinS hc with h | ⟨t, ht, hc⟩
        · simp at h; subst h; rfl
        · exact ((byte (hall t ht)).1 c hc).1
    simp only [List.append_nil, List.cons_append, List.nil_append]
    refine ⟨⟨a, l⟩, C61_fingerprint.2 ⟨_, attr_at c%"fingerprint" rfl (by decide) rfl (hashText a ++ ' ' :: (b1 ++ (ws.map (':' :: ·)).flatten)),
      hashText a, b1 ++ (ws.map (':' :: ·)).flatten, b1 :: ws, ?_, rfl, ?_, hl, ?_⟩⟩
    · rw [words_iff, splitWs_trim, splitWs_token (by cases a <;> exact ⟨by decide, by decide⟩), splitWs_last htok]
    · rw [fields_iff]
      exact splitC_words (fun h => ((byte hb1).1 _ h).2 rfl) fun w hw h => ((byte (hws w hw)).1 _ h).2 rfl
    · exact (each_len hl).symm.trans hlen
  obtain ⟨r, hr, h⟩ := h
  simp only [List.mem_cons, List.not_mem_nil, or_false] at hr
  rcases hr with rfl | rfl | rfl | rfl | rfl
  · exact key (a := .sha1) h
  · exact key (a := .sha224) h
  · exact key (a := .sha256) h
  · exact key (a := .sha384) h
  · exact key (a := .sha512) h

theorem rfc_rtcp {v : Str} (h : Rfc.rtcp v) : ∃ r, attrFromStr (c%"rtcp:" ++ v) = .ok (.rtcp r) ∧
    ∀ t d, r.unicastAddr = some (.fqdn t d) → ∃ s, Rfc.fqdn s ∧ Env.hostNA s = .domain d := by
  obtain ⟨p, _, rfl, hp, o, _, rfl, ho, rfl⟩ := h
  obtain ⟨x, hx, -⟩ := number_u16 hp (by omega)
  rcases ho with rfl | ⟨_, _, rfl, rfl, n, _, rfl, hn, _, _, rfl, rfl, r, _, rfl, hr, rfl⟩
  · refine ⟨⟨x, none⟩, C62_rtcp.2 ⟨_, attr_at c%"rtcp" rfl (by decide) rfl _, p, hx, .inl ⟨?_, rfl⟩⟩,
      fun t d h => by cases h⟩
    rw [words_iff, splitWs_trim, List.append_nil, List.append_nil, splitWs_last (number_token hp)]
  · have key : ∃ t a ty addr, r = t ++ ' ' :: a ∧ Token t ∧ Token a ∧ upper t = addrTypeText ty ∧ TypedText ty a addr ∧
        ∀ t d, addr = .fqdn t d → ∃ s, Rfc.fqdn s ∧ Env.hostNA s = .domain d := by
      obtain ⟨q, hq, hr⟩ := hr
      simp only [List.mem_cons, List.not_mem_nil, or_false] at hq
      rcases hq with rfl | rfl | rfl
      · obtain ⟨t, _, rfl, ht, _, _, rfl, rfl, a, _, rfl, ⟨ip, ha⟩, rfl⟩ := hr
        exact ⟨t, a, .ipV4, .ip (.v4 ip), by simp, word_token (by decide) (by decide) ht, rfc_ip_token ha, upper_word (by decide) ht,
          ⟨.inl ⟨_, ha, rfl⟩, rfl⟩, fun t d h => by cases h⟩
      · obtain ⟨t, _, rfl, ht, _, _, rfl, rfl, a, _, rfl, ⟨ip, ha⟩, rfl⟩ := hr
        exact ⟨t, a, .ipV6, .ip (.v6 ip), by simp, word_token (by decide) (by decide) ht, rfc_ip_token ha, upper_word (by decide) ht,
          ⟨.inl ⟨_, ha, rfl⟩, rfl⟩, fun t d h => by cases h⟩
      · obtain ⟨t, _, rfl, ⟨w, hw, ht⟩, _, _, rfl, rfl, a, _, rfl, ⟨hni, hf, d, hd⟩, rfl⟩ := hr
        have hadr : AddressText a (.fqdn d) := .inr ⟨hni, by rw [hd]⟩
        simp only [List.mem_cons, List.not_mem_nil, or_false] at hw
        rcases hw with rfl | rfl
        · exact ⟨t, a, .ipV4, .fqdn .ipV4 d, by simp, word_token (by decide) (by decide) ht, rfc_fqdn_token hf,
            upper_word (by decide) ht, ⟨hadr, rfl⟩, fun t d h => by cases h; exact ⟨a, hf, hd⟩⟩
        · exact ⟨t, a, .ipV6, .fqdn .ipV6 d, by simp, word_token (by decide) (by decide) ht, rfc_fqdn_token hf,
            upper_word (by decide) ht, ⟨hadr, rfl⟩, fun t d h => by cases h; exact ⟨a, hf, hd⟩⟩
    obtain ⟨t, a, ty, addr, rfl, ht, ha, hty, htx, hfr⟩ := key
    refine ⟨⟨x, some addr⟩, C62_rtcp.2 ⟨_, attr_at c%"rtcp" rfl (by decide) rfl _, p, hx, .inr ⟨n, t, a, [], ty, addr, ?_,
      upper_word (by decide) hn, hty, htx, rfl⟩⟩, fun t d h => hfr t d (Option.some.inj h)⟩
    rw [words_iff, splitWs_trim]
    simp only [List.append_nil, List.cons_append, List.nil_append]
    rw [splitWs_token (number_token hp), splitWs_token (word_token (by decide) (by decide) hn), splitWs_token ht, splitWs_last ha]

/-- **C106.** `rtcp` (RFC 3605, 2.1). -/
theorem C106_rtcp {v : Str} (h : Rfc.rtcp v) : ∃ r, attrFromStr (c%"rtcp:" ++ v) = .ok (.rtcp r) :=
  let ⟨r, h, _⟩ := rfc_rtcp h; ⟨r, h⟩

theorem rfc_remote_candidates {v : Str} (h : Rfc.remoteCandidates v) :
    ∃ r, attrFromStr (c%"remote-candidates:" ++ v) = .ok (.remoteCandidate r) ∧
      r.component.toNat ≤ 999 ∧ r.port.toNat ≤ 65535 ∧ FromAddress r.address := by
  obtain ⟨_, _, rfl, ⟨c, _, rfl, hc, _, _, rfl, rfl, a, _, rfl, ha, _, _, rfl, rfl, p, _, rfl, hp, rfl⟩, m, _, rfl, hm, rfl⟩ := h
  obtain ⟨x, hx, hx'⟩ := number_u32 hc (by omega)
  obtain ⟨y, hy, hy'⟩ := number_u32 hp (by omega)
  obtain ⟨hat, adr, hadr, hfr⟩ := rfc_address_ok ha
  obtain ⟨ws, -, -, rfl⟩ := rep_sep hm
  simp only [List.append_nil, List.cons_append, List.nil_append, List.append_assoc]
  have hrest : ∃ more, splitWs (p ++ (ws.map (' ' :: ·)).flatten) = p :: more := by
    cases ws with
    | nil => exact ⟨[], by simpa using splitWs_last (number_token hp)⟩
    | cons w ws => exact ⟨_, by
        rw [List.map_cons, List.flatten_cons, List.cons_append]; exact splitWs_token (number_token hp)⟩
  obtain ⟨more, hmore⟩ := hrest
  refine ⟨⟨x, adr, y⟩, C62_remote_candidates.2 ⟨_, attr_at c%"remote-candidates" rfl (by decide) rfl
    (c ++ ' ' :: (a ++ ' ' :: (p ++ (ws.map (' ' :: ·)).flatten))), c, a, p, more, ?_, hx, hadr,
    hy, hy'⟩, hx', hy', hfr⟩
  rw [words_iff, splitWs_trim, splitWs_token (number_token hc), splitWs_token hat, hmore]

/-- **C106.** `remote-candidates` (RFC 8839, 5.2), although only the first is kept. -/
theorem C106_remote_candidates {v : Str} (h : Rfc.remoteCandidates v) :
    ∃ r, attrFromStr (c%"remote-candidates:" ++ v) = .ok (.remoteCandidate r) :=
  let ⟨r, h, _⟩ := rfc_remote_candidates h; ⟨r, h⟩

private def fbMore : Rule := opt (seq [Rfc.SP, Rfc.byteString])

private def fbTail : Rule := alt
  [seq [exactly c%"ack", Rfc.SP, alt [exactly c%"rpsi", exactly c%"app"], fbMore],
   seq [exactly c%"nack", opt (seq [Rfc.SP, alt [exactly c%"pli", exactly c%"sli", exactly c%"rpsi", exactly c%"app"], fbMore])],
   seq [exactly c%"trr-int", Rfc.SP, number (2 ^ 32 - 1)],
   seq [exactly c%"ccm", opt (seq [Rfc.SP, alt [exactly c%"fir", exactly c%"tmmbr", exactly c%"tstr", exactly c%"vbcm"], fbMore])],
   exactly c%"goog-remb", exactly c%"transport-cc"]

theorem rfc_rtcp_fb {v : Str} (h : Rfc.rtcpFb v) : ∃ r, attrFromStr (c%"rtcp-fb:" ++ v) = .ok (.rtcpfb r) ∧
    Rfc.rtcpFb (showRtcpFb r) := by
  obtain ⟨pt, _, rfl, hpt, _, _, rfl, rfl, w, _, rfl, hw, rfl⟩ := h
  have hp : ∃ p, PayloadTypeText pt p ∧ Token pt := by
    obtain ⟨q, hq, hpt⟩ := hpt
    simp only [List.mem_cons, List.not_mem_nil, or_false] at hq
    rcases hq with rfl | rfl
    · obtain rfl := hpt; exact ⟨.wildcard, rfl, by decide, by decide⟩
    · obtain ⟨x, hx, -⟩ := number_u8 hpt (by omega)
      exact ⟨.pt x, hx, number_token hpt⟩
  obtain ⟨p, hp, ht⟩ := hp
  have write {w : Str} (h : fbTail w) : Rfc.rtcpFb (showPayloadType p ++ ' ' :: w) := by
    have hpt : alt [exactly ['*'], number 255] (showPayloadType p) := by
      cases p with
      | wildcard => exact ⟨_, List.mem_cons_self, rfl⟩
      | pt n => exact ⟨_, List.mem_cons_of_mem _ List.mem_cons_self, rfc_number_show (by have := n.toNat_lt; omega)⟩
    exact rfc_seq_cons hpt (rfc_seq_cons (u := [' ']) rfl (rfc_seq_one h))
  have fbShow (t : RtcpFbType) : showRtcpFbType t = fbText t := by cases t <;> rfl
  simp only [List.append_nil, List.cons_append, List.nil_append]
  have fbTok (t : RtcpFbType) : Token (fbText t) := by cases t <;> exact ⟨by decide, by decide⟩
  have bare {t : RtcpFbType} (h : FbBare t) (hT : fbTail (fbText t)) :
      ∃ r, attrFromStr (c%"rtcp-fb:" ++ (pt ++ ' ' :: fbText t)) = .ok (.rtcpfb r) ∧ Rfc.rtcpFb (showRtcpFb r) := by
    refine ⟨⟨p, t, [], []⟩, C63_rtcp_fb.2 ⟨_, attr_at c%"rtcp-fb" rfl (by decide) rfl _, pt, hp, .inl ⟨?_, h, rfl, rfl⟩⟩, ?_⟩
    · have := (rfc_trimmed_between ht (fbTok t) [' ']).trim
      simpa using this
    · have := write hT
      simpa [showRtcpFb, fbShow] using this
  have more {t : RtcpFbType} {q m : Str} (h : FbParameter t q) (hq : Token q) (hm : opt (seq [Rfc.SP, Rfc.byteString]) m)
      (hT : ∀ m', fbMore m' → (m = [] → m' = []) → fbTail (fbText t ++ ' ' :: (q ++ m'))) :
      ∃ r, attrFromStr (c%"rtcp-fb:" ++ (pt ++ ' ' :: (fbText t ++ ' ' :: (q ++ m)))) = .ok (.rtcpfb r) ∧
        Rfc.rtcpFb (showRtcpFb r) := by
    have hqe : q.isEmpty = false := by cases q with
      | nil => exact absurd rfl hq.1
      | cons => rfl
    have e : trim (pt ++ ' ' :: (fbText t ++ ' ' :: (q ++ m))) = pt ++ ' ' :: fbText t ++ ' ' :: q ++ trimEnd m := by
      have := rfc_trim_after (b := m) (rfc_trimmed_between ht hq (' ' :: fbText t ++ [' ']))
      simpa using this
    have hm : trimEnd m = [] ∨ ∃ x, trimEnd m = ' ' :: x ∧ m ≠ [] ∧
        ∀ c ∈ x, (c.toNat ≠ 0 && c.toNat ≠ 0x0a && c.toNat ≠ 0x0d) = true := by
      rcases hm with rfl | ⟨_, _, rfl, rfl, b, _, rfl, hb, rfl⟩
      · exact .inl rfl
      · obtain ⟨w, -, hw⟩ := trimEnd_spec ([' '] ++ (b ++ []))
        cases hte : trimEnd ([' '] ++ (b ++ [])) with
        | nil => exact .inl rfl
        | cons c x =>
          rw [hte] at hw; simp at hw
          exact .inr ⟨x, by rw [hw.1], by simp, fun d hd => (rep_char.1 hb).2 d (by rw [hw.2]; simp [hd])⟩
    rcases hm with hm | ⟨x, hm, hmne, hx⟩
    · refine ⟨⟨p, t, q, []⟩, C63_rtcp_fb.2 ⟨_, attr_at c%"rtcp-fb" rfl (by decide) rfl _, pt, hp, .inr (.inl ⟨?_, h, rfl⟩)⟩, ?_⟩
      · rw [e, hm, List.append_nil]
      · have := write (hT [] (.inl rfl) fun _ => rfl)
        simpa [showRtcpFb, fbShow, hqe, maybeParamS] using this
    · refine ⟨⟨p, t, q, x⟩, C63_rtcp_fb.2 ⟨_, attr_at c%"rtcp-fb" rfl (by decide) rfl _, pt, hp, .inr (.inr ⟨?_, h⟩)⟩, ?_⟩
      · rw [e, hm]
      · by_cases hx0 : x = []
        · have := write (hT [] (.inl rfl) fun _ => rfl)
          simpa [showRtcpFb, fbShow, hqe, maybeParamS, hx0] using this
        · have := write (hT (' ' :: x) (.inr (rfc_seq_cons (u := [' ']) rfl (rfc_seq_one (rep_char.2
            ⟨by cases x <;> simp at hx0 ⊢, hx⟩)))) fun h => absurd h hmne)
          simpa [showRtcpFb, fbShow, hqe, maybeParamS, hx0] using this
  have listed {t : RtcpFbType} {q m : Str} {l : List Str} (hq : alt (l.map exactly) q) (hl : ∀ q ∈ l, FbParameter t q ∧ Token q)
      (hm : opt (seq [Rfc.SP, Rfc.byteString]) m)
      (hT : ∀ m', fbMore m' → fbTail (fbText t ++ ([' '] ++ (q ++ m')))) :
      ∃ r, attrFromStr (c%"rtcp-fb:" ++ (pt ++ ' ' :: (fbText t ++ ' ' :: (q ++ m)))) = .ok (.rtcpfb r) ∧
        Rfc.rtcpFb (showRtcpFb r) := by
    obtain ⟨_, hr, hq⟩ := hq
    obtain ⟨q', hq', rfl⟩ := List.mem_map.1 hr
    obtain rfl := hq
    exact more (hl _ hq').1 (hl _ hq').2 hm fun m' hm' _ => hT m' hm'
  obtain ⟨r, hr, h⟩ := hw
  simp only [List.mem_cons, List.not_mem_nil, or_false] at hr
  rcases hr with rfl | rfl | rfl | rfl | rfl | rfl
  · obtain ⟨_, _, rfl, rfl, _, _, rfl, rfl, q, _, rfl, hq, m, _, rfl, hm, rfl⟩ := h
    have := listed (t := .ack) (l := [c%"rpsi", c%"app"]) hq (fun q hq => ⟨hq, by
      simp at hq; rcases hq with rfl | rfl <;> exact ⟨by decide, by decide⟩⟩) hm
      fun m' hm' => ⟨_, List.mem_cons_self, rfc_seq_cons rfl (rfc_seq_cons rfl (rfc_seq_cons hq (rfc_seq_one hm')))⟩
    simpa [fbText] using this
  · obtain ⟨_, _, rfl, rfl, o, _, rfl, ho, rfl⟩ := h
    rcases ho with rfl | ⟨_, _, rfl, rfl, q, _, rfl, hq, m, _, rfl, hm, rfl⟩
    · exact bare (t := .nack) trivial ⟨_, List.mem_cons_of_mem _ List.mem_cons_self, c%"nack", [], rfl, rfl, rfc_seq_one (.inl rfl)⟩
    · have := listed (t := .nack) (l := [c%"pli", c%"sli", c%"rpsi", c%"app"]) hq (fun q hq => by
        simp at hq; rcases hq with rfl | rfl | rfl | rfl <;> exact ⟨by simp [FbParameter], by decide, by decide⟩) hm
        fun m' hm' => ⟨_, List.mem_cons_of_mem _ List.mem_cons_self, rfc_seq_cons rfl (rfc_seq_one (.inr
          (rfc_seq_cons rfl (rfc_seq_cons hq (rfc_seq_one hm')))))⟩
      simpa [fbText] using this
  · obtain ⟨_, _, rfl, rfl, _, _, rfl, rfl, q, _, rfl, hq, rfl⟩ := h
    obtain ⟨x, hx, hx'⟩ := number_u32 hq (by omega)
    have := more (t := .trrInt) (q := q) (m := []) ⟨_, by omega, hx⟩ (number_token hq) (.inl rfl)
      fun m' _ h => by
        rw [h rfl, List.append_nil]
        exact ⟨_, List.mem_cons_of_mem _ (List.mem_cons_of_mem _ List.mem_cons_self),
          rfc_seq_cons rfl (rfc_seq_cons (u := [' ']) rfl (rfc_seq_one hq))⟩
    simpa [fbText] using this
  · obtain ⟨_, _, rfl, rfl, o, _, rfl, ho, rfl⟩ := h
    rcases ho with rfl | ⟨_, _, rfl, rfl, q, _, rfl, hq, m, _, rfl, hm, rfl⟩
    · exact bare (t := .ccm) trivial ⟨_, List.mem_cons_of_mem _ (List.mem_cons_of_mem _ (List.mem_cons_of_mem _ List.mem_cons_self)),
        c%"ccm", [], rfl, rfl, rfc_seq_one (.inl rfl)⟩
    · have := listed (t := .ccm) (l := [c%"fir", c%"tmmbr", c%"tstr", c%"vbcm"]) hq (fun q hq => ⟨hq, by
        simp at hq; rcases hq with rfl | rfl | rfl | rfl <;> exact ⟨by decide, by decide⟩⟩) hm
        fun m' hm' => ⟨_, List.mem_cons_of_mem _ (List.mem_cons_of_mem _ (List.mem_cons_of_mem _ List.mem_cons_self)),
          rfc_seq_cons rfl (rfc_seq_one (.inr (rfc_seq_cons rfl (rfc_seq_cons hq (rfc_seq_one hm')))))⟩
      simpa [fbText] using this
  · obtain rfl := h; exact bare (t := .remb) trivial ⟨exactly c%"goog-remb", by simp, rfl⟩
  · obtain rfl := h; exact bare (t := .transCc) trivial ⟨exactly c%"transport-cc", by simp, rfl⟩

/-- **C106.** `rtcp-fb` (RFC 4585, 4.2; RFC 5104, 7.1). -/
theorem C106_rtcp_fb {v : Str} (h : Rfc.rtcpFb v) : ∃ r, attrFromStr (c%"rtcp-fb:" ++ v) = .ok (.rtcpfb r) :=
  let ⟨r, h, _⟩ := rfc_rtcp_fb h; ⟨r, h⟩

omit [Env] in
private theorem ridChar {c : Char} (h : (Rfc.isAlphaNumeric c || c == '-' || c == '_') = true) :
    isWs c = false ∧ c ∉ [':', ';', '/', ',', '=', '~', ' '] := by
  simp only [Bool.or_eq_true, beq_iff_eq] at h
  rcases h with (h | rfl) | rfl
  · have := alphaNumeric h
    refine ⟨vchar_ws (by omega), ?_⟩
    intro hc
    simp only [List.mem_cons, List.not_mem_nil, or_false] at hc this
    rcases hc with hc | hc | hc | hc | hc | hc | rfl <;> first | (have := this.1; simp at this) | simp_all
  · exact ⟨rfl, by decide⟩
  · exact ⟨rfl, by decide⟩

omit [Env] in
private theorem ridId_facts {s : Str} (h : Rfc.ridId s) : Token s ∧ ∀ c ∈ s, c ∉ [':', ';', '/', ',', '=', '~', ' '] :=
  ⟨token_of_chars h (by omega) fun _ hc => (ridChar hc).1, fun c hc => (ridChar ((rep_char.1 h).2 c hc)).2⟩

omit [Env] in
private theorem fields_write {β : Type} {sep : Char} {s : Str} {l : List Str} {m : List β} {R : Str → β → Prop} {sh : β → Str}
    (h : Fields sep s l) (hm : Each R l m) (hR : ∀ t b, R t b → sh b = t) : joinS [sep] (m.map sh) = s := by
  have : m.map sh = l := by
    clear h
    induction l generalizing m with
    | nil => cases m with
      | nil => rfl
      | cons => exact hm.elim
    | cons a l ih => cases m with
      | nil => exact hm.elim
      | cons b m => simp [hR _ _ hm.1, ih hm.2]
  rw [this]
  exact h.2.2.symm

omit [Env] in
private theorem simulcast_id_write {t : Str} {i : SimulcastId} (h : SimulcastIdText t i) : showSimulcastId i = t := by
  rcases h with ⟨rfl, h⟩ | ⟨rfl, -, h⟩ <;> simp [showSimulcastId, h]

omit [Env] in
private theorem simulcast_version_write {t : Str} {x : SimulcastVersion} (h : SimulcastVersionText t x) : showSimulcastVersion x = t := by
  obtain ⟨fs, h1, h2⟩ := h
  exact fields_write h1 h2 fun _ _ => simulcast_id_write

private def scList : Rule :=
  let id := seq [opt (exactly ['~']), Rfc.ridId]
  let alts := seq [id, rep 0 (seq [exactly [','], id])]
  seq [alts, rep 0 (seq [exactly [';'], alts])]

theorem rfc_simulcast {v : Str} (h : Rfc.simulcast v) : ∃ s, attrFromStr (c%"simulcast:" ++ v) = .ok (.simulcast s) ∧
    (∀ d, ∀ x ∈ s.of d, ∀ i ∈ x.ids, Rfc.SimulcastHas v (singleDirectionText d) i.id) ∧ Rfc.simulcast (showSimulcast s) := by
  have id {s : Str} (h : seq [opt (exactly ['~']), Rfc.ridId] s) :
      (Token s ∧ ∀ c ∈ s, c ∉ [',', ';', '=']) ∧ ∃ i, SimulcastIdText s i := by
    obtain ⟨o, _, rfl, ho, r, _, rfl, hr, rfl⟩ := h
    obtain ⟨h1, h2⟩ := ridId_facts hr
    rw [List.append_nil]
    have h3 : ∀ c ∈ r, c ∉ [',', ';', '='] := fun c hc h => h2 c hc (by simp at h ⊢; tauto)
    rcases ho with rfl | rfl
    · refine ⟨⟨h1, h3⟩, ⟨r, false⟩, .inr ⟨rfl, ?_, rfl⟩⟩
      intro h
      exact h2 '~' (List.mem_of_mem_head? h) (by simp)
    · refine ⟨⟨⟨by simp, fun c hc => ?_⟩, fun c hc => ?_⟩, ⟨r, true⟩, .inl ⟨rfl, rfl⟩⟩
      · rcases List.mem_cons.1 hc with rfl | hc
        · rfl
        · exact h1.2 c hc
      · rcases List.mem_cons.1 hc with rfl | hc
        · decide
        · exact h3 c hc
  have lst {sep : Char} {P : Rule} {bad : List Char} {s : Str} (hsep : isWs sep = false) (hsb : sep ∉ bad)
      (hP : ∀ s, P s → Token s ∧ ∀ c ∈ s, c ∉ sep :: bad) (h : seq [P, rep 0 (seq [exactly [sep], P])] s) :
      (Token s ∧ ∀ c ∈ s, c ∉ bad) ∧ ∃ l, Fields sep s l ∧ ∀ x ∈ l, P x := by
    obtain ⟨a, _, rfl, ha, b, _, rfl, hb, rfl⟩ := h
    obtain ⟨ws, -, hw, rfl⟩ := rep_sep hb
    rw [List.append_nil]
    have hall : ∀ w ∈ a :: ws, P w := by simpa using ⟨ha, hw⟩
    refine ⟨⟨⟨?_, ?_⟩, ?_⟩, a :: ws, ?_, hall⟩
    · have := (hP a ha).1.1
      intro h; exact this (List.append_eq_nil_iff.1 h).1
    · intro c hc
      rw [joinS_words] at hc
      rcases mem_joinS hc with h | ⟨t, ht, hc⟩
      · simp at h; subst h; exact hsep
      · exact (hP t (hall t ht)).1.2 c hc
    · intro c hc
      rw [joinS_words] at hc
      rcases mem_joinS hc with h | ⟨t, ht, hc⟩
      · simp at h; subst h; exact hsb
      · exact fun h => (hP t (hall t ht)).2 c hc (by simp [h])
    · rw [fields_iff]
      exact splitC_words (fun h => (hP a ha).2 _ h (by simp)) fun w hw' h => (hP w (hw w hw')).2 _ h (by simp)
  have alts {s : Str} (h : seq [seq [opt (exactly ['~']), Rfc.ridId], rep 0 (seq [exactly [','], seq [opt (exactly ['~']), Rfc.ridId]])] s) :
      (Token s ∧ ∀ c ∈ s, c ∉ [';', '=']) ∧ ∃ x, SimulcastVersionText s x := by
    obtain ⟨h1, l, hl, hP⟩ := lst (bad := [';', '=']) rfl (by decide) (fun s h => (id h).1) h
    obtain ⟨m, hm⟩ := rfc_each_of fun x hx => (id (hP x hx)).2
    exact ⟨h1, ⟨m⟩, l, hl, hm⟩
  have list {s : Str} (h : seq [seq [seq [opt (exactly ['~']), Rfc.ridId], rep 0 (seq [exactly [','], seq [opt (exactly ['~']), Rfc.ridId]])],
      rep 0 (seq [exactly [';'], seq [seq [opt (exactly ['~']), Rfc.ridId],
        rep 0 (seq [exactly [','], seq [opt (exactly ['~']), Rfc.ridId]])]])] s) :
      Token s ∧ ∃ x, SimulcastListText s x ∧ (∀ y ∈ x, ∀ i ∈ y.ids, ∃ alts a ids, Fields ';' s alts ∧ a ∈ alts ∧ Fields ',' a ids ∧
        ((i.id ∈ ids ∧ i.id.head? ≠ some '~') ∨ '~' :: i.id ∈ ids)) ∧
        ∀ pre, maybeVec pre [] [';'] (x.map showSimulcastVersion) = pre ++ s := by
    obtain ⟨h1, l, hl, hP⟩ := lst (bad := ['=']) rfl (by decide) (fun s h => (alts h).1) h
    obtain ⟨m, hm⟩ := rfc_each_of fun x hx => (alts (hP x hx)).2
    refine ⟨h1.1, m, ⟨s, l, .inl ⟨rfl, fun h => h1.2 _ h (by simp)⟩, hl, hm⟩, fun y hy i hi => ?_, fun pre => ?_⟩
    rotate_left
    · have hw := fields_write hl hm fun _ _ => simulcast_version_write
      have hf : (m.map showSimulcastVersion).filter (fun s => !s.isEmpty) = m.map showSimulcastVersion := by
        rw [List.filter_eq_self]
        intro t ht
        obtain ⟨x, hx, rfl⟩ := List.mem_map.1 ht
        obtain ⟨a, ha, hx'⟩ := rfc_each_back hm hx
        rw [simulcast_version_write hx']
        have := (alts (hP a ha)).1.1.1
        cases a with
        | nil => exact absurd rfl this
        | cons => rfl
      have hne : m.map showSimulcastVersion ≠ [] := by
        intro h0
        rw [h0] at hw
        exact h1.1.1 hw.symm
      cases hmm : m.map showSimulcastVersion with
      | nil => exact absurd hmm hne
      | cons a b =>
        rw [hmm] at hf hw
        simp only [maybeVec, hf, hw, List.append_nil]
    obtain ⟨a, ha, fs, hfs, he⟩ := rfc_each_back hm hy
    obtain ⟨j, hj, h⟩ := rfc_each_back he hi
    refine ⟨l, a, fs, hl, ha, hfs, ?_⟩
    rcases h with ⟨rfl, -⟩ | ⟨rfl, h, -⟩
    · exact .inr hj
    · exact .inl ⟨hj, h⟩
  have sp {s : Str} (h : Token s) : ' ' ∉ s := fun hm => absurd (h.2 _ hm) (by decide)
  have f2 {d l : Str} (hd : ' ' ∉ d) (hl : Token l) : Fields ' ' (d ++ ' ' :: l) [d, l] := by
    rw [fields_iff, splitC_append hd, splitC_of_not_mem (sp hl)]
  have f4 {d l e m : Str} (hd : ' ' ∉ d) (hl : Token l) (he : ' ' ∉ e) (hm : Token m) :
      Fields ' ' (d ++ ' ' :: (l ++ ' ' :: (e ++ ' ' :: m))) [d, l, e, m] := by
    rw [fields_iff, splitC_append hd, splitC_append (sp hl), splitC_append he, splitC_of_not_mem (sp hm)]
  have one {d l : Str} (hd : d = c%"send" ∨ d = c%"recv") (hl : scList l) : Rfc.simulcast (d ++ ' ' :: l) := by
    rcases hd with rfl | rfl
    · exact ⟨_, List.mem_cons_self, c%"send " ++ l, [], by simp, rfc_seq_cons (u := c%"send") rfl
        (rfc_seq_cons (u := [' ']) rfl (rfc_seq_one hl)), rfc_seq_one (.inl rfl)⟩
    · exact ⟨_, List.mem_cons_of_mem _ List.mem_cons_self, c%"recv " ++ l, [], by simp, rfc_seq_cons (u := c%"recv") rfl
        (rfc_seq_cons (u := [' ']) rfl (rfc_seq_one hl)), rfc_seq_one (.inl rfl)⟩
  have both {l m : Str} (hl : scList l) (hm : scList m) : Rfc.simulcast (c%"send " ++ l ++ (' ' :: (c%"recv " ++ m))) :=
    ⟨_, List.mem_cons_self, rfc_seq_cons (rfc_seq_cons (u := c%"send") rfl (rfc_seq_cons (u := [' ']) rfl (rfc_seq_one hl)))
      (rfc_seq_one (.inr (rfc_seq_cons (u := [' ']) rfl (rfc_seq_one (rfc_seq_cons (u := c%"recv") rfl
        (rfc_seq_cons (u := [' ']) rfl (rfc_seq_one hm)))))))⟩
  obtain ⟨r, hr, h⟩ := h
  simp only [List.mem_cons, List.not_mem_nil, or_false] at hr
  rcases hr with rfl | rfl
  · obtain ⟨_, _, rfl, ⟨_, _, rfl, rfl, _, _, rfl, rfl, l, _, rfl, hl, rfl⟩, o, _, rfl, ho, rfl⟩ := h
    obtain ⟨htl, x, hx, hxi, hxw⟩ := list hl
    rcases ho with rfl | ⟨_, _, rfl, rfl, _, _, rfl, ⟨_, _, rfl, rfl, _, _, rfl, rfl, m, _, rfl, hm, rfl⟩, rfl⟩
    · refine ⟨⟨x, []⟩, C65_simulcast.2 ⟨_, attr_at c%"simulcast" rfl (by decide) rfl _, .send, .recv, l, by decide, hx, .inl ⟨?_, rfl⟩⟩, ?_, by
        have := one (.inl rfl) hl
        have e : maybeVec c%"recv " [] [';'] [] = [] := rfl
        simpa [showSimulcast, nonEmpty, hxw, e, joinS] using this⟩
      · rw [words_iff, splitWs_trim]
        simp only [List.append_nil]
        exact (splitWs_token (a := c%"send") ⟨by decide, by decide⟩).trans (congrArg (c%"send" :: ·) (splitWs_last htl))
      · have hf := f2 (d := c%"send") (by decide) htl
        intro d z hz i hi
        cases d with
        | send =>
          obtain ⟨alts, a, ids, h⟩ := hxi z hz i hi
          exact ⟨_, l, alts, a, ids, by simpa [singleDirectionText] using hf, .inl ⟨_, rfl⟩, h⟩
        | recv => cases hz
    · obtain ⟨htm, y, hy, hyi, hyw⟩ := list hm
      refine ⟨⟨x, y⟩, C65_simulcast.2 ⟨_, attr_at c%"simulcast" rfl (by decide) rfl _, .send, .recv, l, by decide, hx, .inr ⟨m, [], ?_, hy⟩⟩, ?_, by
        have := both hl hm
        simpa [showSimulcast, nonEmpty, hxw, hyw, joinS] using this⟩
      · rw [words_iff, splitWs_trim]
        simp only [List.append_nil, List.append_assoc]
        exact (splitWs_token (a := c%"send") ⟨by decide, by decide⟩).trans (congrArg (c%"send" :: ·) ((splitWs_token htl).trans
          (congrArg (l :: ·) ((splitWs_token (a := c%"recv") ⟨by decide, by decide⟩).trans (congrArg (c%"recv" :: ·) (splitWs_last htm))))))
      · have hf := f4 (d := c%"send") (e := c%"recv") (by decide) htl (by decide) htm
        intro d z hz i hi
        cases d with
        | send =>
          obtain ⟨alts, a, ids, h⟩ := hxi z hz i hi
          exact ⟨_, l, alts, a, ids, by simpa [singleDirectionText] using hf, .inl ⟨_, rfl⟩, h⟩
        | recv =>
          obtain ⟨alts, a, ids, h⟩ := hyi z hz i hi
          exact ⟨_, m, alts, a, ids, by simpa [singleDirectionText] using hf, .inr ⟨_, _, rfl⟩, h⟩
  · obtain ⟨_, _, rfl, ⟨_, _, rfl, rfl, _, _, rfl, rfl, l, _, rfl, hl, rfl⟩, o, _, rfl, ho, rfl⟩ := h
    obtain ⟨htl, x, hx, hxi, hxw⟩ := list hl
    rcases ho with rfl | ⟨_, _, rfl, rfl, _, _, rfl, ⟨_, _, rfl, rfl, _, _, rfl, rfl, m, _, rfl, hm, rfl⟩, rfl⟩
    · refine ⟨⟨[], x⟩, C65_simulcast.2 ⟨_, attr_at c%"simulcast" rfl (by decide) rfl _, .recv, .send, l, by decide, hx, .inl ⟨?_, rfl⟩⟩, ?_, by
        have := one (.inr rfl) hl
        have e : maybeVec c%"send " [] [';'] [] = [] := rfl
        simpa [showSimulcast, nonEmpty, hxw, e, joinS] using this⟩
      · rw [words_iff, splitWs_trim]
        simp only [List.append_nil]
        exact (splitWs_token (a := c%"recv") ⟨by decide, by decide⟩).trans (congrArg (c%"recv" :: ·) (splitWs_last htl))
      · have hf := f2 (d := c%"recv") (by decide) htl
        intro d z hz i hi
        cases d with
        | recv =>
          obtain ⟨alts, a, ids, h⟩ := hxi z hz i hi
          exact ⟨_, l, alts, a, ids, by simpa [singleDirectionText] using hf, .inl ⟨_, rfl⟩, h⟩
        | send => cases hz
    · obtain ⟨htm, y, hy, hyi, hyw⟩ := list hm
      refine ⟨⟨y, x⟩, C65_simulcast.2 ⟨_, attr_at c%"simulcast" rfl (by decide) rfl _, .recv, .send, l, by decide, hx, .inr ⟨m, [], ?_, hy⟩⟩, ?_, by
        have := both hm hl
        simpa [showSimulcast, nonEmpty, hxw, hyw, joinS] using this⟩
      · rw [words_iff, splitWs_trim]
        simp only [List.append_nil, List.append_assoc]
        exact (splitWs_token (a := c%"recv") ⟨by decide, by decide⟩).trans (congrArg (c%"recv" :: ·) ((splitWs_token htl).trans
          (congrArg (l :: ·) ((splitWs_token (a := c%"send") ⟨by decide, by decide⟩).trans (congrArg (c%"send" :: ·) (splitWs_last htm))))))
      · have hf := f4 (d := c%"recv") (e := c%"send") (by decide) htl (by decide) htm
        intro d z hz i hi
        cases d with
        | recv =>
          obtain ⟨alts, a, ids, h⟩ := hxi z hz i hi
          exact ⟨_, l, alts, a, ids, by simpa [singleDirectionText] using hf, .inl ⟨_, rfl⟩, h⟩
        | send =>
          obtain ⟨alts, a, ids, h⟩ := hyi z hz i hi
          exact ⟨_, m, alts, a, ids, by simpa [singleDirectionText] using hf, .inr ⟨_, _, rfl⟩, h⟩

/-- **C106.** `simulcast` (RFC 8853, 5.1). -/
theorem C106_simulcast {v : Str} (h : Rfc.simulcast v) : ∃ s, attrFromStr (c%"simulcast:" ++ v) = .ok (.simulcast s) ∧
    ∀ d, ∀ x ∈ s.of d, ∀ i ∈ x.ids, Rfc.SimulcastHas v (singleDirectionText d) i.id :=
  let ⟨s, h, h', _⟩ := rfc_simulcast h; ⟨s, h, h'⟩

/-- The last text loses the white space at its end. -/
private def trimLast : List Str → List Str
  | [] => []
  | [q] => [trimEnd q]
  | a :: b :: l => a :: trimLast (b :: l)

omit [Env] in
private theorem trimEnd_joinS (c : Char) {fs : List Str} (h : ∀ f ∈ fs, ¬ Blank f) :
    trimEnd (joinS [c] fs) = joinS [c] (trimLast fs) := by
  induction fs with
  | nil => rfl
  | cons a fs ih =>
    cases fs with
    | nil => rfl
    | cons b fs =>
      have ih := ih fun f hf => h f (by simp [hf])
      have hb : ¬ Blank (joinS [c] (b :: fs)) := by
        intro hb
        refine h b (by simp) fun x hx => hb x ?_
        cases fs <;> simp [joinS, hx]
      have e : joinS [c] (a :: b :: fs) = a ++ [c] ++ joinS [c] (b :: fs) := rfl
      have e' : joinS [c] (trimLast (a :: b :: fs)) = a ++ [c] ++ joinS [c] (trimLast (b :: fs)) := by
        cases fs <;> rfl
      rw [e, e', trimEnd_append hb, ih]

omit [Env] in
private theorem trimLast_mem {P : Str → Prop} (hP : ∀ f, P f → P (trimEnd f)) {fs : List Str} (h : ∀ f ∈ fs, P f) :
    ∀ f ∈ trimLast fs, P f := by
  induction fs with
  | nil => simp [trimLast]
  | cons a fs ih =>
    cases fs with
    | nil => simpa [trimLast] using hP a (h a (by simp))
    | cons b fs =>
      intro f hf
      rcases List.mem_cons.1 hf with rfl | hf
      · exact h f (by simp)
      · exact ih (fun f hf => h f (by simp [hf])) f hf

omit [Env] in
private theorem trimLast_cons (a : Str) (fs : List Str) : ∃ a', trimLast (a :: fs) = a' :: trimLast fs ∧ (a' = a ∨ a' = trimEnd a) := by
  cases fs with
  | nil => exact ⟨_, rfl, .inr rfl⟩
  | cons b fs => exact ⟨a, rfl, .inl rfl⟩

/-- What matters of a parameter. -/
private def RidOk (t : Str) : Prop :=
  ∃ k v, t = k ++ '=' :: v ∧ '=' ∉ k ∧ (∀ c ∈ t, c ≠ ';') ∧ k ≠ c%"pt" ∧ (∀ f : RidField, k = f.text → ∃ n < 2 ^ 32, DecText v n) ∧
    Rfc.ridParam t ∧ (k = c%"depends" → Rfc.paramVal v)

omit [Env] in
private theorem ridOk_blank {t : Str} (h : RidOk t) : ¬ Blank t := by
  obtain ⟨k, v, rfl, -⟩ := h
  intro hb
  have := hb '=' (by simp)
  exact absurd this (by decide)

omit [Env] in
private theorem decText_token {v : Str} {n : Nat} (h : DecText v n) : Token v := by
  obtain ⟨ds, h, hne, hd, -⟩ := h
  rcases h with rfl | rfl
  · exact ⟨hne, fun c hc => vchar_ws (by have := digit_nat (hd c hc); omega)⟩
  · refine ⟨by simp, fun c hc => ?_⟩
    rcases List.mem_cons.1 hc with rfl | hc
    · rfl
    · exact vchar_ws (by have := digit_nat (hd c hc); omega)

omit [Env] in
private theorem ridOk_trim {t : Str} (h : RidOk t) : RidOk (trimEnd t) := by
  obtain ⟨k, v, rfl, hk, hs, hp, hn, hr, hd⟩ := h
  have e : trimEnd (k ++ '=' :: v) = k ++ '=' :: trimEnd v := by
    rw [trimEnd_append (fun hb => absurd (hb '=' (by simp)) (by decide)), trimEnd_cons rfl]
  obtain ⟨w, hw, hv⟩ := trimEnd_spec v
  have sub {v : Str} (h : Rfc.paramVal v) : Rfc.paramVal (trimEnd v) := by
    obtain ⟨w, -, hv⟩ := trimEnd_spec v
    exact rep_char.2 ⟨by omega, fun c hc => (rep_char.1 h).2 c (by rw [hv]; simp [hc])⟩
  refine ⟨k, trimEnd v, e, hk, ?_, hp, fun f hf => ?_, ?_, fun h => sub (hd h)⟩
  · intro c hc
    rw [e] at hc
    refine hs c ?_
    rw [hv]
    simp at hc ⊢
    tauto
  · obtain ⟨n, hn, h⟩ := hn f hf
    refine ⟨n, hn, ?_⟩
    have : trimEnd v = v := trimEnd_ends (decText_token h).ends
    rwa [this]
  · obtain ⟨r, hr, h⟩ := hr
    simp only [List.mem_cons, List.not_mem_nil, or_false] at hr
    rcases hr with rfl | rfl
    · have hr : Rfc.ridParam (k ++ '=' :: v) := ⟨_, List.mem_cons_self, h⟩
      obtain ⟨k', _, hkv, -, _, _, rfl, rfl, n, _, rfl, hn', rfl⟩ := h
      have hend : EndsClean (k ++ '=' :: v) := by
        obtain ⟨r, c, h1, h2⟩ := (number_token hn').ends
        refine ⟨k' ++ '=' :: r, c, ?_, h2⟩
        rw [hkv, h1]; simp
      rw [trimEnd_ends hend]
      exact hr
    · obtain ⟨k', _, hkv, hk', _, _, rfl, rfl, v', _, rfl, hv', rfl⟩ := h
      have hke : '=' ∉ k' := by
        intro hm
        have := (ridChar (c := '=') (by have := (rep_char.1 hk'.1).2 _ hm; rw [this]; rfl)).2
        simp at this
      have h1 := pair_iff.1 (⟨rfl, hk⟩ : PairText (k ++ '=' :: v) (k, v))
      have h2 := pair_iff.1 (⟨by simpa using hkv, hke⟩ : PairText (k ++ '=' :: v) (k', v'))
      rw [h1] at h2
      simp at h2
      obtain ⟨rfl, rfl⟩ := h2
      rw [e]
      exact ⟨_, List.mem_cons_of_mem _ List.mem_cons_self, rfc_seq_cons ⟨hk'.1, by simpa using hk'.2⟩ (rfc_seq_cons (u := ['=']) rfl (rfc_seq_one (sub hv')))⟩

omit [Env] in
private theorem rid_param {t : Str} (h : Rfc.ridParam t) : RidOk t := by
  have h0 := h
  obtain ⟨r, hr, h⟩ := h
  simp only [List.mem_cons, List.not_mem_nil, or_false] at hr
  rcases hr with rfl | rfl
  · obtain ⟨k, _, rfl, ⟨r, hr, hk⟩, _, _, rfl, rfl, n, _, rfl, hn, rfl⟩ := h
    have hk : '=' ∉ k ∧ ';' ∉ k ∧ k ≠ c%"pt" ∧ k ≠ c%"depends" := by
      simp only [List.mem_cons, List.not_mem_nil, or_false] at hr
      rcases hr with rfl | rfl | rfl | rfl | rfl | rfl <;> obtain rfl := hk <;> exact ⟨by decide, by decide, by decide, by decide⟩
    obtain ⟨h1, h2⟩ := number_dec hn
    refine ⟨k, n, by simp, hk.1, ?_, hk.2.2.1, fun f _ => ⟨_, by omega, h1⟩, h0, fun h => absurd h hk.2.2.2⟩
    intro c hc h
    subst h
    simp at hc
    rcases hc with h | h
    · exact hk.2.1 h
    · exact number_not_mem hn rfl h
  · obtain ⟨k, _, rfl, ⟨hk, hne⟩, _, _, rfl, rfl, v, _, rfl, hv, rfl⟩ := h
    have hkc : ∀ c ∈ k, c ≠ '=' ∧ c ≠ ';' := by
      intro c hc
      have := (ridChar (c := c) (by have := (rep_char.1 hk).2 c hc; rw [this]; rfl)).2
      simp at this; tauto
    have hvc : ∀ c ∈ v, c ≠ ';' := by
      rintro c hc rfl
      have := (rep_char.1 hv).2 _ hc
      simp at this
    refine ⟨k, v, by simp, fun h => (hkc _ h).1 rfl, ?_, fun h => hne (by simp [h]), fun f hf => absurd ?_ hne, h0, fun _ => hv⟩
    · intro c hc
      simp at hc
      rcases hc with h | rfl | h
      · exact (hkc c h).2
      · decide
      · exact hvc c h
    · rw [hf]; cases f <;> decide

omit [Env] in
private theorem rid_params {fs : List Str} (h : ∀ f ∈ fs, RidOk f) : ∃ p d, RidParametersText fs p d ∧
    (∀ u ∈ p.unknown, Rfc.ridParam u) ∧ ∀ x ∈ d, Rfc.paramVal x := by
  obtain ⟨kvs, hk⟩ := rfc_each_of (R := PairText) (l := fs) fun f hf => by
    obtain ⟨k, v, e, hk, -⟩ := h f hf; exact ⟨(k, v), e, hk⟩
  have hn : ∀ f : RidField, ∀ kv ∈ kvs, kv.1 = f.text → ∃ n < 2 ^ 32, DecText kv.2 n := by
    induction fs generalizing kvs with
    | nil => cases kvs with
      | nil => simp
      | cons => exact hk.elim
    | cons t fs ih => cases kvs with
      | nil => exact hk.elim
      | cons kv kvs =>
        intro f x hx he
        rcases List.mem_cons.1 hx with rfl | hx
        · obtain ⟨k, v, e, hk', -, -, hn, -⟩ := h t (by simp)
          have h1 := pair_iff.1 hk.1
          have h2 := pair_iff.1 (⟨e, hk'⟩ : PairText t (k, v))
          rw [h1] at h2
          simp at h2
          rw [h2.2]
          exact hn f (by rw [← h2.1]; exact he)
        · exact ih (fun f hf => h f (by simp [hf])) kvs hk.2 f x hx he
  obtain ⟨⟨p, d⟩, hb⟩ := ridParamList_accepts hk hn RidState.default
  have hp := ridParams_iff.1 hb
  refine ⟨p, d, hp, ?_, ?_⟩
  · obtain ⟨kvs, h1, -, -, h4⟩ := hp
    intro u hu
    obtain ⟨kv, hkv⟩ := each_mem h4 u hu
    obtain ⟨kv', hkv', h5⟩ := rfc_each_mem h4 hu
    obtain ⟨f, hf, h6⟩ := rfc_each_back h1 (List.mem_filter.1 hkv').1
    have : u = f := h5.1.trans h6.1.symm
    obtain ⟨_, _, -, -, -, -, -, h7, -⟩ := h f hf
    exact this ▸ h7
  · obtain ⟨kvs, h1, -, ⟨ds, h3, rfl⟩, -⟩ := hp
    intro x hx
    obtain ⟨dl, hdl, hx⟩ := List.mem_flatten.1 hx
    obtain ⟨kv, hkv, hfl⟩ := rfc_each_back h3 hdl
    obtain ⟨hkv, hname⟩ := List.mem_filter.1 hkv
    obtain ⟨f, hf, h6⟩ := rfc_each_back h1 hkv
    obtain ⟨k, v, e, hk', -, -, -, -, h7⟩ := h f hf
    have e1 := pair_iff.1 h6
    have e2 := pair_iff.1 (⟨e, hk'⟩ : PairText f (k, v))
    rw [e1] at e2
    simp at e2
    have hv := h7 (by rw [← e2.1]; simpa using hname)
    refine rep_char.2 ⟨by omega, fun c hc => (rep_char.1 hv).2 c ?_⟩
    rw [← e2.2, hfl.2.2]
    exact joinS_mem hx c hc

theorem rfc_rid {v : Str} (h : Rfc.rid v) : ∃ r, attrFromStr (c%"rid:" ++ v) = .ok (.rid r) ∧
    (∃ fs, Rfc.RidHas v r.id (singleDirectionText r.direction) fs ∧ Each (fun f (n : UInt16) => DecText f n.toNat) fs r.formats) ∧
    Rfc.ridId r.id ∧ (∀ u ∈ r.params.unknown, Rfc.ridParam u) ∧ ∀ x ∈ r.depends, Rfc.paramVal x := by
  obtain ⟨i, _, rfl, hi, _, _, rfl, rfl, d, _, rfl, hd, o, _, rfl, ho, rfl⟩ := h
  obtain ⟨hit, hic⟩ := ridId_facts hi
  have his : ' ' ∉ i := fun h => hic _ h (by simp)
  have hd : ∃ dir, d = singleDirectionText dir := by
    obtain ⟨r, hr, hd⟩ := hd
    simp only [List.mem_cons, List.not_mem_nil, or_false] at hr
    rcases hr with rfl | rfl
    · exact ⟨.send, hd⟩
    · exact ⟨.recv, hd⟩
  obtain ⟨dir, rfl⟩ := hd
  have hdt : Token (singleDirectionText dir) := by cases dir <;> exact ⟨by decide, by decide⟩
  have hbase : Trimmed (i ++ ' ' :: singleDirectionText dir) := by
    have := rfc_trimmed_between hit hdt [' ']
    simpa using this
  have sp {s : Str} (h : Token s) : ' ' ∉ s := fun hm => absurd (h.2 _ hm) (by decide)
  have with_ {fs : List Str} (h0 : fs ≠ []) (hb : ∀ f ∈ fs, ¬ Blank f) :
      trim (i ++ ' ' :: singleDirectionText dir ++ ' ' :: joinS [';'] fs) =
        i ++ ' ' :: singleDirectionText dir ++ ' ' :: joinS [';'] (trimLast fs) := by
    rw [rfc_trim_after hbase, show ' ' :: joinS [';'] fs = [' '] ++ joinS [';'] fs from rfl, trimEnd_append, trimEnd_joinS _ hb]
    · rfl
    · intro hbl
      cases fs with
      | nil => exact h0 rfl
      | cons f fs =>
        refine hb f (by simp) fun x hx => hbl x ?_
        cases fs <;> simp [joinS, hx]
  rcases ho with rfl | ⟨r, hr, ho⟩
  · obtain ⟨p, dep, hp, hun, hdep⟩ := rid_params (fs := []) (by simp)
    refine ⟨⟨i, dir, [], p, dep⟩, C66_rid.2 ⟨_, attr_at c%"rid" rfl (by decide) rfl _, his, .inl ⟨?_, rfl, hp⟩⟩,
      ⟨[], ⟨[], ?_, his, sp hdt, .inl ⟨.inl rfl, by simp, rfl⟩⟩, trivial⟩, hi, hun, hdep⟩
    · simp only [List.append_nil]
      exact hbase.trim
    · simp
  · simp only [List.mem_cons, List.not_mem_nil, or_false] at hr
    rcases hr with rfl | rfl
    · obtain ⟨_, _, rfl, rfl, _, _, rfl, rfl, n, _, rfl, hn, m, _, rfl, hm, q, _, rfl, hq, rfl⟩ := ho
      obtain ⟨ns, -, hns, rfl⟩ := rep_sep hm
      obtain ⟨ps, -, hps, rfl⟩ := rep_sep hq
      have hall : ∀ w ∈ n :: ns, number 65535 w := by simpa using ⟨hn, hns⟩
      have hps : ∀ w ∈ ps, RidOk w := fun w h => rid_param (hps w h)
      have hl : Token (n ++ (ns.map (',' :: ·)).flatten) ∧ ∀ c ∈ n ++ (ns.map (',' :: ·)).flatten, c ≠ ';' := by
        rw [joinS_words]
        refine ⟨⟨?_, ?_⟩, ?_⟩
        · have := hn.1
          cases ns <;> simp [joinS, this]
        all_goals
          intro c hc
          rcases mem_joinS hc with h | ⟨t, ht, hc⟩
          · simp at h; subst h; first | rfl | decide
          · have := hall t ht
            first | exact (number_token this).2 c hc | (rintro rfl; exact number_not_mem this rfl hc)
      generalize hlg : n ++ (ns.map (',' :: ·)).flatten = l at hl
      have hfl : Fields ',' l (n :: ns) := by
        rw [fields_iff, ← hlg]
        exact splitC_words (number_not_mem hn rfl) fun w hw => number_not_mem (hns w hw) rfl
      obtain ⟨nums, hnums'⟩ := rfc_each_of (R := fun f (n : UInt16) => (∃ w, Stripped f w ∧ DecText w n.toNat) ∧ DecText f n.toNat)
        (l := n :: ns) fun f hf => by
          obtain ⟨x, hx, -⟩ := number_u16 (hall f hf) (by omega)
          exact ⟨x, ⟨f, stripped_iff.2 (trim_noWs (number_token (hall f hf)).2).symm, hx⟩, hx⟩
      have hnums := each_iff.2 ((each_iff.1 hnums').imp fun _ _ h => h.1)
      have hpl : Token (c%"pt=" ++ l) := ⟨by simp, fun c hc => by
        rcases List.mem_append.1 hc with h | h
        · have : ∀ c ∈ c%"pt=", isWs c = false := by decide
          exact this c h
        · exact hl.1.2 c h⟩
      have e : i ++ ([' '] ++ (singleDirectionText dir ++ ([' '] ++ (c%"pt=" ++ (n ++ ((ns.map (',' :: ·)).flatten ++
          ((ps.map (';' :: ·)).flatten ++ [])))) ++ []))) =
          i ++ ' ' :: singleDirectionText dir ++ ' ' :: joinS [';'] ((c%"pt=" ++ l) :: ps) := by
        rw [← joinS_words, ← hlg]
        simp
      obtain ⟨h', h1, h2⟩ := trimLast_cons (c%"pt=" ++ l) ps
      have h2 : h' = c%"pt=" ++ l := by
        rcases h2 with h2 | h2
        · exact h2
        · rw [h2, trimEnd_ends hpl.ends]
      subst h2
      have hps' := trimLast_mem (P := RidOk) (fun f => ridOk_trim) hps
      obtain ⟨p, dep, hp, hun, hdep⟩ := rid_params hps'
      refine ⟨⟨i, dir, nums, p, dep⟩, C66_rid.2 ⟨_, attr_at c%"rid" rfl (by decide) rfl _, his, .inr
        ⟨joinS [';'] ((c%"pt=" ++ l) :: trimLast ps), (c%"pt=" ++ l) :: trimLast ps, ?_, ?_, .inl ⟨l, n :: ns, trimLast ps, rfl, hfl, hnums, hp⟩⟩⟩,
        ⟨n :: ns, ⟨c%" pt=" ++ joinS c%"," (n :: ns) ++ (ps.map (';' :: ·)).flatten, ?_, his, sp hdt, .inr ⟨_, rfl, ?_, by simp, fun f hf => ?_⟩⟩,
        each_iff.2 ((each_iff.1 hnums').imp fun _ _ h => h.2)⟩, hi, hun, hdep⟩
      · rw [e, with_ (by simp), h1]
        intro f hf
        rcases List.mem_cons.1 hf with rfl | hf
        · exact fun hb => by
            have := hb 'p' (by simp)
            exact absurd this (by decide)
        · exact ridOk_blank (hps f hf)
      · refine ⟨by simp, ?_, rfl⟩
        intro f hf
        rcases List.mem_cons.1 hf with rfl | hf
        · intro h
          rcases List.mem_append.1 h with h | h
          · exact absurd h (by decide)
          · exact hl.2 _ h rfl
        · obtain ⟨_, _, -, -, h, -⟩ := hps' f hf
          exact fun hm => h _ hm rfl
      · rw [← joinS_words]
        simp
      · cases ps with
        | nil => exact .inl rfl
        | cons p ps => exact .inr ⟨p ++ (ps.map (';' :: ·)).flatten, by simp⟩
      · exact ⟨(hall f hf).1, (hall f hf).2.1⟩
    · obtain ⟨_, _, rfl, rfl, t, _, rfl, ht, q, _, rfl, hq, rfl⟩ := ho
      obtain ⟨ps, -, hps, rfl⟩ := rep_sep hq
      have hall : ∀ w ∈ t :: ps, RidOk w := by
        intro w hw
        rcases List.mem_cons.1 hw with rfl | hw
        · exact rid_param ht
        · exact rid_param (hps w hw)
      have e : i ++ ([' '] ++ (singleDirectionText dir ++ ([' '] ++ (t ++ ((ps.map (';' :: ·)).flatten ++ [])) ++ []))) =
          i ++ ' ' :: singleDirectionText dir ++ ' ' :: joinS [';'] (t :: ps) := by
        rw [← joinS_words]
        simp
      have hall' := trimLast_mem (P := RidOk) (fun f => ridOk_trim) hall
      obtain ⟨p, dep, hp, hun, hdep⟩ := rid_params hall'
      refine ⟨⟨i, dir, [], p, dep⟩, C66_rid.2 ⟨_, attr_at c%"rid" rfl (by decide) rfl _, his, .inr
        ⟨joinS [';'] (trimLast (t :: ps)), trimLast (t :: ps), ?_, ⟨?_, ?_, rfl⟩, .inr ⟨?_, rfl, hp⟩⟩⟩,
        ⟨[], ⟨' ' :: (t ++ (ps.map (';' :: ·)).flatten), ?_, his, sp hdt, .inl ⟨.inr ⟨_, rfl⟩, ?_, rfl⟩⟩, trivial⟩, hi, hun, hdep⟩
      · rw [e, with_ (by simp)]
        exact fun f hf => ridOk_blank (hall f hf)
      · obtain ⟨a', h, -⟩ := trimLast_cons t ps
        rw [h]; simp
      · intro f hf
        obtain ⟨_, _, -, -, h, -⟩ := hall' f hf
        exact fun hm => h _ hm rfl
      · intro l ps' he
        obtain ⟨k, x, e1, hk, -, hne, -⟩ := hall' (c%"pt=" ++ l) (by rw [he]; simp)
        have h1 := pair_iff.1 (⟨e1, hk⟩ : PairText _ (k, x))
        have h2 := pair_iff.1 (⟨rfl, show '=' ∉ c%"pt" by decide⟩ : PairText (c%"pt" ++ '=' :: l) (c%"pt", l))
        have e2 : c%"pt=" ++ l = c%"pt" ++ '=' :: l := rfl
        rw [e2, h2] at h1
        simp at h1
        exact hne h1.1.symm
      · simp
      · obtain ⟨k, x, e1, hk, -, hne, -⟩ := hall t (by simp)
        rintro ⟨y, hy⟩
        have h1 := pair_iff.1 (⟨e1, hk⟩ : PairText _ (k, x))
        rw [e1] at hy
        have h2 : k ++ '=' :: (x ++ (ps.map (';' :: ·)).flatten) = c%"pt" ++ '=' :: y := by simpa using hy.symm
        have h3 := pair_iff.1 (⟨rfl, hk⟩ : PairText (k ++ '=' :: (x ++ (ps.map (';' :: ·)).flatten)) (k, _))
        have h4 := pair_iff.1 (⟨rfl, show '=' ∉ c%"pt" by decide⟩ : PairText (c%"pt" ++ '=' :: y) (c%"pt", y))
        rw [h2, h4] at h3
        simp at h3
        exact hne h3.1.symm

/-- **C106.** `rid` (RFC 8851, 10). -/
theorem C106_rid {v : Str} (h : Rfc.rid v) : ∃ r, attrFromStr (c%"rid:" ++ v) = .ok (.rid r) ∧
    ∃ fs, Rfc.RidHas v r.id (singleDirectionText r.direction) fs ∧ Each (fun f (n : UInt16) => DecText f n.toNat) fs r.formats :=
  let ⟨r, h, h', _⟩ := rfc_rid h; ⟨r, h, h'⟩

/-- The name of an extension that has no rule of its own. -/
def rfcExtName (s : Str) : Prop :=
  Rfc.token s ∧ ∀ n ∈ [c%"tcptype", c%"generation", c%"network-cost", c%"raddr", c%"rport"], ¬ word n s

/-- What is said about the extensions of a candidate. -/
private def PairFrom (p : Str × Str) : Prop :=
  (lower p.1 = CandExt.raddr.text → ∀ a, parseAddress p.2 = .ok a → FromAddress a) ∧
  (lower p.1 = CandExt.ufrag.text → rep 1 (char Rfc.isVchar) p.2) ∧
  (lower p.1 ∉ candExtNames → rfcExtName p.1 ∧ rep 1 (char Rfc.isVchar) p.2)

theorem rfc_candidate {v : Str} (h : Rfc.candidate v) : ∃ c, attrFromStr (c%"candidate:" ++ v) = .ok (.candidate c) ∧
    Rfc.foundation c.foundation ∧ c.component.toNat ≤ 999 ∧ c.priority.toNat ≤ 10 ^ 10 - 1 ∧ FromAddress c.address ∧
    c.port.toNat ≤ 65535 ∧ (∀ a, c.raddr = some a → FromAddress a) ∧ (∀ n, c.rport = some n → n.toNat ≤ 65535) ∧
    (∀ u, c.ufrag = some u → rep 1 (char Rfc.isVchar) u) ∧
    ∀ p ∈ c.unknownExtensions, rfcExtName p.1 ∧ rep 1 (char Rfc.isVchar) p.2 := by
  obtain ⟨f, _, rfl, hf, _, _, rfl, rfl, c, _, rfl, hc, _, _, rfl, rfl, t, _, rfl, ht, _, _, rfl, rfl, p, _, rfl, hp, _, _, rfl, rfl,
    a, _, rfl, ha, _, _, rfl, rfl, q, _, rfl, hq, _, _, rfl, rfl, _, _, rfl,
    ⟨ty, _, rfl, hty, _, _, rfl, rfl, ct, _, rfl, hct, rfl⟩, ra, _, rfl, hra, rp, _, rfl, hrp, ex, _, rfl, hex, rfl⟩ := h
  have hft : Token f := token_of_chars (reps_rep hf) (by omega) fun _ => iceChar
  obtain ⟨x, hx, hx'⟩ := number_u32 hc (by omega)
  obtain ⟨y, hy, hy'⟩ := number_u64 hp (by omega)
  obtain ⟨z, hz, hz'⟩ := number_u32 hq (by omega)
  obtain ⟨hat, adr, hadr, hfrom⟩ := rfc_address_ok ha
  have htr : ∃ tr, Token t ∧ lower t = transportText tr := by
    obtain ⟨r, hr, h⟩ := ht
    simp only [List.mem_cons, List.not_mem_nil, or_false] at hr
    rcases hr with rfl | rfl
    · exact ⟨.udp, word_token (by decide) (by decide) h, lower_word (by decide) h⟩
    · exact ⟨.tcp, word_token (by decide) (by decide) h, lower_word (by decide) h⟩
  obtain ⟨tr, htt, htr⟩ := htr
  have hcty : ∃ k, Token ct ∧ lower ct = candTypeText k := by
    obtain ⟨r, hr, h⟩ := hct
    simp only [List.mem_cons, List.not_mem_nil, or_false] at hr
    rcases hr with rfl | rfl | rfl | rfl
    · exact ⟨.host, word_token (by decide) (by decide) h, lower_word (by decide) h⟩
    · exact ⟨.srflx, word_token (by decide) (by decide) h, lower_word (by decide) h⟩
    · exact ⟨.prflx, word_token (by decide) (by decide) h, lower_word (by decide) h⟩
    · exact ⟨.relay, word_token (by decide) (by decide) h, lower_word (by decide) h⟩
  obtain ⟨k, hctt, hk⟩ := hcty
  have htyt : Token ty := word_token (by decide) (by decide) hty
  have hpair {n : Str} {kk : CandExt} {a b : Str} (hn : word n a) (hna : ∀ c ∈ n, 0x21 ≤ c.toNat ∧ c.toNat ≤ 0x7e) (hne : n ≠ [])
      (hkk : n.map Char.toLower = kk.text) (hb : Token b) (hl : kk.Legal b)
      (hfr : kk = .raddr → ∀ a, parseAddress b = .ok a → FromAddress a) (huf : kk ≠ .ufrag) :
      Token a ∧ Token b ∧ (∀ k : CandExt, lower a = k.text → k.Legal b) ∧ PairFrom (a, b) := by
    have h1 := lower_word (fun c hc => by have := hna c hc; omega) hn
    have same {k : CandExt} (h : lower a = k.text) : kk = k := by
      rw [h1, hkk] at h
      revert h; cases kk <;> cases k <;> decide
    refine ⟨word_token hna hne hn, hb, fun k h => same h ▸ hl, fun h => hfr (same h), fun h => absurd (same h) huf, fun h => ?_⟩
    exact absurd (mem_candExtNames.2 ⟨kk, h1.trans hkk⟩) h
  -- the pairs
  have part {s : Str} (h : ∃ ps : List (Str × Str), s = ((pairTokens ps).map (' ' :: ·)).flatten ∧
      ∀ p ∈ ps, Token p.1 ∧ Token p.2 ∧ (∀ k : CandExt, lower p.1 = k.text → k.Legal p.2) ∧ PairFrom p) :
      ∃ ps : List (Str × Str), s = ((pairTokens ps).map (' ' :: ·)).flatten ∧
      ∀ p ∈ ps, Token p.1 ∧ Token p.2 ∧ (∀ k : CandExt, lower p.1 = k.text → k.Legal p.2) ∧ PairFrom p := h
  obtain ⟨ps1, rfl, h1⟩ := part (s := ra) (by
    rcases hra with rfl | ⟨_, _, rfl, rfl, _, _, rfl, ⟨n, _, rfl, hn, _, _, rfl, rfl, b, _, rfl, hb, rfl⟩, rfl⟩
    · exact ⟨[], rfl, by simp⟩
    · obtain ⟨hbt, adr', hadr', hfrom'⟩ := rfc_address_ok hb
      exact ⟨[(n, b)], by simp [pairTokens], by
        simpa using hpair (kk := .raddr) hn (by decide) (by decide) rfl hbt ⟨adr', parseAddress_iff.2 hadr'⟩
          (fun _ a ha => by rw [parseAddress_iff.2 hadr'] at ha; cases ha; exact hfrom') (by decide)⟩)
  obtain ⟨ps2, rfl, h2⟩ := part (s := rp) (by
    rcases hrp with rfl | ⟨_, _, rfl, rfl, _, _, rfl, ⟨n, _, rfl, hn, _, _, rfl, rfl, b, _, rfl, hb, rfl⟩, rfl⟩
    · exact ⟨[], rfl, by simp⟩
    · obtain ⟨hb1, hb2⟩ := number_dec hb
      exact ⟨[(n, b)], by simp [pairTokens], by
        simpa using hpair (kk := .rport) hn (by decide) (by decide) rfl (number_token hb) ⟨_, hb2, hb1⟩
          (fun h => by cases h) (by decide)⟩)
  obtain ⟨ps3, rfl, h3⟩ := part (s := ex) (by
    obtain ⟨ws, -, hw, rfl⟩ := rep_sep hex
    clear hex
    induction ws with
    | nil => exact ⟨[], rfl, by simp⟩
    | cons w ws ih =>
      obtain ⟨ps, hps, hh⟩ := ih fun w h => hw w (by simp [h])
      have one : ∃ n b, w = n ++ ' ' :: b ∧ Token n ∧ Token b ∧ (∀ k : CandExt, lower n = k.text → k.Legal b) ∧ PairFrom (n, b) := by
        obtain ⟨r, hr, h⟩ := hw w (by simp)
        simp only [List.mem_cons, List.not_mem_nil, or_false] at hr
        rcases hr with rfl | rfl | rfl | rfl
        · obtain ⟨n, _, rfl, hn, _, _, rfl, rfl, b, _, rfl, ⟨r, hr, hb⟩, rfl⟩ := h
          simp only [List.mem_cons, List.not_mem_nil, or_false] at hr
          have : Token b ∧ ∃ t, lower b = tcpTypeText t := by
            rcases hr with rfl | rfl | rfl
            · exact ⟨word_token (by decide) (by decide) hb, .active, lower_word (by decide) hb⟩
            · exact ⟨word_token (by decide) (by decide) hb, .passive, lower_word (by decide) hb⟩
            · exact ⟨word_token (by decide) (by decide) hb, .simultaneous, lower_word (by decide) hb⟩
          exact ⟨n, b, by simp, hpair (kk := .tcptype) hn (by decide) (by decide) rfl this.1 this.2 (fun h => by cases h) (by decide)⟩
        · obtain ⟨n, _, rfl, hn, _, _, rfl, rfl, b, _, rfl, hb, rfl⟩ := h
          obtain ⟨hb1, hb2⟩ := number_dec hb
          exact ⟨n, b, by simp, hpair (kk := .generation) hn (by decide) (by decide) rfl (number_token hb) ⟨_, by omega, hb1⟩
            (fun h => by cases h) (by decide)⟩
        · obtain ⟨n, _, rfl, hn, _, _, rfl, rfl, b, _, rfl, hb, rfl⟩ := h
          obtain ⟨hb1, hb2⟩ := number_dec hb
          exact ⟨n, b, by simp, hpair (kk := .networkCost) hn (by decide) (by decide) rfl (number_token hb) ⟨_, by omega, hb1⟩
            (fun h => by cases h) (by decide)⟩
        · obtain ⟨n, _, rfl, ⟨hn, hno⟩, _, _, rfl, rfl, b, _, rfl, hb, rfl⟩ := h
          have hlow : lower n = n.map Char.toLower := by
            unfold lower
            rw [if_pos]
            · exact List.map_congr_left fun c _ => (C104_case c).1
            · simp only [isAscii, List.all_eq_true, decide_eq_true_eq]
              intro c hc
              have := (tokenChar ((rep_char.1 hn).2 c hc)).1
              omega
          have no {m : Str} (hm : m ∈ [c%"tcptype", c%"generation", c%"network-cost", c%"raddr", c%"rport"])
              (he : n.map Char.toLower = m.map Char.toLower) : False := hno m (by simpa using hm) he
          refine ⟨n, b, by simp, token_token hn, vchars_token hb, fun k hk => ?_, fun hk => ?_, fun _ => hb, fun _ => ⟨⟨hn, fun m hm => hno m (by simpa using hm)⟩, hb⟩⟩
          rotate_left
          · rw [hlow] at hk
            exact (no (m := c%"raddr") (by simp) hk).elim
          rw [hlow] at hk
          cases k with
          | ufrag => trivial
          | tcptype => exact (no (m := c%"tcptype") (by simp) hk).elim
          | generation => exact (no (m := c%"generation") (by simp) hk).elim
          | networkCost => exact (no (m := c%"network-cost") (by simp) hk).elim
          | raddr => exact (no (m := c%"raddr") (by simp) hk).elim
          | rport => exact (no (m := c%"rport") (by simp) hk).elim
      obtain ⟨n, b, rfl, hnb⟩ := one
      refine ⟨(n, b) :: ps, ?_, ?_⟩
      · rw [List.map_cons, List.flatten_cons, hps]
        simp [pairTokens]
      · intro p hp
        rcases List.mem_cons.1 hp with rfl | hp
        · exact hnb
        · exact hh p hp)
  have hps : ∀ p ∈ ps1 ++ ps2 ++ ps3, Token p.1 ∧ Token p.2 ∧ (∀ k : CandExt, lower p.1 = k.text → k.Legal p.2) ∧ PairFrom p := by
    intro p hp
    simp only [List.mem_append] at hp
    rcases hp with (hp | hp) | hp
    · exact h1 p hp
    · exact h2 p hp
    · exact h3 p hp
  have hpt : ∀ t ∈ pairTokens (ps1 ++ ps2 ++ ps3), Token t := by
    intro t ht
    obtain ⟨p, hp, ht⟩ := List.mem_flatMap.1 ht
    simp at ht
    rcases ht with rfl | rfl
    · exact (hps p hp).1
    · exact (hps p hp).2.1
  generalize hps0 : ps1 ++ ps2 ++ ps3 = ps at hps hpt
  have hv : splitWs (f ++ ([c, t, p, a, q, ty, ct] ++ pairTokens ps |>.map (' ' :: ·)).flatten) =
      f :: c :: t :: p :: a :: q :: ty :: ct :: pairTokens ps := by
    rw [splitWs_words hft]
    · rfl
    · intro w hw
      simp only [List.cons_append, List.nil_append, List.mem_cons] at hw
      rcases hw with rfl | rfl | rfl | rfl | rfl | rfl | rfl | hw
      · exact number_token hc
      · exact htt
      · exact number_token hp
      · exact hat
      · exact number_token hq
      · exact htyt
      · exact hctt
      · exact hpt w hw
  have hcand : IsCandidate (c%"candidate:" ++ (f ++ ([c, t, p, a, q, ty, ct] ++ pairTokens ps |>.map (' ' :: ·)).flatten))
      (f :: c :: t :: p :: a :: q :: ty :: ct :: pairTokens ps) := ⟨c%"candidate", _, rfl, by decide, rfl, hv⟩
  have hok := (C49_accepts hcand).2 ⟨⟨⟨f, x, tr, y, adr, z, k, none, none, none, none, none, none, []⟩,
    rfl, hx, htr, hy, parseAddress_iff.2 hadr, hz, hz', lower_word (by decide) hty, hk⟩, ps, rfl, fun p hp => (hps p hp).2.2.1⟩
  obtain ⟨at_, hat_⟩ := hok
  obtain ⟨cc, rfl, hbase, hun, hext⟩ := C49_values hcand hat_
  obtain ⟨b1, b2, -, b4, b5, -, b7, -⟩ := hbase
  have last (k : CandExt) : k.Absent cc ∨ ∃ p ∈ ps, lower p.1 = k.text ∧ k.Holds cc p.2 := by
    by_cases h : ∃ p ∈ ps, lower p.1 = k.text
    · obtain ⟨p, hp⟩ := exists_lastWith h
      obtain ⟨a, b, rfl, h1, -⟩ := id hp
      exact .inr ⟨p, by simp, h1, (hext k).1 p hp⟩
    · exact .inl ((hext k).2 fun p hp h1 => h ⟨p, hp, h1⟩)
  refine ⟨cc, ?_, b1 ▸ hf, ?_, ?_, ?_, b7, fun a ha => ?_, fun n hn => ?_, fun u hu => ?_, fun p hp => ?_⟩
  · rw [← hat_, ← hps0]
    simp [pairTokens]
  · rw [b2.unique hx]; exact hx'
  · rw [b4.unique hy]; exact hy'
  · rw [parseAddress_iff.2 hadr] at b5
    cases b5; exact hfrom
  · rcases last .raddr with h | ⟨p, hp, h1, a', h2, h3⟩
    · rw [show cc.raddr = none from h] at ha; cases ha
    · rw [h2] at ha; cases ha
      exact (hps p hp).2.2.2.1 h1 _ h3
  · rcases last .rport with h | ⟨p, hp, h1, n', h2, h3⟩
    · rw [show cc.rport = none from h] at hn; cases hn
    · rw [h2] at hn; cases hn
      obtain ⟨m, hm, h4⟩ := (hps p hp).2.2.1 .rport h1
      rw [h3.unique h4]; exact hm
  · rcases last .ufrag with h | ⟨p, hp, h1, h2⟩
    · rw [show cc.ufrag = none from h] at hu; cases hu
    · rw [show cc.ufrag = some p.2 from h2] at hu; cases hu
      exact (hps p hp).2.2.2.2.1 h1
  · rw [hun, List.mem_filter] at hp
    exact (hps p hp.1).2.2.2.2.2 (by simpa using hp.2)

/-- **C106.** `candidate` (RFC 8839, 5.1; RFC 6544, 4.5). -/
theorem C106_candidate {v : Str} (h : Rfc.candidate v) : ∃ c, attrFromStr (c%"candidate:" ++ v) = .ok (.candidate c) :=
  let ⟨c, h, _⟩ := rfc_candidate h; ⟨c, h⟩

end

/-! ## Where the library takes less than the standards, and concrete cases -/

section
attribute [local instance] sampleEnv

/-- **C106.** Texts that follow the standards and are rejected, one for each **only** of Verif/Spec/Rfc.lean: hash functions
in upper case or other than SHA, the direction `inactive` and ids from 65536, feedback in upper case, `ack` alone and
other parameters, times that are not integers, no ids, other transports, types and semantics, extensions with an empty
value, parameters without a value, directions in upper case and formats that are not numbers, addresses of another
family, numbers above the limit. -/
theorem C106_deviations : ∀ t ∈
    [c%"fingerprint:SHA-1 00:00:00:00:00:00:00:00:00:00:00:00:00:00:00:00:00:00:00:00",
     c%"fingerprint:md5 00:00:00:00:00:00:00:00:00:00:00:00:00:00:00:00",
     c%"extmap:1/inactive urn:x", c%"extmap:65536 urn:x",
     c%"rtcp-fb:* NACK", c%"rtcp-fb:* ack", c%"rtcp-fb:* nack ecn", c%"rtcp-fb:* ccm x", c%"rtcp-fb:* x",
     c%"ptime:2.5", c%"maxptime:2.5", c%"ssrc-group:FID", c%"ssrc-group:X 1", c%"group:X 1",
     c%"candidate:1 1 DCCP 1 10.0.0.1 9 typ host", c%"candidate:1 1 UDP 1 10.0.0.1 9 typ x",
     c%"candidate:1 1 UDP 1 10.0.0.1 9 typ host x ",
     c%"rid:a send max-width", c%"rid:a send x", c%"rid:a SEND", c%"rid:a send pt=x",
     c%"rtcp:9 IN IP4 ::1", c%"rtpmap:128 x/8000", c%"max-message-size:18446744073709551616"],
    (attrFromStr t).isOk = false := by decide +kernel

/-- **C106.** The name of the parameter with the dependencies is `depend` in RFC 8851, 10, and `depends` in the library:
the one of the RFC is taken as an unknown parameter, so the dependencies are lost. -/
theorem C106_depend :
    (match attrFromStr c%"rid:a send depend=b,c" with
      | .ok (.rid r) => some (r.depends, r.params.unknown)
      | _ => none) = some ([], [c%"depend=b,c"]) ∧
    (match attrFromStr c%"rid:a send depends=b,c" with
      | .ok (.rid r) => some (r.depends, r.params.unknown)
      | _ => none) = some ([c%"b", c%"c"], []) := by decide +kernel

/-- **C106.** All remote candidates but the first are lost. -/
theorem C106_remote_candidates_first :
    (match attrFromStr c%"remote-candidates:1 10.0.0.1 9 2 10.0.0.2 10" with
      | .ok (.remoteCandidate r) => some (r.component, r.port)
      | _ => none) = some (1, 9) := by decide +kernel

private theorem number_of {max : Nat} {s : Str} (h : s ≠ [] ∧ (∀ c ∈ s, c.isDigit = true) ∧ decValue s ≤ max) : number max s := h

private theorem sample_address : Rfc.address c%"10.0.0.1" :=
  ⟨_, List.mem_cons_self, .v4 0x0a000001, ipFromStr_iff.1 (by decide +kernel)⟩

example : Rfc.candidate c%"1a 1 udp 99 10.0.0.1 9 typ HOST raddr 10.0.0.1 rport 0 foo b:r" :=
  ⟨c%"1a", _, rfl, ⟨[['1'], ['a']], rfl, by decide, by decide, by
      intro t ht; simp at ht; rcases ht with rfl | rfl <;> exact ⟨_, rfl, by decide⟩⟩, [' '], _, rfl, rfl,
    c%"1", _, rfl, number_of (by decide), [' '], _, rfl, rfl, c%"udp", _, rfl, ⟨_, List.mem_cons_self, by decide⟩, [' '], _, rfl, rfl,
    c%"99", _, rfl, number_of (by decide), [' '], _, rfl, rfl, c%"10.0.0.1", _, rfl, sample_address, [' '], _, rfl, rfl,
    c%"9", _, rfl, number_of (by decide), [' '], _, rfl, rfl, c%"typ HOST", _, rfl,
    ⟨c%"typ", _, rfl, by decide, [' '], _, rfl, rfl, c%"HOST", _, rfl, ⟨_, List.mem_cons_self, by decide⟩, rfl⟩,
    c%" raddr 10.0.0.1", _, rfl, .inr ⟨[' '], _, rfl, rfl, c%"raddr 10.0.0.1", _, rfl,
      ⟨c%"raddr", _, rfl, by decide, [' '], _, rfl, rfl, c%"10.0.0.1", _, rfl, sample_address, rfl⟩, rfl⟩,
    c%" rport 0", _, rfl, .inr ⟨[' '], _, rfl, rfl, c%"rport 0", _, rfl,
      ⟨c%"rport", _, rfl, by decide, [' '], _, rfl, rfl, c%"0", _, rfl, number_of (by decide), rfl⟩, rfl⟩,
    c%" foo b:r", _, rfl, ⟨[c%" foo b:r"], rfl, by decide, by
      intro t ht; simp at ht; subst ht
      exact ⟨[' '], _, rfl, rfl, c%"foo b:r", [], rfl, ⟨_, List.mem_cons_of_mem _ (List.mem_cons_of_mem _ (List.mem_cons_of_mem _ List.mem_cons_self)),
        c%"foo", _, rfl, ⟨rep_char.2 (by decide), by decide⟩, [' '], _, rfl, rfl, c%"b:r", [], rfl, rep_char.2 (by decide), rfl⟩, rfl⟩⟩, rfl⟩

example : Rfc.iceUfrag c%"aB3+" := ⟨[c%"a", c%"B", c%"3", c%"+"], rfl, by decide, by decide, by
  intro t ht; simp at ht; rcases ht with rfl | rfl | rfl | rfl <;> exact ⟨_, rfl, by decide⟩⟩

example : Rfc.rtpmap c%"96 VP8/90000" :=
  ⟨c%"96", _, rfl, number_of (by decide), [' '], _, rfl, rfl, c%"VP8", _, rfl, rep_char.2 (by decide), ['/'], _, rfl, rfl,
    c%"90000", _, rfl, number_of (by decide), [], _, rfl, .inl rfl, rfl⟩

example : Rfc.ssrc c%"7 cname:a b " :=
  ⟨c%"7", _, rfl, number_of (by decide), [' '], _, rfl, rfl, c%"cname:a b ", _, rfl,
    ⟨_, List.mem_cons_self, c%"cname", _, rfl, rep_char.2 (by decide), [':'], _, rfl, rfl, c%"a b ", _, rfl,
      rep_char.2 (by decide), rfl⟩, rfl⟩

example : Rfc.rid c%"a send pt=96,97;max-width=1;x= y " :=
  ⟨c%"a", _, rfl, rep_char.2 (by decide), [' '], _, rfl, rfl, c%"send", _, rfl, ⟨_, List.mem_cons_self, rfl⟩,
    c%" pt=96,97;max-width=1;x= y ", _, rfl, .inr ⟨_, List.mem_cons_self, [' '], _, rfl, rfl, c%"pt=", _, rfl, rfl,
      c%"96", _, rfl, number_of (by decide), c%",97", _, rfl, ⟨[c%",97"], rfl, by decide, by
        intro t ht; simp at ht; subst ht; exact ⟨[','], c%"97", rfl, rfl, c%"97", [], rfl, number_of (by decide), rfl⟩⟩,
      c%";max-width=1;x= y ", _, rfl, ⟨[c%";max-width=1", c%";x= y "], rfl, by decide, by
        intro t ht; simp at ht
        rcases ht with rfl | rfl
        · exact ⟨[';'], _, rfl, rfl, c%"max-width=1", [], rfl, ⟨_, List.mem_cons_self, c%"max-width", _, rfl,
            ⟨_, List.mem_cons_self, rfl⟩, ['='], _, rfl, rfl, c%"1", _, rfl, number_of (by decide), rfl⟩, rfl⟩
        · exact ⟨[';'], _, rfl, rfl, c%"x= y ", [], rfl, ⟨_, List.mem_cons_of_mem _ List.mem_cons_self, c%"x", _, rfl,
            ⟨rep_char.2 (by decide), by decide⟩, ['='], _, rfl, rfl, c%" y ", _, rfl, rep_char.2 (by decide), rfl⟩, rfl⟩⟩, rfl⟩, rfl⟩

example : Rfc.simulcast c%"send 1,~4;2 recv c" := by
  have one {s : Str} (h : 1 ≤ s.length ∧ ∀ c ∈ s, (Rfc.isAlphaNumeric c || c == '-' || c == '_') = true) :
      seq [opt (exactly ['~']), Rfc.ridId] s := ⟨[], s, rfl, .inl rfl, s, [], by simp, rep_char.2 h, rfl⟩
  exact ⟨_, List.mem_cons_self, c%"send 1,~4;2", _, rfl, ⟨c%"send", _, rfl, rfl, [' '], _, rfl, rfl, c%"1,~4;2", _, rfl,
    ⟨c%"1,~4", _, rfl, ⟨c%"1", _, rfl, one (by decide), c%",~4", _, rfl, ⟨[c%",~4"], rfl, by decide, by
      intro t ht; simp at ht; subst ht
      exact ⟨[','], _, rfl, rfl, c%"~4", [], rfl, ⟨['~'], _, rfl, .inr rfl, c%"4", [], rfl, rep_char.2 (by decide), rfl⟩, rfl⟩⟩, rfl⟩,
      c%";2", _, rfl, ⟨[c%";2"], rfl, by decide, by
        intro t ht; simp at ht; subst ht
        exact ⟨[';'], _, rfl, rfl, c%"2", [], rfl, ⟨c%"2", [], rfl, one (by decide), [], [], rfl, ⟨[], rfl, by decide, by simp⟩, rfl⟩, rfl⟩⟩, rfl⟩, rfl⟩,
    c%" recv c", _, rfl, .inr ⟨[' '], _, rfl, rfl, c%"recv c", _, rfl, ⟨c%"recv", _, rfl, rfl, [' '], _, rfl, rfl, c%"c", _, rfl,
      ⟨c%"c", _, rfl, ⟨c%"c", [], rfl, one (by decide), [], [], rfl, ⟨[], rfl, by decide, by simp⟩, rfl⟩, [], _, rfl,
        ⟨[], rfl, by decide, by simp⟩, rfl⟩, rfl⟩, rfl⟩, rfl⟩

example : Rfc.fingerprint (c%"sha-1 00" ++ (List.replicate 19 c%":A1").flatten) :=
  ⟨_, List.mem_cons_self, c%"sha-1", _, rfl, rfl, [' '], _, rfl, rfl, c%"00" ++ (List.replicate 19 c%":A1").flatten, [], by simp,
    ⟨c%"00", _, rfl, ⟨[['0'], ['0']], rfl, by decide, by decide, by
      intro t ht; simp at ht; subst ht; exact ⟨_, rfl, by decide⟩⟩, (List.replicate 19 c%":A1").flatten, [], by simp,
      ⟨List.replicate 19 c%":A1", rfl, by decide, by decide, by
        intro t ht
        rw [List.eq_of_mem_replicate ht]
        exact ⟨[':'], _, rfl, rfl, c%"A1", [], rfl, ⟨[['A'], ['1']], rfl, by decide, by decide, by
          intro t ht; simp at ht; rcases ht with rfl | rfl <;> exact ⟨_, rfl, by decide⟩⟩, rfl⟩⟩, rfl⟩, rfl⟩

example : Rfc.rtcpFb c%"* nack pli x " :=
  ⟨['*'], _, rfl, ⟨_, List.mem_cons_self, rfl⟩, [' '], _, rfl, rfl, c%"nack pli x ", _, rfl,
    ⟨_, List.mem_cons_of_mem _ List.mem_cons_self, c%"nack", _, rfl, rfl, c%" pli x ", _, rfl, .inr ⟨[' '], _, rfl, rfl,
      c%"pli", _, rfl, ⟨_, List.mem_cons_self, rfl⟩, c%" x ", _, rfl, .inr ⟨[' '], _, rfl, rfl, c%"x ", _, rfl,
        rep_char.2 (by decide), rfl⟩, rfl⟩, rfl⟩, rfl⟩

end

end Sdp
