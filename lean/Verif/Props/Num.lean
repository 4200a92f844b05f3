import Verif.Spec.Sample
import Verif.Lemmas.Ip
import Verif.Lemmas.NumError
import Verif.Lemmas.Consistent
/-!
# C23, C42, C43, C47: numbers and addresses as text
-/

namespace Sdp

/-- **C23.** Printing and parsing back, for every number of every width. -/
theorem C23_print_parse (a : UInt8) (b : UInt16) (c : UInt32) (d : UInt64) :
    parseU8 (showU8 a) = .ok a ∧ parseU16 (showU16 b) = .ok b ∧ parseU32 (showU32 c) = .ok c ∧
      parseU64 (showU64 d) = .ok d :=
  ⟨parseU8_show a, parseU16_show b, parseU32_show c, parseU64_show d⟩

/-- **C23.** Exactly the texts that are an optional plus sign and decimal digits are parsed to a
number, to the number they denote. (Values that do not fit are not a `UIntN`, so they are
rejected.) -/
theorem C23_accepts (s : Str) :
    (∀ x, parseU8 s = .ok x ↔ DecText s x.toNat) ∧ (∀ x, parseU16 s = .ok x ↔ DecText s x.toNat) ∧
    (∀ x, parseU32 s = .ok x ↔ DecText s x.toNat) ∧ (∀ x, parseU64 s = .ok x ↔ DecText s x.toNat) :=
  ⟨fun _ => parseU8_ok, fun _ => parseU16_ok, fun _ => parseU32_ok, fun _ => parseU64_ok⟩

theorem parse_total {lim : Nat} (hlim : 0 < lim) {s : Str} {n : Nat} (h : DecText s n) :
    (∃ k, parseRadix 10 lim s = .ok k) ↔ n < lim := by
  constructor
  · rintro ⟨k, hk⟩
    obtain ⟨h1, h2⟩ := (parseRadix_ten hlim).1 hk
    rwa [h.unique h1]
  · intro hn; exact ⟨n, (parseRadix_ten hlim).2 ⟨h, hn⟩⟩

/-- **C23.** A number written in decimal is accepted exactly when it is below 2^N. -/
theorem C23_limits {s : Str} {n : Nat} (h : DecText s n) :
    ((parseU8 s).isOk = true ↔ n < 2^8) ∧ ((parseU16 s).isOk = true ↔ n < 2^16) ∧
    ((parseU32 s).isOk = true ↔ n < 2^32) ∧ ((parseU64 s).isOk = true ↔ n < 2^64) := by
  have key (lim : Nat) (hlim : 0 < lim) {β : Type} (f : Nat → β) :
      Outcome.isOk (match parseRadix 10 lim s with
        | .ok n => Outcome.ok (f n)
        | .error e => .err (InternalError.integer e)) = true ↔ n < lim := by
    rw [← parse_total hlim h]
    cases parseRadix 10 lim s <;> simp [Outcome.isOk]
  exact ⟨key _ (by decide) _, key _ (by decide) _, key _ (by decide) _, key _ (by decide) _⟩

/-- **C23.** Which error a text gets that is not a number of the width (`numberError`, Verif/Spec/NumError.lean):
*empty*; *too big*, if the digits it begins with are, whatever follows them; otherwise *invalid digit*. -/
theorem C23_errors (s : Str) (e : InternalError) :
    (parseU8 s = .err e ↔ ∃ k, e = .integer k ∧ numberError (2^8) s = some k) ∧
    (parseU16 s = .err e ↔ ∃ k, e = .integer k ∧ numberError (2^16) s = some k) ∧
    (parseU32 s = .err e ↔ ∃ k, e = .integer k ∧ numberError (2^32) s = some k) ∧
    (parseU64 s = .err e ↔ ∃ k, e = .integer k ∧ numberError (2^64) s = some k) := by
  have key (lim : Nat) (hlim : 0 < lim) {β : Type} (f : Nat → β) :
      (match parseRadix 10 lim s with
        | .ok n => Outcome.ok (f n)
        | .error e => .err (InternalError.integer e)) = .err e ↔
      ∃ k, e = .integer k ∧ numberError lim s = some k := by
    simp only [← parseRadix_error hlim]
    cases parseRadix 10 lim s with
    | ok n => simp
    | error k => simp [eq_comm]
  exact ⟨key _ (by decide) _, key _ (by decide) _, key _ (by decide) _, key _ (by decide) _⟩

/-- **C23.** Parsing is a function of the value: leading zeros and the sign do not matter, neither for what a
number of the width is parsed to nor for the error a number too big gets. -/
theorem C23_same_value {s t : Str} {n : Nat} (hs : DecText s n) (ht : DecText t n) :
    parseU8 s = parseU8 t ∧ parseU16 s = parseU16 t ∧ parseU32 s = parseU32 t ∧ parseU64 s = parseU64 t := by
  have big {s : Str} (h : DecText s n) {lim : Nat} (hn : lim ≤ n) : numberError lim s = some .posOverflow := by
    obtain ⟨ds, hd, h0, h1, rfl⟩ := h
    have hu : unsigned s = ds := by
      rcases hd with rfl | rfl
      · cases s with
        | nil => rfl
        | cons c cs =>
          unfold unsigned
          split
          · have := h1 '+' (by simp_all)
            exact absurd this (by decide)
          · rfl
      · rfl
    have hl : leadingDigits s = ds := by
      unfold leadingDigits; rw [hu]
      have := List.takeWhile_append_of_pos (p := Char.isDigit) (l₁ := ds) (l₂ := []) h1
      simpa using this
    have hs : s ≠ [] := by rcases hd with rfl | rfl <;> simp_all
    simp [numberError, hs, hl, hn]
  have key {lim : Nat} (hlim : 0 < lim) : parseRadix 10 lim s = parseRadix 10 lim t := by
    by_cases h : n < lim
    · rw [(parseRadix_ten hlim).2 ⟨hs, h⟩, (parseRadix_ten hlim).2 ⟨ht, h⟩]
    · rw [(parseRadix_error hlim s _).2 (big hs (by omega)), (parseRadix_error hlim t _).2 (big ht (by omega))]
  refine ⟨?_, ?_, ?_, ?_⟩ <;> simp only [parseU8, parseU16, parseU32, parseU64] <;> rw [key (by decide)]

example : numberError (2^8) c%"300 apples" = some .posOverflow ∧ numberError (2^8) c%"3 apples" = some .invalidDigit ∧
    numberError (2^8) c%"+" = some .invalidDigit ∧ numberError (2^8) c%"+255" = none := by decide

example : DecText c%"+0255" 255 :=
  ⟨c%"0255", .inr rfl, by decide, by decide, by decide⟩
example : parseU8 c%"+0255" = .ok 255 ∧ parseU8 c%"256" = .err (.integer .posOverflow) ∧
    parseU8 c%"-1" = .err (.integer .invalidDigit) := by decide +kernel

/-- **C47.** Printing any IPv4 or IPv6 address and parsing it back. -/
theorem C47_ip_round_trip (a : IpAddr) : ipFromStr (showIp a) = some a := ipFromStr_show a

/-- **C47.** ... also as an address field of the crate, which takes texts without a colon to be host
names first: a printed address is never taken for a host name. -/
theorem C47_address_round_trip [Env] (a : IpAddr) : parseAddress (showIp a) = .ok (.ip a) :=
  parseAddress_showIp a

/-- **C47.** Printed addresses are different for different addresses. -/
theorem C47_injective {a b : IpAddr} (h : showIp a = showIp b) : a = b := by
  have := ipFromStr_show a
  rw [h, ipFromStr_show] at this
  exact (Option.some.inj this).symm

example : showIp (.v6 (ofSegments [0x2001, 0xdb8, 0, 0, 1, 0, 0, 1])) = c%"2001:db8::1:0:0:1" ∧
    showIp (.v6 (ofSegments [0, 0, 0, 0, 0, 0xffff, 0x0a00, 1])) = c%"::ffff:10.0.0.1" ∧
    showIp (.v6 0) = c%"::" ∧ showIp (.v4 0x0a000001) = c%"10.0.0.1" := by decide +kernel

/-! ## C42 -/

section
variable [Env]

/-- **C42.** Equality of addresses is an equivalence relation. -/
theorem C42_equivalence :
    (∀ a : Address, a.eqv a = true) ∧ (∀ a b : Address, a.eqv b = true → b.eqv a = true) ∧
    (∀ a b c : Address, a.eqv b = true → b.eqv c = true → a.eqv c = true) := by
  refine ⟨fun a => by cases a <;> simp [Address.eqv], fun a b h => ?_, fun a b c h h' => ?_⟩
  · cases a <;> cases b <;> simp_all [Address.eqv]
  · cases a <;> cases b <;> cases c <;> simp_all [Address.eqv]

/-- **C42.** ... also for addresses with a declared type. -/
theorem C42_typed_equivalence :
    (∀ a : TypedAddress, a.eqv a = true) ∧ (∀ a b : TypedAddress, a.eqv b = true → b.eqv a = true) ∧
    (∀ a b c : TypedAddress, a.eqv b = true → b.eqv c = true → a.eqv c = true) := by
  refine ⟨fun a => by cases a <;> simp [TypedAddress.eqv], fun a b h => ?_, fun a b c h h' => ?_⟩
  · cases a <;> cases b <;> simp_all [TypedAddress.eqv]
  · cases a <;> cases b <;> cases c <;> simp_all [TypedAddress.eqv]

/-- **C42.** What equality means. -/
theorem C42_meaning (d e : Str) (a b : IpAddr) (t u : AddressType) :
    ((Address.fqdn d).eqv (.fqdn e) = true ↔ lower d = lower e) ∧
    ((Address.ip a).eqv (.ip b) = true ↔ a = b) ∧
    (Address.fqdn d).eqv (.ip a) = false ∧ (Address.ip a).eqv (.fqdn d) = false ∧
    ((TypedAddress.fqdn t d).eqv (.fqdn u e) = true ↔ t = u ∧ lower d = lower e) ∧
    ((TypedAddress.ip a).eqv (.ip b) = true ↔ a = b) ∧
    (TypedAddress.fqdn t d).eqv (.ip a) = false ∧ (TypedAddress.ip a).eqv (.fqdn t d) = false := by
  simp [Address.eqv, TypedAddress.eqv]

/-- **C42.** ASCII domains that differ in case only are equal. -/
theorem C42_ascii_case {d e : Str} (hd : ∀ c ∈ d, c.toNat < 128) (he : ∀ c ∈ e, c.toNat < 128)
    (h : d.map asciiLower = e.map asciiLower) : (Address.fqdn d).eqv (.fqdn e) = true := by
  have h1 : isAscii d = true := by simpa [isAscii] using hd
  have h2 : isAscii e = true := by simpa [isAscii] using he
  simp [Address.eqv, lower, h1, h2, h]

/-- **C42.** Equal typed addresses give equal addresses. -/
theorem C42_to_address {a b : TypedAddress} (h : a.eqv b = true) : a.toAddress.eqv b.toAddress = true := by
  cases a <;> cases b <;> simp_all [TypedAddress.eqv, TypedAddress.toAddress, Address.eqv]

example : letI := sampleEnv; (Address.fqdn c%"Example.COM").eqv (.fqdn c%"example.com") = true := by
  decide +kernel

/-! ## C43 -/

/-- The name of an address type in a line. -/
def typeName : AddressType → Str
  | .ipV4 => c%"IP4"
  | .ipV6 => c%"IP6"

/-- The family of a literal address. -/
def family : IpAddr → AddressType
  | .v4 _ => .ipV4
  | .v6 _ => .ipV6

/-- The address is what was declared: a literal of the declared family, or a domain that keeps the
declaration. -/
def OfType (t : AddressType) : TypedAddress → Prop
  | .ip a => family a = t
  | .fqdn u _ => u = t

theorem family_eq (a : IpAddr) : ipAddressType a = family a := by cases a <;> rfl

theorem typedTryFrom_ok {t : AddressType} {s : Str} {a : TypedAddress} (h : typedTryFrom t s = .ok a) :
    OfType t a ∧ parseAddress s = .ok a.toAddress := by
  unfold typedTryFrom at h
  obtain ⟨x, hx, h⟩ := bind_eq_ok.1 h
  cases x with
  | fqdn d => simp at h; subst h; exact ⟨rfl, hx⟩
  | ip i =>
    rcases ite_cases h with ⟨-, h⟩ | ⟨hn, h⟩
    · cases h
    · cases h; exact ⟨by rw [family_eq] at hn; exact Classical.not_not.1 hn, hx⟩

theorem parseAddrType_ok {s : Str} {t : AddressType} (h : parseAddrType s = .ok t) : upper s = typeName t := by
  unfold parseAddrType at h
  rcases ite_cases h with ⟨hu, h⟩ | ⟨-, h⟩
  · cases h; exact hu
  rcases ite_cases h with ⟨hu, h⟩ | ⟨-, h⟩
  · cases h; exact hu
  · cases h

theorem parseAddressType_ok {s : Str} {t : AddressType} (h : parseAddressType s = .ok t) :
    upper (upper s) = typeName t := by
  unfold parseAddressType at h
  cases h' : parseAddrType (upper s) with
  | ok x => rw [h'] at h; cases h; exact parseAddrType_ok h'
  | err e => rw [h'] at h; cases h
  | panic => rw [h'] at h; cases h

/-- **C43, o=.** The fifth token is the type, the sixth the address. -/
theorem C43_origin {v : Str} {o : Origin} (h : parseOrigin v = .ok (.origin o)) :
    ∃ t0 t1 t2 t3 ty addr rest t, splitWs v = t0 :: t1 :: t2 :: t3 :: ty :: addr :: rest ∧
      upper (upper ty) = typeName t ∧ OfType t o.unicastAddr ∧
      parseAddress addr = .ok o.unicastAddr.toAddress := by
  unfold parseOrigin at h
  rcases hv : splitWs v with _ | ⟨t0, _ | ⟨t1, _ | ⟨t2, _ | ⟨t3, _ | ⟨t4, _ | ⟨t5, rest⟩⟩⟩⟩⟩⟩ <;>
    rw [hv] at h <;> simp only [bind_eq_ok] at h
  all_goals try (simp at h; done)
  obtain ⟨_, _, _, _, _, _, t, ht, a, ha, h⟩ := h
  rcases ite_cases h with ⟨-, h⟩ | ⟨-, h⟩
  · simp at h
  · simp at h; subst h
    obtain ⟨h1, h2⟩ := typedTryFrom_ok ha
    exact ⟨_, _, _, _, _, _, _, t, rfl, parseAddressType_ok ht, h1, h2⟩

/-- **C43, c=.** The second token is the type; the address is the third up to a slash. -/
theorem C43_connection {v : Str} {c : Connection} (h : parseConnection v = .ok (.connection c)) :
    ∃ t0 ty t2 t, splitWs v = [t0, ty, t2] ∧ upper (upper ty) = typeName t ∧ OfType t c.address ∧
      parseAddress (t2.takeWhile (fun x => decide (x ≠ '/'))) = .ok c.address.toAddress := by
  unfold parseConnection at h
  simp only [] at h
  rcases ite_cases h with ⟨-, h⟩ | ⟨hlen, h⟩
  · simp at h
  rcases hv : splitWs v with _ | ⟨t0, _ | ⟨ty, _ | ⟨t2, _ | ⟨t3, rest⟩⟩⟩⟩ <;> rw [hv] at h hlen <;> simp at hlen
  simp only [idx, bind_eq_ok] at h
  obtain ⟨_, h0, _, _, _, h1, t, ht, _, h2, ⟨addr, ttl, amount⟩, hc, a, ha, h⟩ := h
  simp at h0 h1 h2 h
  subst h0 h1 h2 h
  obtain ⟨k1, k2⟩ := typedTryFrom_ok ha
  refine ⟨_, _, _, t, rfl, parseAddressType_ok ht, k1, ?_⟩
  have : t2.takeWhile (fun x => decide (x ≠ '/')) = addr := by
    unfold parseConnAddr at hc
    rcases ite_cases hc with ⟨hs, hc⟩ | ⟨hs, hc⟩
    · obtain ⟨x, y, -, rfl, hx⟩ := splitn_two_of_mem hs
      simp only [bind_eq_ok] at hc
      obtain ⟨_, _, _, _, _, _, z, hz, hc⟩ := hc
      simp at hc
      rw [splitC_append hx] at hz
      simp [idx] at hz
      have hzz : z = addr := hc.1
      rw [← hzz, ← hz, List.takeWhile_append_of_pos]
      · simp
      · intro a ha; simp; rintro rfl; exact hx ha
    · cases hc
      have := List.takeWhile_append_of_pos (p := fun x => decide (x ≠ '/')) (l₁ := t2) (l₂ := [])
        (fun a ha => by simp; rintro rfl; exact hs ha)
      simpa using this
  rw [this]; exact k2

/-- **C43, a=rtcp.** The third token is the type, the fourth the address. -/
theorem C43_rtcp {v : Str} {r : Rtcp} {a : TypedAddress} (h : parseRtcp v = .ok (.rtcp r))
    (ha : r.unicastAddr = some a) :
    ∃ t0 t1 ty addr rest t, splitWs v = t0 :: t1 :: ty :: addr :: rest ∧ upper ty = typeName t ∧
      OfType t a ∧ parseAddress addr = .ok a.toAddress := by
  unfold parseRtcp at h
  rcases hv : splitWs v with _ | ⟨t0, _ | ⟨t1, _ | ⟨t2, _ | ⟨t3, rest⟩⟩⟩⟩ <;>
    rw [hv] at h <;> simp only [bind_eq_ok] at h
  · simp at h
  · obtain ⟨_, _, h⟩ := h; simp at h; subst h; cases ha
  · simp at h
  · simp at h
  · obtain ⟨_, _, _, _, t, ht, b, hb, h⟩ := h
    simp at h; subst h; cases ha
    obtain ⟨k1, k2⟩ := typedTryFrom_ok hb
    exact ⟨_, _, _, _, _, t, rfl, parseAddrType_ok ht, k1, k2⟩

/-- **C43.** A literal of the other family is rejected: here for every printed address. -/
theorem C43_mismatch_rejected (t : AddressType) (a : IpAddr) (h : family a ≠ t) :
    typedTryFrom t (showIp a) = .err (.addressTypeMismatch (family a) t) := by
  unfold typedTryFrom
  rw [parseAddress_showIp]
  rw [← family_eq] at h ⊢
  exact if_pos h

/-- **C43.** ... and one of the declared family is accepted. -/
theorem C43_match_accepted (a : IpAddr) : typedTryFrom (family a) (showIp a) = .ok (.ip a) := by
  unfold typedTryFrom
  rw [parseAddress_showIp, ← family_eq]
  exact if_neg (by simp)

end

section
attribute [local instance] sampleEnv
example : parseConnection c%"IN ip6 2001:db8::1" =
    .ok (.connection ⟨.ip (.v6 (ofSegments [0x2001, 0xdb8, 0, 0, 0, 0, 0, 1])), none, none⟩) := by decide +kernel
example : parseConnection c%"IN IP4 example.com/127/3" =
    .ok (.connection ⟨.fqdn .ipV4 c%"example.com", some 127, some 3⟩) := by decide +kernel
example : parseRtcp c%"53020 IN IP4 126.16.64.4" =
    .ok (.rtcp ⟨53020, some (.ip (.v4 0x7e104004))⟩) := by decide +kernel
example : parseConnection c%"IN IP4 2001:db8::1" = .err (.addressTypeMismatch .ipV6 .ipV4) := by decide +kernel
end

end Sdp
