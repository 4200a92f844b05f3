import Verif.Lemmas.World
import Verif.Spec.Sample
/-!
# C102: what a text is parsed to depends on the world only through its host names and letters
-/

namespace Sdp

open World

/-- C102: two worlds with the same letters that say the same about the names of hosts where the text has an address
parse it to the same session, warnings and errors included. -/
theorem C102_hosts {E F : Env} {s : Str} (f : Bool) (ht : SameTables E F)
    (hh : ∀ ls, TextLines s ls → ∀ l ∈ ls, ∀ w, @LineAddress E l w → SameHost E F w) :
    @parseSdp E s f = @parseSdp F s f :=
  text (.inr ht) (hh _ (textLines_iff.2 rfl))

/-- C102: on an ASCII text they need not even know the same letters. -/
theorem C102_ascii {E F : Env} {s : Str} (f : Bool) (ha : ∀ c ∈ s, c.toNat < 128)
    (hh : ∀ ls, TextLines s ls → ∀ l ∈ ls, ∀ w, @LineAddress E l w → SameHost E F w) :
    @parseSdp E s f = @parseSdp F s f :=
  text (.inl (by simpa [isAscii] using ha)) (hh _ (textLines_iff.2 rfl))

/-- C102: so an ASCII text with IP addresses only, and no host names, is parsed to the same in every world. -/
theorem C102_literals (E F : Env) {s : Str} (f : Bool) (ha : ∀ c ∈ s, c.toNat < 128)
    (hh : ∀ ls, TextLines s ls → ∀ l ∈ ls, ∀ w, @LineAddress E l w → ∃ ip, IpText w ip) :
    @parseSdp E s f = @parseSdp F s f :=
  C102_ascii f ha fun ls hls l hl w hw => .inl (hh ls hls l hl w hw)

/-! ## The hypotheses can be met, and are needed -/

section
variable [Env]

/-- All the words behind a word `raddr`. -/
private def raddrs : List Str → List Str
  | n :: w :: rest => if lower n = c%"raddr" then w :: raddrs (w :: rest) else raddrs (w :: rest)
  | _ => []

private theorem mem_raddrs {w n : Str} {post : List Str} (h : lower n = c%"raddr") :
    ∀ pre : List Str, w ∈ raddrs (pre ++ n :: w :: post) := by
  intro pre
  induction pre with
  | nil => simp [raddrs, h]
  | cons x pre ih =>
    cases pre with
    | nil => unfold raddrs; dsimp; split <;> simp_all
    | cons y pre => unfold raddrs; dsimp; split <;> simp_all

/-- All the words of a line where an address is expected. -/
private def addressWords (l : Str) : List Str :=
  let ty := lower (trim (upTo '=' l))
  let v := trim (behind '=' l)
  if ty = c%"o" then (splitWs v)[5]?.toList
  else if ty = c%"c" then (splitWs v)[2]?.toList.map (upTo '/')
  else if ty = c%"a" then
    let ts := splitWs (trim (behind ':' v))
    let name := lower (upTo ':' v)
    if name = c%"candidate" then ts[4]?.toList ++ raddrs ts
    else if name = c%"remote-candidates" then ts[1]?.toList
    else if name = c%"rtcp" then ts[3]?.toList
    else []
  else []

private theorem mem_addressWords {l w : Str} (h : LineAddress l w) : w ∈ addressWords l := by
  obtain ⟨t, v, ht, hv, h⟩ := h
  rw [stripped_iff] at ht hv
  subst ht hv
  unfold addressWords
  dsimp only
  rcases h with ⟨e, ts, hts, h⟩ | ⟨e, ts, x, hts, h, rfl⟩ | ⟨e, u, hu, ts, hts, h⟩
  · rw [words_iff] at hts
    subst hts
    simp [e, h]
  · rw [words_iff] at hts
    subst hts
    simp [e, h]
  · rw [stripped_iff] at hu
    rw [words_iff] at hts
    subst hu hts
    rcases h with ⟨n, h | ⟨pre, x, post, h, -, hx⟩⟩ | ⟨n, h⟩ | ⟨n, h⟩
    · simp [e, n, h]
    · simp [e, n, h, mem_raddrs hx]
    · simp [e, n, h]
    · simp [e, n, h]

end

/-- A world that knows no host names, and other letters than `sampleEnv`. -/
def otherEnv : Env where
  lowerNA _ := []
  upperNA _ := []
  hostNA _ := .error c%"no such host"
  debugNA _ := []

private def candidateText : Str :=
  sampleText ++ c%"a=candidate:0 1 udp 7 10.0.0.1 9 typ srflx raddr 2001:db8::2 rport 9\r\na=rtcp:9 IN IP4 10.0.0.2\r\n"

/-- The sample text, with a candidate and an `rtcp` attribute, has no host names. -/
theorem C102_sample (f : Bool) : @parseSdp sampleEnv candidateText f = @parseSdp otherEnv candidateText f := by
  refine C102_literals _ _ f (by decide +kernel) fun ls hls l hl w hw => ?_
  rw [textLines_iff] at hls
  subst hls
  have key : ∀ l ∈ lines candidateText, ∀ w ∈ @addressWords sampleEnv l, (ipFromStr w).isSome = true := by
    decide +kernel
  obtain ⟨ip, hip⟩ := Option.isSome_iff_exists.1 (key l hl w (@mem_addressWords sampleEnv _ _ hw))
  exact ⟨ip, ipFromStr_iff.1 hip⟩

/-- It is accepted, and has five lines with addresses. -/
example : (@parseSdp sampleEnv candidateText false).isOk = true ∧
    ((lines candidateText).flatMap (@addressWords sampleEnv)).length = 6 := by decide +kernel

private def hostText : Str := c%"v=0\r\no=- 42 7 IN IP4 example.org\r\ns=-\r\nt=0 0\r\nc=IN IP6 2001:db8::1\r\n"

private def letterText : Str := c%"v=0\r\no=- 42 7 IN IP4 10.0.0.1\r\ns=-\r\nt=0 0\r\nc=IN IP6 2001:db8::1\r\nb=ä:1\r\na=ö\r\n"

/-- With a host name, or with letters outside of ASCII, the world matters. -/
theorem C102_needed :
    @parseSdp sampleEnv hostText false ≠ @parseSdp otherEnv hostText false ∧
    @parseSdp sampleEnv letterText false ≠ @parseSdp otherEnv letterText false := by decide +kernel

end Sdp
