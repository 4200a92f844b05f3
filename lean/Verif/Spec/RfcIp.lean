import Verif.Spec.Abnf
/-!
# IP addresses in RFC 3986

The rules of RFC 3986, 3.2.2, word for word, in the notation of Verif/Spec/Abnf.lean.
-/

namespace Sdp.Rfc3986

open Abnf

/-- `n a` (RFC 5234, 3.7) -/
def times (n : Nat) (a : Rule) : Rule := reps n n a

/-- `DIGIT` -/
def DIGIT : Rule := char fun c => 0x30 ≤ c.toNat && c.toNat ≤ 0x39

/-- `HEXDIG = DIGIT / "A" / "B" / "C" / "D" / "E" / "F"`; letters in quotes stand for both cases. -/
def HEXDIG : Rule := alt [DIGIT, word c%"A", word c%"B", word c%"C", word c%"D", word c%"E", word c%"F"]

/-- `dec-octet = DIGIT / %x31-39 DIGIT / "1" 2DIGIT / "2" %x30-34 DIGIT / "25" %x30-35` -/
def decOctet : Rule := alt
  [DIGIT,
   seq [char fun c => 0x31 ≤ c.toNat && c.toNat ≤ 0x39, DIGIT],
   seq [exactly c%"1", times 2 DIGIT],
   seq [exactly c%"2", char fun c => 0x30 ≤ c.toNat && c.toNat ≤ 0x34, DIGIT],
   seq [exactly c%"25", char fun c => 0x30 ≤ c.toNat && c.toNat ≤ 0x35]]

/-- `IPv4address = dec-octet "." dec-octet "." dec-octet "." dec-octet` -/
def ipv4Address : Rule := seq [decOctet, exactly c%".", decOctet, exactly c%".", decOctet, exactly c%".", decOctet]

/-- `h16 = 1*4HEXDIG` -/
def h16 : Rule := reps 1 4 HEXDIG

/-- `ls32 = ( h16 ":" h16 ) / IPv4address` -/
def ls32 : Rule := alt [seq [h16, exactly c%":", h16], ipv4Address]

/-- `h16 ":"` -/
def h16c : Rule := seq [h16, exactly c%":"]

/--
```
IPv6address =                            6( h16 ":" ) ls32
            /                       "::" 5( h16 ":" ) ls32
            / [               h16 ] "::" 4( h16 ":" ) ls32
            / [ *1( h16 ":" ) h16 ] "::" 3( h16 ":" ) ls32
            / [ *2( h16 ":" ) h16 ] "::" 2( h16 ":" ) ls32
            / [ *3( h16 ":" ) h16 ] "::"    h16 ":"   ls32
            / [ *4( h16 ":" ) h16 ] "::"              ls32
            / [ *5( h16 ":" ) h16 ] "::"              h16
            / [ *6( h16 ":" ) h16 ] "::"
``` -/
def ipv6Address : Rule := alt
  [seq [                                                     times 6 h16c, ls32],
   seq [                                     exactly c%"::", times 5 h16c, ls32],
   seq [opt h16,                             exactly c%"::", times 4 h16c, ls32],
   seq [opt (seq [reps 0 1 h16c, h16]), exactly c%"::", times 3 h16c, ls32],
   seq [opt (seq [reps 0 2 h16c, h16]), exactly c%"::", times 2 h16c, ls32],
   seq [opt (seq [reps 0 3 h16c, h16]), exactly c%"::", h16, exactly c%":", ls32],
   seq [opt (seq [reps 0 4 h16c, h16]), exactly c%"::", ls32],
   seq [opt (seq [reps 0 5 h16c, h16]), exactly c%"::", h16],
   seq [opt (seq [reps 0 6 h16c, h16]), exactly c%"::"]]

end Sdp.Rfc3986
