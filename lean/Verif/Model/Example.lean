import Verif.Model.Session
/-!
# The example program and small constructors

`examples/file_parser.rs` parses a file and reports by its exit code. Its output is not modelled.
-/

namespace Sdp

/-- What reading a file gives: `File::open` and `read_to_string`. -/
inductive FileRead where
  | openError
  | readError
  | text (s : Str)

/-- The exit code of a program that panics. -/
def panicCode : Nat := 101

section
variable [Env]

/-- examples/file_parser.rs:51-56: the text without comment lines -/
def stripComments (s : Str) : Str :=
  joinS c%"\r\n" ((lines s).filter fun l => !startsWithC ';' (trimStart l))

/-- examples/file_parser.rs:15-72 `main`: the exit code, for the arguments after the program name. With
`--expect-failure` the panic hook ends the program with code 0, whatever has panicked. -/
def fileParser (args : List Str) (read : Str → FileRead) : Nat :=
  match args with
  | [] => 1
  | name :: args =>
    match read name with
    | .openError => panicCode
    | .readError => panicCode
    | .text s =>
      let run (expectFailure : Bool) : Nat :=
        match parseSdp (stripComments s) true with
        | .ok _ => if expectFailure then 1 else 0
        | .err _ => if expectFailure then 0 else panicCode
        | .panic => if expectFailure then 0 else panicCode
      match args with
      | [] => run false
      | x :: _ => if lower x ≠ c%"--expect-failure" then 1 else run true

end

/-- src/attribute_type.rs:235-260 `SdpAttributeCandidate::new` -/
def Candidate.new (foundation : Str) (component : UInt32) (transport : CandTransport) (priority : UInt64)
    (address : Address) (port : UInt32) (cType : CandType) : Candidate :=
  ⟨foundation, component, transport, priority, address, port, cType, none, none, none, none, none, none, []⟩

/-- src/attribute_type.rs:445-450 `SdpAttributeRtcp::new` -/
def Rtcp.new (port : UInt16) : Rtcp := ⟨port, none⟩

/-- src/attribute_type.rs:1165-1172 `SdpAttributeRtpmap::new` -/
def Rtpmap.new (payloadType : UInt8) (codecName : Str) (frequency : UInt32) : Rtpmap :=
  ⟨payloadType, codecName, frequency, none⟩

/-- src/attribute_type.rs:1224-1230 `SdpAttributeSsrc::new` -/
def Ssrc.new (id : UInt32) : Ssrc := ⟨id, none, none⟩

/-- src/address.rs:138-142 `From<IpAddr> for ExplicitlyTypedAddress` -/
def TypedAddress.ofIp (a : IpAddr) : TypedAddress := .ip a
/-- src/address.rs:144-148 `From<Ipv4Addr> for ExplicitlyTypedAddress` -/
def TypedAddress.ofV4 (a : UInt32) : TypedAddress := .ip (.v4 a)
/-- src/address.rs:150-154 `From<Ipv6Addr> for ExplicitlyTypedAddress` -/
def TypedAddress.ofV6 (a : BitVec 128) : TypedAddress := .ip (.v6 a)

end Sdp
