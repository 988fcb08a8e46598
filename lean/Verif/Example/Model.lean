/-
The two programs of /repo/examples/heartbeat as functions of the datagrams they receive.

Not modelled: sockets, flags, log lines (other than through their arguments, which can panic), and the clock, which
is an argument. A datagram longer than the buffer is cut to 1500 octets, as `ReadFrom` does for UDP. What lies behind a
payload in the buffer (older datagrams) is given by `mem`.
-/
import Verif.Message.Model
import Verif.Ctor.Struct
import Verif.Ctor.Model

namespace Pfcp
namespace Example

variable (g : IEType → Bool) (mem : IE → Bytes)

/-- `i.X()` on a field of a message: a pointer that is nil when the element was absent. Every accessor of /repo/ie
begins by reading `i.Type` or `i.Payload` (for instance /repo/ie/recovery-time-stamp.go:19), so a nil receiver
panics. A list where the Go type has a pointer cannot occur and counts as a panic too. -/
def readField (m : Msg) (n : FieldName) (a : Acc) : Res Val := do
  match ← m.get n with
  | .one (some i) => a.call g mem i
  | .one none => .panic
  | .many _ => .panic

/-- `ie.NewRecoveryTimeStamp(time.Now())`, /repo/ie/recovery-time-stamp.go:12-15. -/
def stamp (now : Int) : IE := IE.new T.RecoveryTimeStamp (be32 (timestampWord now))

/-- What a program does with one datagram. -/
inductive Step where
  /-- A log line, then the next datagram. -/
  | ignored
  /-- An answer is sent. -/
  | reply (b : Bytes)
  /-- `log.Fatal`. -/
  | fatal
  /-- A Go panic, which nothing recovers. -/
  | crash
  deriving DecidableEq

/-- The buffer of both programs, /repo/examples/heartbeat/hb-server/main.go:37, /repo/examples/heartbeat/hb-client/main.go:56. -/
def bufSize : Nat := 1500

/-- The answer, /repo/examples/heartbeat/hb-server/main.go:66-67: the sequence number is the constant 1. -/
def response (now : Int) : Res Bytes :=
  Msg.new g .heartbeatResponse 0 0 0 1 0 [some (stamp now)] [] >>= Msg.marshal g

/-- One iteration of the server, /repo/examples/heartbeat/hb-server/main.go:38-76. -/
def serverStep (now : Int) (d : Bytes) : Step :=
  match Msg.parse g (d.take bufSize) with
  | .panic => .crash
  | .err _ => .ignored
  | .ok m =>
    if m.kind ≠ .heartbeatRequest then .ignored
    else
      match readField g mem m .RecoveryTimeStamp .RecoveryTimeStamp with
      | .panic => .crash
      | .err _ => .ignored
      | .ok _ =>
        match response g now with
        | .ok b => .reply b
        | .err _ => .fatal
        | .panic => .crash

/-- The server ends after a panic or `log.Fatal`. -/
def Step.ends : Step → Bool
  | .crash => true
  | .fatal => true
  | _ => false

/-- The loop of the server over the datagrams that arrive, each with the time of its arrival. -/
def serve : List (Int × Bytes) → List Step
  | [] => []
  | (now, d) :: ds =>
    if (serverStep g mem now d).ends then [serverStep g mem now d]
    else serverStep g mem now d :: serve ds

/-- The 16-octet forms that `net.ParseIP` returns for "127.0.0.1" and "2001::1" (Go standard library). -/
def loopback4 : Bytes := [0, 0, 0, 0, 0, 0, 0, 0, 0, 0, 0xff, 0xff, 127, 0, 0, 1]
def address6 : Bytes := [0x20, 0x01, 0, 0, 0, 0, 0, 0, 0, 0, 0, 0, 0, 0, 0, 1]

/-- The datagram the client sends, /repo/examples/heartbeat/hb-client/main.go:37-42. -/
def request (now : Int) : Res Bytes :=
  newSourceIPAddress (some loopback4) (some address6) 0 >>= fun ip =>
    Msg.new g .heartbeatRequest 0 0 0 1 0 [some (stamp now), ip] [] >>= Msg.marshal g

/-- How the client ends. -/
inductive Outcome where
  /-- Still waiting: the read fails at the deadline and `log.Fatal` ends the client. -/
  | timeout
  /-- The time stamp was read. -/
  | got (t : Val)
  /-- A response with an invalid time stamp. -/
  | invalid
  /-- A Go panic. -/
  | crash

/-- The client's loop over the datagrams that arrive before the deadline,
/repo/examples/heartbeat/hb-client/main.go:57-84. -/
def client : List Bytes → Outcome
  | [] => .timeout
  | d :: ds =>
    match Msg.parse g (d.take bufSize) with
    | .panic => .crash
    | .err _ => client ds
    | .ok m =>
      if m.kind ≠ .heartbeatResponse then client ds
      else
        match readField g mem m .RecoveryTimeStamp .RecoveryTimeStamp with
        | .panic => .crash
        | .err _ => .invalid
        | .ok t => .got t

end Example
end Pfcp
