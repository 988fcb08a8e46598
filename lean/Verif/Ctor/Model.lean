/-
The one-argument constructors of `Verif/Ctor/Table.lean`.
-/
import Verif.Ctor.Table
import Verif.Acc.Timer

namespace Pfcp

/-- The conversions `uint32(d.Seconds())` and `uint16(d.Seconds())` of a `time.Duration` in nanoseconds.
`Duration.Seconds` is a float64, which is not modelled: the conversions are parameters. All that is used about them is
`SecondsOK`: on a whole number of seconds that fits the result, they are exact (a float64 represents every integer
below 2^53 exactly, and `Seconds` adds the zero fraction of the second). -/
structure SecondsConv where
  u32 : Int → UInt32
  u16 : Int → UInt16

/-- See `SecondsConv`. -/
structure SecondsOK (f : SecondsConv) : Prop where
  u32 : ∀ n : Nat, n < 2 ^ 32 → f.u32 (n * second) = UInt32.ofNat n
  u16 : ∀ n : Nat, n < 2 ^ 16 → f.u16 (n * second) = UInt16.ofNat n

/-- The payload made of the argument; `none` when the argument does not have the type of the parameter (which Go rules
out) or the encoder of domain names fails (it does not, `C33_encode_total`). -/
def Enc.payload (f : SecondsConv) : Enc → Val → Option Bytes
  | .u8, .u8 v => some [v]
  | .u16, .u16 v => some (be16 v)
  | .u32, .u32 v => some (be32 v)
  | .u64, .u64 v => some (be64 v)
  | .u8mask m, .u8 v => some [v &&& m]
  | .str, .bytes v => some v
  | .fqdn, .bytes v =>
    match Text.encodeFQDN v with
    | .ok b => some b
    | _ => none
  | .octets, .bytes v => some v
  | .sec32, .duration d => some (be32 (f.u32 d))
  | .sec16, .duration d => some (be16 (f.u16 d))
  | .ms32, .duration d => some (be32 (UInt32.ofInt (d.tdiv 1000000)))
  | .ns64, .duration d => some (be64 (UInt64.ofInt d))
  | .stamp, .time t => some (be32 (timestampWord t))
  | .timer, .duration d => some [timerOctet d]
  | .delay50, .duration d => some [UInt8.ofInt (d.tdiv 50000000)]
  | _, _ => none

/-- The element made by the constructor. -/
def IECtor.build (f : SecondsConv) (c : IECtor) (v : Val) : Option IE := (c.def.2.payload f v).map (IE.new c.def.1)

end Pfcp
