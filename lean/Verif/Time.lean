/-
Time as the timestamp elements of /repo/ie use it. An instant (`time.Time`) is the number of nanoseconds since the
Unix epoch, an integer without bounds; the range limits of Go's `time.Time` itself are not modelled. A
`time.Duration` is an integer within the int64 range.
-/
import Verif.Go

namespace Pfcp

/-- An instant: nanoseconds since 1970-01-01 00:00:00 UTC. -/
abbrev Time := Int

/-- `time.Second` in nanoseconds (Go standard library). -/
def second : Int := 1000000000

/-- Seconds between 1900-01-01 and 1970-01-01, the constant in /repo/ie/ie.go:472. -/
def ntpOffset : Nat := 2208988800

/-- `time.Time.Sub` saturates at the limits of `time.Duration` (Go standard library, src/time/time.go). -/
def saturate (d : Int) : Int :=
  if d < -(2 : Int) ^ 63 then -(2 : Int) ^ 63
  else if (2 : Int) ^ 63 - 1 < d then (2 : Int) ^ 63 - 1
  else d

/-- `uint64(ts.Sub(time.Date(1900, time.January, 1, 0, 0, 0, 0, time.UTC))) / 1000000000`,
/repo/ie/recovery-time-stamp.go:13 and the other timestamp constructors. -/
def ntpSeconds (t : Int) : UInt64 :=
  UInt64.ofInt (saturate (t + ntpOffset * second)) / 1000000000

/-- `time.Unix(sec, 0)` -/
def unix (sec : Int) : Int := sec * second

theorem ofInt_nat (n : Nat) : UInt64.ofInt (n : Int) = UInt64.ofNat n := by
  unfold UInt64.ofInt
  apply UInt64.toNat_inj.1
  simp only [UInt64.toNat_ofNat']
  omega

/-- From 1900 until `time.Duration` overflows (292 years later) the seconds count is exact. -/
theorem ntpSeconds_eq (n : Nat) (h : n * 1000000000 < 2 ^ 63) :
    ntpSeconds (unix ((n : Int) - 2208988800)) = UInt64.ofNat n := by
  have e1 : unix ((n : Int) - 2208988800) + ntpOffset * second = ((n * 1000000000 : Nat) : Int) := by
    have h1 : (ntpOffset : Int) = 2208988800 := rfl
    have h2 : ((n * 1000000000 : Nat) : Int) = (n : Int) * 1000000000 := Int.natCast_mul _ _
    rw [h1, h2]
    unfold unix second
    omega
  have e2 : saturate ((n * 1000000000 : Nat) : Int) = ((n * 1000000000 : Nat) : Int) := by
    unfold saturate
    rw [if_neg (by omega), if_neg (by omega)]
  unfold ntpSeconds
  rw [e1, e2, ofInt_nat]
  apply UInt64.toNat_inj.1
  rw [UInt64.toNat_div, UInt64.toNat_ofNat', UInt64.toNat_ofNat', Nat.mod_eq_of_lt (a := n) (by omega),
    Nat.mod_eq_of_lt (a := n * 1000000000) (by omega)]
  exact Nat.mul_div_cancel n (by decide)

theorem sub_toInt (n : Nat) (h : n < 2 ^ 63) :
    (UInt64.ofNat n - 2208988800).toInt64.toInt = (n : Int) - 2208988800 := by
  have e : (UInt64.ofNat n - 2208988800).toNat = (2 ^ 64 - 2208988800 + n) % 2 ^ 64 := by
    rw [UInt64.toNat_sub, UInt64.toNat_ofNat', Nat.mod_eq_of_lt (a := n) (by omega)]
    rfl
  show (UInt64.ofNat n - 2208988800).toBitVec.toInt = _
  rw [BitVec.toInt_eq_toNat_bmod]
  show Int.bmod ((UInt64.ofNat n - 2208988800).toNat : Int) (2 ^ 64) = _
  rw [e]
  rw [Int.bmod_def]
  omega

end Pfcp
