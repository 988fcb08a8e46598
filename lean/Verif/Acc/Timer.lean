/-
Timer octets (/repo/ie/timer.go, dl-buffering-duration.go, graceful-release-period.go carry the same code) and
32-bit timestamps (/repo/ie/ie.go:459-473 and the timestamp constructors).

A `time.Duration` is an integer number of nanoseconds. Go's `/` and `%` on int64 truncate towards zero.
-/
import Verif.Time

namespace Pfcp

/-- `time.Minute`, `time.Hour` (Go standard library), in nanoseconds. -/
def minute : Int := 60000000000
def hour : Int := 3600000000000

/-- `time.Duration(math.MaxInt64)` -/
def maxDuration : Int := 9223372036854775807

/-- The octet written by `NewTimer`, /repo/ie/timer.go:14-52 (the same in dl-buffering-duration.go:14-52 and
graceful-release-period.go:14-52): the largest unit that divides the duration, and the low five bits of the count. -/
def timerOctet (d : Int) : UInt8 :=
  if d.tmod (10 * hour) = 0 then 0x80 + (UInt8.ofInt (d.tdiv (10 * hour)) &&& 0x1f)
  else if d.tmod hour = 0 then 0x60 + (UInt8.ofInt (d.tdiv hour) &&& 0x1f)
  else if d.tmod (10 * minute) = 0 then 0x40 + (UInt8.ofInt (d.tdiv (10 * minute)) &&& 0x1f)
  else if d.tmod minute = 0 then 0x20 + (UInt8.ofInt (d.tdiv minute) &&& 0x1f)
  else if d.tmod (2 * second) = 0 then 0x00 + (UInt8.ofInt (d.tdiv (2 * second)) &&& 0x1f)
  else 0xe0 + ((0 : UInt8) &&& 0x1f)

/-- The duration read from a timer octet, /repo/ie/timer.go:62-79 (dl-buffering-duration.go:62-79,
graceful-release-period.go:63-81). The products fit an int64. -/
def timerValue (b : UInt8) : Int :=
  let n : Int := (b &&& 0x1f).toNat
  match (b &&& 0xe0) >>> 5 with
  | 7 => maxDuration
  | 4 => n * 10 * hour
  | 3 => n * hour
  | 2 => n * 10 * minute
  | 1 => n * minute
  | 0 => n * 2 * second
  | _ => 0

/-- `int64(binary.BigEndian.Uint32(p) - 2208988800)` seconds as an instant, /repo/ie/ie.go:472: the subtraction is on
32 bits. -/
def timestampValue (v : UInt32) : Int := unix ((v - 2208988800).toNat : Int)

/-- `uint32(u64sec)`, /repo/ie/recovery-time-stamp.go:13-14 and the other timestamp constructors. -/
def timestampWord (t : Int) : UInt32 := (ntpSeconds t).toUInt32

/-! ### Lemmas -/

theorem timerValue_unit (k : UInt8) (hk : k < 32) :
    timerValue (0x80 + k) = k.toNat * 10 * hour ∧ timerValue (0x60 + k) = k.toNat * hour ∧
    timerValue (0x40 + k) = k.toNat * 10 * minute ∧ timerValue (0x20 + k) = k.toNat * minute ∧
    timerValue (0x00 + k) = k.toNat * 2 * second := by
  have h : ∀ k : Fin 32, timerValue (0x80 + UInt8.ofNat k.val) = k.val * 10 * hour ∧
      timerValue (0x60 + UInt8.ofNat k.val) = k.val * hour ∧
      timerValue (0x40 + UInt8.ofNat k.val) = k.val * 10 * minute ∧
      timerValue (0x20 + UInt8.ofNat k.val) = k.val * minute ∧
      timerValue (0x00 + UInt8.ofNat k.val) = k.val * 2 * second := by decide +kernel
  have := h ⟨k.toNat, hk⟩
  simpa using this

theorem low5 (x : Int) : UInt8.ofInt x &&& 0x1f < 32 ∧ ((UInt8.ofInt x &&& 0x1f).toNat : Int) = x % 32 := by
  have e : (UInt8.ofInt x &&& 0x1f).toNat = (UInt8.ofInt x).toNat % 32 := by
    rw [UInt8.toNat_and]
    exact Nat.and_two_pow_sub_one_eq_mod _ 5
  have e2 : ((UInt8.ofInt x).toNat : Int) = x % 256 := by
    unfold UInt8.ofInt
    rw [UInt8.toNat_ofNat']
    omega
  refine ⟨?_, ?_⟩
  · show (UInt8.ofInt x &&& 0x1f).toNat < 32
    omega
  · omega

/-- The unit chosen for a duration: the largest of the five that divides it. -/
def timerUnit (d : Int) : Option Int :=
  [10 * hour, hour, 10 * minute, minute, 2 * second].find? (fun u => d.tmod u = 0)

/-- What is read back, for every duration. -/
theorem timer_exact (d : Int) : timerValue (timerOctet d) =
    match timerUnit d with
    | some u => (d.tdiv u % 32) * u
    | none => maxDuration := by
  unfold timerOctet timerUnit
  simp only [List.find?]
  by_cases h1 : d.tmod (10 * hour) = 0
  · rw [if_pos h1]
    obtain ⟨h, e⟩ := low5 (d.tdiv (10 * hour))
    simp only [h1, decide_true]
    rw [(timerValue_unit _ h).1, e]
    exact Int.mul_assoc _ _ _
  rw [if_neg h1]
  by_cases h2 : d.tmod hour = 0
  · rw [if_pos h2]
    obtain ⟨h, e⟩ := low5 (d.tdiv hour)
    simp only [h1, h2, decide_true, decide_false]
    rw [(timerValue_unit _ h).2.1, e]
  rw [if_neg h2]
  by_cases h3 : d.tmod (10 * minute) = 0
  · rw [if_pos h3]
    obtain ⟨h, e⟩ := low5 (d.tdiv (10 * minute))
    simp only [h1, h2, h3, decide_true, decide_false]
    rw [(timerValue_unit _ h).2.2.1, e]
    exact Int.mul_assoc _ _ _
  rw [if_neg h3]
  by_cases h4 : d.tmod minute = 0
  · rw [if_pos h4]
    obtain ⟨h, e⟩ := low5 (d.tdiv minute)
    simp only [h1, h2, h3, h4, decide_true, decide_false]
    rw [(timerValue_unit _ h).2.2.2.1, e]
  rw [if_neg h4]
  by_cases h5 : d.tmod (2 * second) = 0
  · rw [if_pos h5]
    obtain ⟨h, e⟩ := low5 (d.tdiv (2 * second))
    simp only [h1, h2, h3, h4, h5, decide_true, decide_false]
    rw [(timerValue_unit _ h).2.2.2.2, e]
    exact Int.mul_assoc _ _ _
  rw [if_neg h5]
  simp only [h1, h2, h3, h4, h5, decide_false]
  decide

/-- What is read back, for every whole second from 1900 until 2192 (`n` counts from 1900). -/
theorem timestamp_exact (n : Nat) (h : n * 1000000000 < 2 ^ 63) :
    timestampValue (timestampWord (unix ((n : Int) - 2208988800))) = unix (((n : Int) - 2208988800) % 2 ^ 32) := by
  unfold timestampValue timestampWord
  rw [ntpSeconds_eq n h]
  congr 1
  have e : (UInt64.ofNat n).toUInt32.toNat = n % 2 ^ 64 % 2 ^ 32 := by
    rw [UInt64.toNat_toUInt32, UInt64.toNat_ofNat']
  have c : (2208988800 : UInt32).toNat = 2208988800 := rfl
  rw [UInt32.toNat_sub, e, c]
  omega

/-- From 1900 until `time.Duration` overflows, the seconds count is that of the whole seconds. -/
theorem ntpSeconds_floor (t : Int) (h0 : -2208988800000000000 ≤ t) (h1 : t < 7014383236854775808) :
    ntpSeconds t = UInt64.ofNat (t / 1000000000 + 2208988800).toNat := by
  have e0 : t + ntpOffset * second = t + 2208988800000000000 := rfl
  obtain ⟨n, hn⟩ : ∃ n : Nat, t + 2208988800000000000 = (n : Int) :=
    ⟨(t + 2208988800000000000).toNat, by omega⟩
  have hs : saturate (n : Int) = n := by
    unfold saturate
    rw [if_neg (by omega), if_neg (by omega)]
  unfold ntpSeconds
  rw [e0, hn, hs, ofInt_nat]
  apply UInt64.toNat_inj.1
  rw [UInt64.toNat_div, UInt64.toNat_ofNat', UInt64.toNat_ofNat', Nat.mod_eq_of_lt (a := n) (by omega)]
  show n / 1000000000 = _
  omega

/-- What is read back, for every instant from 1900 until 2192. -/
theorem timestamp_floor (t : Int) (h0 : -2208988800000000000 ≤ t) (h1 : t < 7014383236854775808) :
    timestampValue (timestampWord t) = t / 1000000000 % 2 ^ 32 * 1000000000 := by
  unfold timestampValue timestampWord
  rw [ntpSeconds_floor t h0 h1]
  show _ * second = _ * second
  congr 1
  have e : (UInt64.ofNat (t / 1000000000 + 2208988800).toNat).toUInt32.toNat =
      (t / 1000000000 + 2208988800).toNat % 2 ^ 64 % 2 ^ 32 := by
    rw [UInt64.toNat_toUInt32, UInt64.toNat_ofNat']
  have c : (2208988800 : UInt32).toNat = 2208988800 := rfl
  rw [UInt32.toNat_sub, e, c]
  omega

end Pfcp
