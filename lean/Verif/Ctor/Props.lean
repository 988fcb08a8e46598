/-
Property theorems about the one-argument constructors: C29 (scalar elements), C35 (timers), C36 (timestamps).
`g` is the set of grouped types in force (it must not contain the type of the element; the default set contains the
type of none of them, `C29_default`), `mem` the bytes that follow a payload in memory, `rest` whatever follows the
element on the wire; all arbitrary.
-/
import Verif.Ctor.Lemmas
import Verif.Acc.Home

namespace Pfcp
open Fields
open Text (dotted wireName)

/-- With the default set of grouped types, all of the theorems apply. -/
theorem C29_default (c : IECtor) : (defaultGroupedTypes.contains c.def.1) = false := by
  simpa using (ctor_plain c).2

/-- The constructor makes an element of a type that its namesake accessor is meant to read. -/
theorem C29_type (c : IECtor) : c.def.1 ∈ c.acc.home := by
  simpa using forall_ctor (p := fun c => c.acc.home.contains c.def.1) (by decide +kernel) c

/-! ## C29 -/

/-- One-octet values: the bits that belong to the value are read back. -/
theorem C29_uint8 (g : IEType → Bool) (mem : IE → Bytes) (f : SecondsConv) (c : IECtor) (v : UInt8) (rest : Bytes)
    (hc : c.def.2 = .u8 ∨ ∃ m, c.def.2 = .u8mask m) (hg : g c.def.1 = false) :
    ∃ i b, c.build f (.u8 v) = some i ∧ i.marshal g = .ok b ∧ parse g (b ++ rest) = .ok i ∧
      c.acc.call g mem i = .ok (.u8 (v &&& c.width)) := by
  have key := forall_ctor (p := fun c => match c.def.2 with
    | .u8 => decide (c.acc.table.pre ≤ 1) && (match c.acc.table.cases.lookup c.def.1 with
      | some (.leaf .u8) => c.width == 0xff
      | some (.leaf (.mask m)) => c.width == m
      | _ => false)
    | .u8mask m => decide (c.acc.table.pre ≤ 1) && (match c.acc.table.cases.lookup c.def.1 with
      | some (.leaf .u8) => c.width == m
      | _ => false)
    | _ => true) (by decide +kernel) c
  rcases hc with h | ⟨m, h⟩
  · rw [h] at key
    simp only [Bool.and_eq_true, decide_eq_true_eq] at key
    obtain ⟨h1, h2⟩ := key
    split at h2
    · rename_i hl
      refine reads g mem f c _ _ rest [v] .u8 (by rw [h]; rfl) hg (by simp) hl h1 ?_
      rw [show c.width = 0xff by simpa using h2]
      show ((IE.new c.def.1 [v]).valueAsUint8 g >>= fun v => Res.ok (Val.u8 v)) = _
      rw [valueAsUint8_new g _ v hg, and_ff]
      rfl
    · rename_i m hl
      refine reads g mem f c _ _ rest [v] (.mask m) (by rw [h]; rfl) hg (by simp) hl h1 ?_
      rw [show c.width = m by simpa using h2]
      rfl
    · cases h2
  · rw [h] at key
    simp only [Bool.and_eq_true, decide_eq_true_eq] at key
    obtain ⟨h1, h2⟩ := key
    split at h2
    · rename_i hl
      refine reads g mem f c _ _ rest [v &&& m] .u8 (by rw [h]; rfl) hg (by simp) hl h1 ?_
      rw [show c.width = m by simpa using h2]
      show ((IE.new c.def.1 [v &&& m]).valueAsUint8 g >>= fun v => Res.ok (Val.u8 v)) = _
      rw [valueAsUint8_new g _ _ hg]
      rfl
    · cases h2

example : IECtor.NewQFI.def.2 = .u8 ∧ IECtor.NewQFI.width = 0xff := by decide
example : ∃ m, IECtor.NewPriority.def.2 = .u8mask m := ⟨0x0f, rfl⟩

/-- Two-octet values. -/
theorem C29_uint16 (g : IEType → Bool) (mem : IE → Bytes) (f : SecondsConv) (c : IECtor) (v : UInt16) (rest : Bytes)
    (hc : c.def.2 = .u16) (hg : g c.def.1 = false) :
    ∃ i b, c.build f (.u16 v) = some i ∧ i.marshal g = .ok b ∧ parse g (b ++ rest) = .ok i ∧
      c.acc.call g mem i = .ok (.u16 v) := by
  have key := forall_ctor (p := fun c => match c.def.2 with
    | .u16 => decide (c.acc.table.pre ≤ 2) && (match c.acc.table.cases.lookup c.def.1 with
      | some (.leaf .u16) => true
      | _ => false)
    | _ => true) (by decide +kernel) c
  rw [hc] at key
  simp only [Bool.and_eq_true, decide_eq_true_eq] at key
  obtain ⟨h1, h2⟩ := key
  split at h2
  · rename_i hl
    refine reads g mem f c _ _ rest (be16 v) .u16 (by rw [hc]; rfl) hg (by simp) hl h1 ?_
    show ((IE.new c.def.1 (be16 v)).valueAsUint16 g >>= fun v => Res.ok (Val.u16 v)) = _
    rw [valueAsUint16_new g _ v hg]
    rfl
  · cases h2

example : IECtor.NewPDRID.def.2 = .u16 := by decide

/-- Four-octet values. -/
theorem C29_uint32 (g : IEType → Bool) (mem : IE → Bytes) (f : SecondsConv) (c : IECtor) (v : UInt32) (rest : Bytes)
    (hc : c.def.2 = .u32) (hg : g c.def.1 = false) :
    ∃ i b, c.build f (.u32 v) = some i ∧ i.marshal g = .ok b ∧ parse g (b ++ rest) = .ok i ∧
      c.acc.call g mem i = .ok (.u32 v) := by
  have key := forall_ctor (p := fun c => match c.def.2 with
    | .u32 => decide (c.acc.table.pre ≤ 4) && (match c.acc.table.cases.lookup c.def.1 with
      | some (.leaf .u32) => true
      | _ => false)
    | _ => true) (by decide +kernel) c
  rw [hc] at key
  simp only [Bool.and_eq_true, decide_eq_true_eq] at key
  obtain ⟨h1, h2⟩ := key
  split at h2
  · rename_i hl
    refine reads g mem f c _ _ rest (be32 v) .u32 (by rw [hc]; rfl) hg (by simp) hl h1 ?_
    show ((IE.new c.def.1 (be32 v)).valueAsUint32 g >>= fun v => Res.ok (Val.u32 v)) = _
    rw [valueAsUint32_new g _ v hg]
    rfl
  · cases h2

example : IECtor.NewFARID.def.2 = .u32 := by decide

/-- Texts, of any octets. -/
theorem C29_string (g : IEType → Bool) (mem : IE → Bytes) (f : SecondsConv) (c : IECtor) (v : Bytes) (rest : Bytes)
    (hc : c.def.2 = .str) (hg : g c.def.1 = false) (hv : v.length ≤ 65535) :
    ∃ i b, c.build f (.bytes v) = some i ∧ i.marshal g = .ok b ∧ parse g (b ++ rest) = .ok i ∧
      c.acc.call g mem i = .ok (.bytes v) := by
  have key := forall_ctor (p := fun c => match c.def.2 with
    | .str => decide (c.acc.table.pre ≤ 0) && (match c.acc.table.cases.lookup c.def.1 with
      | some (.leaf .str) => true
      | _ => false)
    | _ => true) (by decide +kernel) c
  rw [hc] at key
  simp only [Bool.and_eq_true, decide_eq_true_eq] at key
  obtain ⟨h1, h2⟩ := key
  split at h2
  · rename_i hl
    refine reads g mem f c _ _ rest v .str (by rw [hc]; rfl) hg hv hl (by omega) ?_
    show ((IE.new c.def.1 v).valueAsString g >>= fun v => Res.ok (Val.bytes v)) = _
    unfold IE.valueAsString
    rw [show g (IE.new c.def.1 v).typ = false from hg]
    rfl
  · cases h2

example : IECtor.NewApplicationID.def.2 = .str := by decide

/-- Domain names: a dotted name whose labels have at most 255 octets and contain no dot. -/
theorem C29_domain (g : IEType → Bool) (mem : IE → Bytes) (f : SecondsConv) (c : IECtor) (ls : List Bytes) (rest : Bytes)
    (hc : c.def.2 = .fqdn) (hn : c ≠ .NewNetworkInstanceFQDN) (hg : g c.def.1 = false) (hls : ls ≠ [])
    (hl : ∀ l ∈ ls, l.length < 256 ∧ (46 : UInt8) ∉ l) (hsz : (dotted ls).length < 65535) :
    ∃ i b, c.build f (.bytes (dotted ls)) = some i ∧ i.marshal g = .ok b ∧ parse g (b ++ rest) = .ok i ∧
      c.acc.call g mem i = .ok (.bytes (dotted ls)) := by
  have key := forall_ctor (p := fun c => match c.def.2 with
    | .fqdn => decide (c = .NewNetworkInstanceFQDN) ||
      (decide (c.acc.table.pre ≤ 0) && (match c.acc.table.cases.lookup c.def.1 with
      | some (.leaf .fqdn) => true
      | _ => false))
    | _ => true) (by decide +kernel) c
  rw [hc] at key
  simp only [Bool.and_eq_true, Bool.or_eq_true, decide_eq_true_eq, hn, false_or] at key
  obtain ⟨h1, h2⟩ := key
  split at h2
  · rename_i hlk
    refine reads g mem f c _ _ rest (wireName ls) .fqdn ?_ hg ?_ hlk (by omega) ?_
    · rw [hc]
      show (match Text.encodeFQDN (dotted ls) with | .ok b => some b | _ => none) = _
      rw [Text.C33_layout ls hls fun l h => (hl l h).2]
    · have := wireName_length ls hls
      omega
    · show (if g c.def.1 = true then _ else Text.decodeFQDN (wireName ls) >>= fun v => Res.ok (Val.bytes v)) = _
      rw [hg, Text.C33_decode ls fun l h => (hl l h).1]
      rfl
  · cases h2

example : IECtor.NewAPNDNN.def.2 = .fqdn := by decide

/-- Lists of octets (flags and triggers): at least one octet, and two for the triggers. -/
theorem C29_octets (g : IEType → Bool) (mem : IE → Bytes) (f : SecondsConv) (c : IECtor) (v : Bytes) (rest : Bytes)
    (hc : c.def.2 = .octets) (hg : g c.def.1 = false) (hv : v.length ≤ 65535)
    (hmin : (if c = .NewReportingTriggers ∨ c = .NewUsageReportTrigger then 2 else 1) ≤ v.length) :
    ∃ i b, c.build f (.bytes v) = some i ∧ i.marshal g = .ok b ∧ parse g (b ++ rest) = .ok i ∧
      c.acc.call g mem i = .ok (.bytes v) := by
  have key := forall_ctor (p := fun c => match c.def.2 with
    | .octets => decide (c.acc.table.pre ≤ if c = .NewReportingTriggers ∨ c = .NewUsageReportTrigger then 2 else 1) &&
      (match c.acc.table.cases.lookup c.def.1 with
      | some (.leaf .payload) => true
      | some (.leaf (.payloadMin n)) => n == 1
      | _ => false)
    | _ => true) (by decide +kernel) c
  rw [hc] at key
  simp only [Bool.and_eq_true, decide_eq_true_eq] at key
  obtain ⟨h1, h2⟩ := key
  split at h2
  · rename_i hl
    exact reads g mem f c _ _ rest v .payload (by rw [hc]; rfl) hg hv hl (by omega) rfl
  · rename_i n hl
    have h3 : n = 1 := by simpa using h2
    refine reads g mem f c _ _ rest v (.payloadMin n) (by rw [hc]; rfl) hg hv hl (by omega) ?_
    have : ¬ v.length < n := by
      rw [h3]
      split at hmin <;> omega
    exact if_neg this
  · cases h2

example : IECtor.NewApplyAction.def.2 = .octets := by decide

/-- Durations counted in seconds: a whole number of seconds that fits the field. -/
theorem C29_seconds (g : IEType → Bool) (mem : IE → Bytes) (f : SecondsConv) (hf : SecondsOK f) (c : IECtor) (n : Nat)
    (rest : Bytes) (hc : (c.def.2 = .sec32 ∧ n < 2 ^ 32) ∨ (c.def.2 = .sec16 ∧ n < 2 ^ 16)) (hg : g c.def.1 = false) :
    ∃ i b, c.build f (.duration (n * second)) = some i ∧ i.marshal g = .ok b ∧ parse g (b ++ rest) = .ok i ∧
      c.acc.call g mem i = .ok (.duration (n * second)) := by
  have key := forall_ctor (p := fun c => match c.def.2 with
    | .sec32 => decide (c.acc.table.pre ≤ 4) && (match c.acc.table.cases.lookup c.def.1 with
      | some (.leaf .sec32) => true
      | some (.leaf .sec32Min) => true
      | _ => false)
    | .sec16 => decide (c.acc.table.pre ≤ 2) && (match c.acc.table.cases.lookup c.def.1 with
      | some (.leaf .sec16) => true
      | _ => false)
    | _ => true) (by decide +kernel) c
  rcases hc with ⟨hc, hn⟩ | ⟨hc, hn⟩
  · rw [hc] at key
    simp only [Bool.and_eq_true, decide_eq_true_eq] at key
    obtain ⟨h1, h2⟩ := key
    have hp : c.def.2.payload f (.duration (n * second)) = some (be32 (UInt32.ofNat n)) := by
      rw [hc, ← hf.u32 n hn]
      rfl
    have hval : ((UInt32.ofNat n).toNat : Int) * second = n * second := by
      rw [UInt32.toNat_ofNat', Nat.mod_eq_of_lt hn]
    split at h2
    · rename_i hl
      refine reads g mem f c _ _ rest _ .sec32 hp hg (by simp) hl h1 ?_
      show (Slice.u32At ⟨be32 (UInt32.ofNat n), _⟩ 0 >>= fun v => Res.ok (Val.duration (v.toNat * second))) = _
      rw [u32At_be32]
      show Res.ok (Val.duration ((UInt32.ofNat n).toNat * second)) = _
      rw [hval]
    · rename_i hl
      refine reads g mem f c _ _ rest _ .sec32Min hp hg (by simp) hl h1 ?_
      show (Slice.u32At ⟨be32 (UInt32.ofNat n), _⟩ 0 >>= fun v => Res.ok (Val.duration (v.toNat * second))) = _
      rw [u32At_be32]
      show Res.ok (Val.duration ((UInt32.ofNat n).toNat * second)) = _
      rw [hval]
    · cases h2
  · rw [hc] at key
    simp only [Bool.and_eq_true, decide_eq_true_eq] at key
    obtain ⟨h1, h2⟩ := key
    have hp : c.def.2.payload f (.duration (n * second)) = some (be16 (UInt16.ofNat n)) := by
      rw [hc, ← hf.u16 n hn]
      rfl
    have hval : ((UInt16.ofNat n).toNat : Int) * second = n * second := by
      rw [UInt16.toNat_ofNat', Nat.mod_eq_of_lt hn]
    split at h2
    · rename_i hl
      refine reads g mem f c _ _ rest _ .sec16 hp hg (by simp) hl h1 ?_
      show (Slice.u16At ⟨be16 (UInt16.ofNat n), _⟩ 0 >>= fun v => Res.ok (Val.duration (v.toNat * second))) = _
      rw [u16At_be16]
      show Res.ok (Val.duration ((UInt16.ofNat n).toNat * second)) = _
      rw [hval]
    · cases h2

/-- The assumption about the conversions can be met. -/
example : SecondsOK ⟨fun d => UInt32.ofInt (d / second), fun d => UInt16.ofInt (d / second)⟩ where
  u32 n _ := by
    show UInt32.ofInt ((n * second) / second) = _
    rw [Int.mul_ediv_cancel _ (by decide)]
    exact ofInt32 n
  u16 n _ := by
    show UInt16.ofInt ((n * second) / second) = _
    rw [Int.mul_ediv_cancel _ (by decide)]
    exact ofInt16 n

/-- Durations counted in milliseconds. -/
theorem C29_milliseconds (g : IEType → Bool) (mem : IE → Bytes) (f : SecondsConv) (c : IECtor) (n : Nat) (hn : n < 2 ^ 32)
    (rest : Bytes) (hc : c.def.2 = .ms32) (hg : g c.def.1 = false) :
    ∃ i b, c.build f (.duration (n * 1000000)) = some i ∧ i.marshal g = .ok b ∧ parse g (b ++ rest) = .ok i ∧
      c.acc.call g mem i = .ok (.duration (n * 1000000)) := by
  have key := forall_ctor (p := fun c => match c.def.2 with
    | .ms32 => decide (c.acc.table.pre ≤ 4) && (match c.acc.table.cases.lookup c.def.1 with
      | some (.leaf .ms32) => true
      | _ => false)
    | _ => true) (by decide +kernel) c
  rw [hc] at key
  simp only [Bool.and_eq_true, decide_eq_true_eq] at key
  obtain ⟨h1, h2⟩ := key
  have hp : c.def.2.payload f (.duration (n * 1000000)) = some (be32 (UInt32.ofNat n)) := by
    rw [hc]
    show some (be32 (UInt32.ofInt (((n : Int) * 1000000).tdiv 1000000))) = _
    rw [Int.mul_tdiv_cancel _ (by decide)]
    rw [ofInt32]
  split at h2
  · rename_i hl
    refine reads g mem f c _ _ rest _ .ms32 hp hg (by simp) hl h1 ?_
    show (Slice.u32At ⟨be32 (UInt32.ofNat n), _⟩ 0 >>= fun v => Res.ok (Val.duration (v.toNat * 1000000))) = _
    rw [u32At_be32]
    show Res.ok (Val.duration ((UInt32.ofNat n).toNat * 1000000)) = _
    rw [UInt32.toNat_ofNat', Nat.mod_eq_of_lt hn]
  · cases h2

example : IECtor.NewAveragePacketDelay.def.2 = .ms32 := by decide

/-- Durations counted in nanoseconds: every `time.Duration`, also negative ones. -/
theorem C29_nanoseconds (g : IEType → Bool) (mem : IE → Bytes) (f : SecondsConv) (c : IECtor) (d : Int64) (rest : Bytes)
    (hc : c.def.2 = .ns64) (hg : g c.def.1 = false) :
    ∃ i b, c.build f (.duration d.toInt) = some i ∧ i.marshal g = .ok b ∧ parse g (b ++ rest) = .ok i ∧
      c.acc.call g mem i = .ok (.duration d.toInt) := by
  have key := forall_ctor (p := fun c => match c.def.2 with
    | .ns64 => decide (c.acc.table.pre ≤ 8) && (match c.acc.table.cases.lookup c.def.1 with
      | some (.leaf .ns64) => true
      | _ => false)
    | _ => true) (by decide +kernel) c
  rw [hc] at key
  simp only [Bool.and_eq_true, decide_eq_true_eq] at key
  obtain ⟨h1, h2⟩ := key
  split at h2
  · rename_i hl
    refine reads g mem f c _ _ rest (be64 (UInt64.ofInt d.toInt)) .ns64 (by rw [hc]; rfl) hg (by simp) hl h1 ?_
    show (Slice.u64At ⟨be64 (UInt64.ofInt d.toInt), _⟩ 0 >>= fun v => Res.ok (Val.duration v.toInt64.toInt)) = _
    rw [u64At_be64]
    show Res.ok (Val.duration (UInt64.ofInt d.toInt).toInt64.toInt) = _
    congr 2
    exact nanos_back d
  · cases h2

example : IECtor.NewTimeOffsetThreshold.def.2 = .ns64 := by decide

/-- The notification delay counts units of 50 milliseconds. -/
theorem C29_notification_delay (g : IEType → Bool) (mem : IE → Bytes) (f : SecondsConv) (n : Nat) (hn : n < 256)
    (rest : Bytes) (hg : g T.DownlinkDataNotificationDelay = false) :
    ∃ i b, IECtor.NewDownlinkDataNotificationDelay.build f (.duration (n * 50000000)) = some i ∧ i.marshal g = .ok b ∧
      parse g (b ++ rest) = .ok i ∧
      Acc.DownlinkDataNotificationDelay.call g mem i = .ok (.duration (n * 50000000)) := by
  have hp : IECtor.NewDownlinkDataNotificationDelay.def.2.payload f (.duration (n * 50000000)) = some [UInt8.ofNat n] := by
    show some [UInt8.ofInt (((n : Int) * 50000000).tdiv 50000000)] = _
    rw [Int.mul_tdiv_cancel _ (by decide)]
    rw [ofInt8]
  refine reads g mem f .NewDownlinkDataNotificationDelay _ _ rest _ .delay50 hp hg (by simp) rfl
    (Nat.le_of_ble_eq_true rfl) ?_
  show Res.ok (Val.duration ((UInt8.ofNat n).toNat * 50000000)) = _
  rw [UInt8.toNat_ofNat', Nat.mod_eq_of_lt (by omega)]

/-- Any one-, two-, four- or eight-octet integer, for any type that is neither grouped nor vendor specific: what
`NewUint8IE` and so on store, `ValueAsUint8` and so on return. -/
theorem C29_integers (g : IEType → Bool) (t : IEType) (rest : Bytes) (hg : g t = false) (hv : isVendor t = false) :
    (∀ v : UInt8, ∃ b, (IE.new t [v]).marshal g = .ok b ∧ ∃ i, parse g (b ++ rest) = .ok i ∧ i.valueAsUint8 g = .ok v) ∧
    (∀ v : UInt16, ∃ b, (IE.new t (be16 v)).marshal g = .ok b ∧ ∃ i, parse g (b ++ rest) = .ok i ∧
      i.valueAsUint16 g = .ok v) ∧
    (∀ v : UInt32, ∃ b, (IE.new t (be32 v)).marshal g = .ok b ∧ ∃ i, parse g (b ++ rest) = .ok i ∧
      i.valueAsUint32 g = .ok v) ∧
    (∀ v : UInt64, ∃ b, (IE.new t (be64 v)).marshal g = .ok b ∧ ∃ i, parse g (b ++ rest) = .ok i ∧
      i.valueAsUint64 g = .ok v) := by
  refine ⟨fun v => ?_, fun v => ?_, fun v => ?_, fun v => ?_⟩
  · obtain ⟨b, h1, h2⟩ := new_wire g t [v] rest hg hv (by simp)
    exact ⟨b, h1, _, h2, valueAsUint8_new g t v hg⟩
  · obtain ⟨b, h1, h2⟩ := new_wire g t (be16 v) rest hg hv (by simp)
    exact ⟨b, h1, _, h2, valueAsUint16_new g t v hg⟩
  · obtain ⟨b, h1, h2⟩ := new_wire g t (be32 v) rest hg hv (by simp)
    exact ⟨b, h1, _, h2, valueAsUint32_new g t v hg⟩
  · obtain ⟨b, h1, h2⟩ := new_wire g t (be64 v) rest hg hv (by simp)
    exact ⟨b, h1, _, h2, valueAsUint64_new g t v hg⟩

/-- The coverage of the theorems above: every constructor of the table falls under one of them, except the timestamps
(C36), the timers (C35) and `NewNetworkInstanceFQDN`. -/
theorem C29_coverage (c : IECtor) : c.def.2 ∈ [Enc.u8, .u16, .u32, .str, .fqdn, .octets, .sec32, .sec16, .ms32, .ns64, .delay50,
    .stamp, .timer] ∨ ∃ m, c.def.2 = .u8mask m := by
  have h := forall_ctor (p := fun c => match c.def.2 with | .u64 => false | _ => true) (by decide +kernel) c
  cases hc : c.def.2 with
  | u8mask m => exact .inr ⟨m, rfl⟩
  | u64 => rw [hc] at h; cases h
  | _ => exact .inl (by simp)

/-! ## C35 -/

/-- The timer units of 3GPP TS 29.244, 8.2.35: 2 seconds, 1 minute, 10 minutes, 1 hour, 10 hours, in nanoseconds. -/
def timerUnits : List Int := [2000000000, 60000000000, 600000000000, 3600000000000, 36000000000000]

/-- A duration that a timer octet can hold: at most 31 of a unit. -/
def Representable (d : Int) : Prop := ∃ u ∈ timerUnits, ∃ k : Nat, k ≤ 31 ∧ d = k * u

/-- What is read back from a timer element, for every duration. -/
theorem C35_exact (g : IEType → Bool) (mem : IE → Bytes) (f : SecondsConv) (c : IECtor) (d : Int) (rest : Bytes)
    (hc : c.def.2 = .timer) (hg : g c.def.1 = false) :
    ∃ i b, c.build f (.duration d) = some i ∧ i.marshal g = .ok b ∧ parse g (b ++ rest) = .ok i ∧
      c.acc.call g mem i = .ok (.duration (match timerUnits.reverse.find? (fun u => d % u = 0) with
        | some u => (d.tdiv u % 32) * u
        | none => 2 ^ 63 - 1)) := by
  have key := forall_ctor (p := fun c => match c.def.2 with
    | .timer => decide (c.acc.table.pre ≤ 1) && (match c.acc.table.cases.lookup c.def.1 with
      | some (.leaf .timer) => true
      | some (.leaf .timerMin) => true
      | _ => false)
    | _ => true) (by decide +kernel) c
  rw [hc] at key
  simp only [Bool.and_eq_true, decide_eq_true_eq] at key
  obtain ⟨h1, h2⟩ := key
  have hv : timerValue (timerOctet d) = (match timerUnits.reverse.find? (fun u => d % u = 0) with
        | some u => (d.tdiv u % 32) * u
        | none => 2 ^ 63 - 1) := by
    rw [timer_exact, timerUnit_eq]
    rfl
  rw [← hv]
  split at h2
  · rename_i hl
    exact reads g mem f c _ _ rest [timerOctet d] .timer (by rw [hc]; rfl) hg (by simp) hl h1 rfl
  · rename_i hl
    exact reads g mem f c _ _ rest [timerOctet d] .timerMin (by rw [hc]; rfl) hg (by simp) hl h1 rfl
  · cases h2

/-- The three constructors concerned. -/
theorem C35_timers (c : IECtor) : c.def.2 = .timer ↔ c ∈ [IECtor.NewTimer, .NewDLBufferingDuration, .NewGracefulReleasePeriod] := by
  have h := forall_ctor (p := fun c => decide (c.def.2 = .timer ↔
    c ∈ [IECtor.NewTimer, .NewDLBufferingDuration, .NewGracefulReleasePeriod])) (by decide +kernel) c
  simpa only [decide_eq_true_eq] using h

/-- A representable duration is read back unchanged; so is "infinite"; and nothing else is. -/
theorem C35_unchanged (g : IEType → Bool) (mem : IE → Bytes) (f : SecondsConv) (c : IECtor) (d : Int) (rest : Bytes)
    (hc : c.def.2 = .timer) (hg : g c.def.1 = false) :
    ∃ i b, c.build f (.duration d) = some i ∧ i.marshal g = .ok b ∧ parse g (b ++ rest) = .ok i ∧
      (c.acc.call g mem i = .ok (.duration d) ↔ Representable d ∨ d = 2 ^ 63 - 1) := by
  obtain ⟨i, b, h1, h2, h3, h4⟩ := C35_exact g mem f c d rest hc hg
  refine ⟨i, b, h1, h2, h3, ?_⟩
  rw [h4]
  have h5 := timerBack_eq d
  constructor
  · intro h
    rcases h5.1 (Val.duration.inj (Res.ok.inj h)) with ⟨u, hu, r⟩ | h
    · exact .inl ⟨u, List.mem_reverse.1 hu, r⟩
    · exact .inr h
  · intro h
    have h6 : timerBack d = d := h5.2 (h.imp_left fun ⟨u, hu, r⟩ => ⟨u, List.mem_reverse.2 hu, r⟩)
    exact congrArg (fun x => Res.ok (Val.duration x)) h6

example : Representable (31 * 36000000000000) := ⟨36000000000000, by decide, 31, by decide, rfl⟩
example : Representable 90000000000 → False := by
  rintro ⟨u, hu, k, hk, e⟩
  simp only [timerUnits, List.mem_cons, List.not_mem_nil, or_false] at hu
  rcases hu with hu | hu | hu | hu | hu <;> subst hu <;> omega

/-- A duration that is not a multiple of 2 seconds is read back as infinite. -/
theorem C35_infinite (g : IEType → Bool) (mem : IE → Bytes) (f : SecondsConv) (c : IECtor) (d : Int) (rest : Bytes)
    (hc : c.def.2 = .timer) (hg : g c.def.1 = false) (hd : d % 2000000000 ≠ 0) :
    ∃ i b, c.build f (.duration d) = some i ∧ i.marshal g = .ok b ∧ parse g (b ++ rest) = .ok i ∧
      c.acc.call g mem i = .ok (.duration (2 ^ 63 - 1)) := by
  obtain ⟨i, b, h1, h2, h3, h4⟩ := C35_exact g mem f c d rest hc hg
  refine ⟨i, b, h1, h2, h3, ?_⟩
  rw [h4]
  have : timerUnits.reverse.find? (fun u => d % u = 0) = none := by
    rw [List.find?_eq_none]
    intro u hu
    simp only [timerUnits, List.reverse_cons, List.reverse_nil, List.nil_append, List.cons_append, List.mem_cons,
      List.not_mem_nil, or_false] at hu
    simp only [decide_eq_true_eq]
    rcases hu with hu | hu | hu | hu | hu <;> subst hu <;> omega
  rw [this]

/-- The second half of C35 fails: a duration of 32 or more units that has no larger unit is read back as a shorter
finite one, for instance 64 seconds as 0 and 66 seconds as 2 seconds, in every timer element. -/
theorem C35_shorter_violated (g : IEType → Bool) (mem : IE → Bytes) (f : SecondsConv) (c : IECtor) (rest : Bytes)
    (hc : c.def.2 = .timer) (hg : g c.def.1 = false) :
    (∃ i b, c.build f (.duration 64000000000) = some i ∧ i.marshal g = .ok b ∧ parse g (b ++ rest) = .ok i ∧
      c.acc.call g mem i = .ok (.duration 0)) ∧
    (∃ i b, c.build f (.duration 66000000000) = some i ∧ i.marshal g = .ok b ∧ parse g (b ++ rest) = .ok i ∧
      c.acc.call g mem i = .ok (.duration 2000000000)) :=
  ⟨C35_exact g mem f c 64000000000 rest hc hg, C35_exact g mem f c 66000000000 rest hc hg⟩

/-- Every octet is read as one of the durations of the specification, except that the two spare units are read as 0
where the specification says minutes (`C35_spare_units_violated`). -/
theorem C35_octet (b : UInt8) : timerValue b = match (b >>> 5).toNat with
    | 0 => (b.toNat % 32 : Nat) * 2000000000
    | 1 => (b.toNat % 32 : Nat) * 60000000000
    | 2 => (b.toNat % 32 : Nat) * 600000000000
    | 3 => (b.toNat % 32 : Nat) * 3600000000000
    | 4 => (b.toNat % 32 : Nat) * 36000000000000
    | 7 => 2 ^ 63 - 1
    | _ => 0 := by
  have h : ∀ b : Fin 256, timerValue (UInt8.ofNat b.val) = match (UInt8.ofNat b.val >>> 5).toNat with
    | 0 => ((UInt8.ofNat b.val).toNat % 32 : Nat) * 2000000000
    | 1 => ((UInt8.ofNat b.val).toNat % 32 : Nat) * 60000000000
    | 2 => ((UInt8.ofNat b.val).toNat % 32 : Nat) * 600000000000
    | 3 => ((UInt8.ofNat b.val).toNat % 32 : Nat) * 3600000000000
    | 4 => ((UInt8.ofNat b.val).toNat % 32 : Nat) * 36000000000000
    | 7 => 2 ^ 63 - 1
    | _ => (0 : Int) := by decide +kernel
  have := h ⟨b.toNat, b.toNat_lt⟩
  simpa using this

/-- The comment in /repo/ie/timer.go:26 says that other units are multiples of 1 minute; they are read as 0. -/
theorem C35_spare_units_violated : timerValue 0xa5 = 0 ∧ timerValue 0xc5 = 0 := by decide

/-! ## C36 -/

/-- What is read back from a timestamp element for every instant (in nanoseconds since 1970) from 1900 until the
arithmetic of `time.Duration` saturates in 2192: the whole seconds, modulo 2^32 counted from 1970. -/
theorem C36_exact (g : IEType → Bool) (mem : IE → Bytes) (f : SecondsConv) (c : IECtor) (t : Int) (rest : Bytes)
    (hc : c.def.2 = .stamp) (hg : g c.def.1 = false) (h0 : -2208988800000000000 ≤ t) (h1 : t < 7014383236854775808) :
    ∃ i b, c.build f (.time t) = some i ∧ i.marshal g = .ok b ∧ parse g (b ++ rest) = .ok i ∧
      c.acc.call g mem i = .ok (.time ((t / 1000000000) % 2 ^ 32 * 1000000000)) := by
  have key := forall_ctor (p := fun c => match c.def.2 with
    | .stamp => decide (c.acc.table.pre ≤ 4) && (match c.acc.table.cases.lookup c.def.1 with
      | some (.leaf .timestamp) => true
      | _ => false)
    | _ => true) (by decide +kernel) c
  rw [hc] at key
  simp only [Bool.and_eq_true, decide_eq_true_eq] at key
  obtain ⟨h2, h3⟩ := key
  split at h3
  · rename_i hl
    refine reads g mem f c _ _ rest (be32 (timestampWord t)) .timestamp (by rw [hc]; rfl) hg (by simp) hl h2 ?_
    show (if g c.def.1 = true then _ else if 4 < 4 then _ else
      Slice.u32At ⟨be32 (timestampWord t), _⟩ 0 >>= fun v => Res.ok (Val.time (timestampValue v))) = _
    rw [hg, u32At_be32]
    show Res.ok (Val.time (timestampValue (timestampWord t))) = _
    rw [timestamp_floor t h0 h1]
  · cases h3

/-- A whole second from 1970 on that a 32-bit counter can represent is read back. -/
theorem C36_round_trip (g : IEType → Bool) (mem : IE → Bytes) (f : SecondsConv) (c : IECtor) (s : Nat) (rest : Bytes)
    (hc : c.def.2 = .stamp) (hg : g c.def.1 = false) (hs : s < 2 ^ 32) :
    ∃ i b, c.build f (.time (s * 1000000000)) = some i ∧ i.marshal g = .ok b ∧ parse g (b ++ rest) = .ok i ∧
      c.acc.call g mem i = .ok (.time (s * 1000000000)) := by
  have h := C36_exact g mem f c (s * 1000000000) rest hc hg (by omega) (by omega)
  rw [show ((s : Int) * 1000000000) / 1000000000 % 2 ^ 32 * 1000000000 = s * 1000000000 by omega] at h
  exact h

example : IECtor.NewRecoveryTimeStamp.def.2 = .stamp ∧ IECtor.NewEventTimeStamp.def.2 = .stamp := by decide

/-- Outside of that range another instant is read back, without an error: 1969 becomes 2106 and 2106 becomes 1970. -/
theorem C36_wraps_violated (g : IEType → Bool) (mem : IE → Bytes) (f : SecondsConv) (c : IECtor) (rest : Bytes)
    (hc : c.def.2 = .stamp) (hg : g c.def.1 = false) :
    (∃ i b, c.build f (.time (-1000000000)) = some i ∧ i.marshal g = .ok b ∧ parse g (b ++ rest) = .ok i ∧
      c.acc.call g mem i = .ok (.time 4294967295000000000)) ∧
    (∃ i b, c.build f (.time 4294967296000000000) = some i ∧ i.marshal g = .ok b ∧ parse g (b ++ rest) = .ok i ∧
      c.acc.call g mem i = .ok (.time 0)) :=
  ⟨C36_exact g mem f c (-1000000000) rest hc hg (by decide) (by decide),
    C36_exact g mem f c 4294967296000000000 rest hc hg (by decide) (by decide)⟩

end Pfcp
