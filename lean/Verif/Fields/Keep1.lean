/- Property C80 for the structured elements made of integers and addresses: which field values come back unchanged
when they are encoded and decoded. Unlike C40 this is about every value of the Go structure, also one that no
constructor returns, and says for each whether it comes back. The conditions are spelled out with `bit`, the bit number
from 0. -/
import Verif.Fields.Props1
import Verif.Fields.Props2

namespace Pfcp
namespace Fields

/-- The value `v` can be encoded, and what decoding the bytes gives is `v` again. -/
def _root_.Pfcp.Codec.Keeps {α : Type} (c : Codec α) (v : α) : Prop :=
  ∃ w, c.marshal v = .ok w ∧ ∀ sp, c.parse ⟨w, sp⟩ = .ok v

/-- An address (or other byte slice) of `n` octets if it is announced, else nil. -/
def Announced (c : Bool) (n : Nat) (a : Option Bytes) : Prop :=
  if c then ∃ x, a = some x ∧ x.length = n else a = none

theorem keeps_iff {α : Type} {c : Codec α} {v v' : α} {e : Bytes} {R : Prop}
    (h1 : ∀ w, c.marshal v = .ok w → c.parse ⟨w, []⟩ = .ok v → R)
    (h2 : R → c.marshal v = .ok e ∧ ∀ sp, c.parse ⟨e, sp⟩ = .ok v') : c.Keeps v ↔ R ∧ v' = v := by
  constructor
  · rintro ⟨w, hm, hp⟩
    have hr := h1 w hm (hp [])
    obtain ⟨g1, g2⟩ := h2 hr
    rw [hm] at g1
    cases g1
    have := (g2 []).symm.trans (hp [])
    exact ⟨hr, by injection this⟩
  · rintro ⟨hr, rfl⟩
    exact ⟨e, h2 hr⟩

theorem run_minLen_ok {α : Type} {n : Nat} {f : Unit → P α} {s : Slice} {a : α}
    (h : (P.minLen n >>= f).run s = .ok a) : n ≤ s.data.length := by
  apply Classical.byContradiction
  intro hl
  rw [P.run_minLen_err (by omega)] at h
  cases h

theorem announced4 {c : Bool} {ip : IP} : (c = ip.isSome ∧ ip.Is4) ∧ ip.as4 = ip ↔ Announced c 4 ip := by
  cases ip with
  | none =>
    cases c
    · simp [Announced, IP.none_is4, IP.as4]
    · simp [Announced]
  | some a =>
    cases c
    · simp [Announced]
    · simp only [Announced, if_true, Option.isSome_some, true_and, IP.as4, Option.map_some, Option.some.injEq]
      constructor
      · rintro ⟨h1, h2⟩
        exact ⟨a, rfl, by rw [← h2]; exact to4_length (h1 a rfl)⟩
      · rintro ⟨x, rfl, h⟩
        exact ⟨fun y hy => Or.inl (by cases hy; exact h), to4_eq h⟩

theorem announced16 {c : Bool} {ip : IP} : (c = ip.isSome ∧ ip.Is16) ∧ ip.as16 = ip ↔ Announced c 16 ip := by
  cases ip with
  | none =>
    cases c
    · simp [Announced, IP.none_is16, IP.as16]
    · simp [Announced]
  | some a =>
    cases c
    · simp [Announced]
    · simp only [Announced, if_true, Option.isSome_some, true_and, IP.as16, Option.map_some, Option.some.injEq]
      constructor
      · rintro ⟨h1, h2⟩
        exact ⟨a, rfl, by rw [← h2]; exact to16_length (h1 a rfl)⟩
      · rintro ⟨x, rfl, h⟩
        exact ⟨fun y hy => Or.inr (by cases hy; exact h), to16_eq h⟩

theorem ite_self_iff {α : Type} {c : Bool} {x d : α} : (if c then x else d) = x ↔ (c = false → x = d) := by
  cases c <;> simp [eq_comm]

/-! ### Volumes -/

/-- C80. The decoder refuses one octet, so a volume must be announced; volumes not announced must be 0. -/
theorem C80_Volume (v : Volume) : Volume.codec.Keeps v ↔
    (bit v.flags 0 = true ∨ bit v.flags 1 = true ∨ bit v.flags 2 = true) ∧
    (bit v.flags 0 = false → v.total = 0) ∧ (bit v.flags 1 = false → v.uplink = 0) ∧
    (bit v.flags 2 = false → v.downlink = 0) := by
  rw [keeps_iff (R := 2 ≤ v.enc.length) (e := v.enc) (v' := v.norm)]
  · obtain ⟨f, t, u, d⟩ := v
    simp only [Volume.norm, Volume.enc, Volume.hasTOVOL, Volume.hasULVOL, Volume.hasDLVOL, has1stBit_eq,
      has2ndBit_eq, has3rdBit_eq, Volume.mk.injEq, true_and, ite_self_iff]
    refine and_congr ?_ Iff.rfl
    cases bit f 0 <;> cases bit f 1 <;> cases bit f 2 <;> simp
  · intro w hm hp
    rw [Volume.emits] at hm
    cases hm
    exact run_minLen_ok hp
  · exact fun h => ⟨Volume.emits v, fun sp => by have := Volume.reads v h [] sp; rwa [List.append_nil] at this⟩

/-- C80. Likewise with six counters. -/
theorem C80_VolumeMeasurement (v : VolumeMeasurement) : VolumeMeasurement.codec.Keeps v ↔
    (∃ i, i < 6 ∧ bit v.flags i = true) ∧
    (bit v.flags 0 = false → v.total = 0) ∧ (bit v.flags 1 = false → v.uplink = 0) ∧
    (bit v.flags 2 = false → v.downlink = 0) ∧ (bit v.flags 3 = false → v.totalPackets = 0) ∧
    (bit v.flags 4 = false → v.uplinkPackets = 0) ∧ (bit v.flags 5 = false → v.downlinkPackets = 0) := by
  have six : (∃ i, i < 6 ∧ bit v.flags i = true) ↔ bit v.flags 0 = true ∨ bit v.flags 1 = true ∨
      bit v.flags 2 = true ∨ bit v.flags 3 = true ∨ bit v.flags 4 = true ∨ bit v.flags 5 = true := by
    constructor
    · rintro ⟨i, hi, hb⟩
      have : i = 0 ∨ i = 1 ∨ i = 2 ∨ i = 3 ∨ i = 4 ∨ i = 5 := by omega
      rcases this with rfl | rfl | rfl | rfl | rfl | rfl <;> simp [hb]
    · rintro (h | h | h | h | h | h) <;> exact ⟨_, by decide, h⟩
  rw [keeps_iff (R := 2 ≤ v.enc.length) (e := v.enc) (v' := v.norm), six]
  · obtain ⟨f, t, u, d, tp, up, dp⟩ := v
    simp only [VolumeMeasurement.norm, VolumeMeasurement.new, VolumeMeasurement.enc, VolumeMeasurement.hasTOVOL,
      VolumeMeasurement.hasULVOL, VolumeMeasurement.hasDLVOL, VolumeMeasurement.hasTONOP,
      VolumeMeasurement.hasULNOP, VolumeMeasurement.hasDLNOP, has1stBit_eq, has2ndBit_eq, has3rdBit_eq,
      has4thBit_eq, has5thBit_eq, has6thBit_eq, VolumeMeasurement.mk.injEq, true_and, ite_self_iff]
    refine and_congr ?_ Iff.rfl
    cases bit f 0 <;> cases bit f 1 <;> cases bit f 2 <;> cases bit f 3 <;> cases bit f 4 <;> cases bit f 5 <;> simp
  · intro w hm hp
    rw [VolumeMeasurement.emits] at hm
    cases hm
    exact run_minLen_ok hp
  · exact fun h => ⟨VolumeMeasurement.emits v,
      fun sp => by have := VolumeMeasurement.reads v h [] sp; rwa [List.append_nil] at this⟩

example : Volume.codec.Keeps ⟨2, 0, 7, 0⟩ := (C80_Volume _).2 (by decide)
example : ¬ Volume.codec.Keeps ⟨2, 1, 7, 0⟩ := fun h => absurd ((C80_Volume _).1 h) (by decide)

/-! ### Counters -/

theorem C80_NumberOfUEIPAddresses (v : NumberOfUEIPAddresses) : NumberOfUEIPAddresses.codec.Keeps v ↔
    (bit v.flags 0 = false → v.v4 = 0) ∧ (bit v.flags 1 = false → v.v6 = 0) := by
  rw [keeps_iff (R := True) (e := v.enc) (v' := v.norm)]
  · obtain ⟨f, a, b⟩ := v
    simp only [NumberOfUEIPAddresses.norm, NumberOfUEIPAddresses.hasNumIPv4, NumberOfUEIPAddresses.hasNumIPv6,
      has1stBit_eq, has2ndBit_eq, NumberOfUEIPAddresses.mk.injEq, true_and, ite_self_iff]
  · exact fun _ _ _ => trivial
  · exact fun _ => ⟨NumberOfUEIPAddresses.emits v,
      fun sp => by have := NumberOfUEIPAddresses.reads v [] sp; rwa [List.append_nil] at this⟩

theorem C80_Delays (v : Delays) : Delays.codec.Keeps v ↔
    (bit v.flags 0 = false → v.dl = 0) ∧ (bit v.flags 1 = false → v.ul = 0) ∧ (bit v.flags 2 = false → v.rp = 0) := by
  rw [keeps_iff (R := True) (e := v.enc) (v' := v.norm)]
  · obtain ⟨f, a, b, c⟩ := v
    simp only [Delays.norm, Delays.hasDL, Delays.hasUL, Delays.hasRP,
      has1stBit_eq, has2ndBit_eq, has3rdBit_eq, Delays.mk.injEq, true_and, ite_self_iff]
  · exact fun _ _ _ => trivial
  · exact fun _ => ⟨Delays.emits v, fun sp => by have := Delays.reads v [] sp; rwa [List.append_nil] at this⟩

theorem marshal_minLen_ok {n l : Nat} {w : W} {bs : Bytes} (h : (W.minLen n ;; w).marshal l = .ok bs) : n ≤ l := by
  apply Classical.byContradiction
  intro hl
  unfold W.marshal W.run W.seq W.minLen Slice.make at h
  simp only [List.length_replicate] at h
  rw [if_pos (by omega)] at h
  cases h

/-- C80. The encoder refuses to write one octet, so something must be announced. -/
theorem C80_DLFlowLevelMarking (v : DLFlowLevelMarking) : DLFlowLevelMarking.codec.Keeps v ↔
    (bit v.flags 0 = true ∨ bit v.flags 1 = true) ∧
    (bit v.flags 0 = false → v.ttc = 0) ∧ (bit v.flags 1 = false → v.sci = 0) := by
  rw [keeps_iff (R := 2 ≤ v.enc.length) (e := v.enc) (v' := v.norm)]
  · obtain ⟨f, a, b⟩ := v
    simp only [DLFlowLevelMarking.norm, DLFlowLevelMarking.new, DLFlowLevelMarking.enc,
      has1stBit_eq, has2ndBit_eq, DLFlowLevelMarking.mk.injEq, true_and, ite_self_iff]
    refine and_congr ?_ Iff.rfl
    cases bit f 0 <;> cases bit f 1 <;> simp
  · intro w hm _
    rw [DLFlowLevelMarking.enc_length]
    exact marshal_minLen_ok hm
  · exact fun h => ⟨DLFlowLevelMarking.emits v h,
      fun sp => by have := DLFlowLevelMarking.reads v [] sp; rwa [List.append_nil] at this⟩

theorem C80_PacketRate (v : PacketRate) : PacketRate.codec.Keeps v ↔
    (bit v.flags 0 = true ∨ bit v.flags 1 = true) ∧
    (bit v.flags 0 = false → v.ulUnit = 0 ∧ v.ulRate = 0) ∧ (bit v.flags 1 = false → v.dlUnit = 0 ∧ v.dlRate = 0) := by
  rw [keeps_iff (R := 2 ≤ v.enc.length) (e := v.enc) (v' := v.norm)]
  · obtain ⟨f, a, b, c, d⟩ := v
    simp only [PacketRate.norm, PacketRate.new, PacketRate.enc,
      has1stBit_eq, has2ndBit_eq, PacketRate.mk.injEq, true_and, ite_self_iff]
    cases bit f 0 <;> cases bit f 1 <;> simp
  · intro w hm _
    rw [PacketRate.enc_length]
    exact marshal_minLen_ok hm
  · exact fun h => ⟨PacketRate.emits v h,
      fun sp => by have := PacketRate.reads v h [] sp; rwa [List.append_nil] at this⟩

/-- The seconds that the encoder of a 64-bit time stamp counts: an instant before 1900 becomes one after 2192. -/
theorem ntpSeconds_range (t : Int) : ∃ n : Nat, ntpSeconds t = UInt64.ofNat n ∧ n < 2 ^ 63 ∧
    ((0 ≤ t + 2208988800000000000 ∧ n ≤ 9223372036) ∨ (t + 2208988800000000000 < 0 ∧ 9223372036 ≤ n)) := by
  refine ⟨(ntpSeconds t).toNat, by simp, ?_⟩
  have he : t + ntpOffset * second = t + 2208988800000000000 := rfl
  have hd : (ntpSeconds t).toNat = (UInt64.ofInt (saturate (t + 2208988800000000000))).toNat / 1000000000 := by
    unfold ntpSeconds
    rw [he, UInt64.toNat_div]
    rfl
  rw [hd]
  generalize t + 2208988800000000000 = y
  have hz : ((UInt64.ofInt (saturate y)).toNat : Int) = saturate y % 2 ^ 64 := by
    unfold UInt64.ofInt
    rw [UInt64.toNat_ofNat']
    omega
  generalize (UInt64.ofInt (saturate y)).toNat = z at hz
  have hs : (y < -9223372036854775808 ∧ saturate y = -9223372036854775808) ∨
      (9223372036854775807 < y ∧ saturate y = 9223372036854775807) ∨
      (-9223372036854775808 ≤ y ∧ y ≤ 9223372036854775807 ∧ saturate y = y) := by
    unfold saturate
    split
    · left; exact ⟨by omega, rfl⟩
    · split
      · right; left; exact ⟨by omega, rfl⟩
      · right; right; exact ⟨by omega, by omega, rfl⟩
  generalize saturate y = q at hz hs
  omega

/-- The instants that the encoder and decoder of a 64-bit time stamp keep: whole seconds from 1900 on, for 292 years. -/
theorem ofNtp64_keeps (t : Int) : PacketRateStatus.ofNtp64 (ntpSeconds t) = t ↔
    ∃ s : Int, -2208988800 ≤ s ∧ s ≤ 7014383236 ∧ t = unix s := by
  constructor
  · intro h
    obtain ⟨n, hn, hl, hc⟩ := ntpSeconds_range t
    unfold PacketRateStatus.ofNtp64 at h
    rw [hn, sub_toInt n hl] at h
    refine ⟨n - 2208988800, by omega, ?_, h.symm⟩
    have h' : ((n : Int) - 2208988800) * 1000000000 = t := h
    omega
  · rintro ⟨s, h0, h1, rfl⟩
    obtain ⟨n, hn⟩ : ∃ n : Nat, s + 2208988800 = n := ⟨(s + 2208988800).toNat, by omega⟩
    have hs : s = (n : Int) - 2208988800 := by omega
    subst hs
    unfold PacketRateStatus.ofNtp64
    rw [ntpSeconds_eq n (by omega), sub_toInt n (by omega)]

/-- C80. The validity time must be a whole second from 1900 to 2192. -/
theorem C80_PacketRateStatus (v : PacketRateStatus) : PacketRateStatus.codec.Keeps v ↔
    (bit v.flags 0 = false → v.ul = 0) ∧ ((bit v.flags 0 && bit v.flags 2) = false → v.aul = 0) ∧
    (bit v.flags 1 = false → v.dl = 0) ∧ ((bit v.flags 1 && bit v.flags 2) = false → v.adl = 0) ∧
    ∃ s : Int, -2208988800 ≤ s ∧ s ≤ 7014383236 ∧ v.vtime = unix s := by
  rw [keeps_iff (R := True) (e := v.enc) (v' := v.norm)]
  · obtain ⟨f, a, b, c, d, t⟩ := v
    simp only [PacketRateStatus.norm, PacketRateStatus.new, PacketRateStatus.hasUL, PacketRateStatus.hasDL,
      PacketRateStatus.hasAPR, has1stBit_eq, has2ndBit_eq, has3rdBit_eq, PacketRateStatus.mk.injEq, true_and,
      ofNtp64_keeps]
    cases bit f 0 <;> cases bit f 1 <;> cases bit f 2 <;> simp [eq_comm]
  · exact fun _ _ _ => trivial
  · exact fun _ => ⟨PacketRateStatus.emits v,
      fun sp => by have := PacketRateStatus.reads v [] sp; rwa [List.append_nil] at this⟩

example : PacketRateStatus.codec.Keeps ⟨1, 7, 0, 0, 0, unix 0⟩ :=
  (C80_PacketRateStatus _).2 ⟨by decide, by decide, by decide, by decide, 0, by decide, by decide, rfl⟩

/-! ### Addresses -/

/-- C80 for the five types with one IPv4 and one IPv6 address of /repo/ie that share a codec. -/
theorem C80_IP46 (v : IP46) : IP46.codec.Keeps v ↔
    (bit v.flags 0 = true ∨ bit v.flags 1 = true) ∧ Announced (bit v.flags 1) 4 v.v4 ∧
    Announced (bit v.flags 0) 16 v.v6 := by
  rw [keeps_iff (R := (v.Valid ∧ v.Agree) ∧ 2 ≤ v.enc.length) (e := v.enc) (v' := ⟨v.flags, v.v4.as4, v.v6.as16⟩)]
  · rw [← announced4, ← announced16]
    obtain ⟨f, a, b⟩ := v
    simp only [IP46.Valid, IP46.Agree, IP46.hasIPv4, IP46.hasIPv6, IP46.enc, has1stBit_eq, has2ndBit_eq, IP46.mk.injEq,
      true_and]
    constructor
    · rintro ⟨⟨⟨⟨h1, h2⟩, h3, h4⟩, hl⟩, h5, h6⟩
      refine ⟨?_, ⟨⟨h3, h1⟩, h5⟩, ⟨h4, h2⟩, h6⟩
      rw [List.length_append, List.length_append, List.length_append, wire4_length h1, wire16_length h2, ← h3,
        ← h4] at hl
      revert hl
      cases bit f 0 <;> cases bit f 1 <;> simp
    · rintro ⟨h, ⟨⟨h3, h1⟩, h5⟩, ⟨h4, h2⟩, h6⟩
      refine ⟨⟨⟨⟨h1, h2⟩, h3, h4⟩, ?_⟩, h5, h6⟩
      rw [List.length_append, List.length_append, List.length_append, wire4_length h1, wire16_length h2, ← h3, ← h4]
      revert h
      cases bit f 0 <;> cases bit f 1 <;> simp
  · intro w hm hp
    obtain ⟨_, _, _, ⟨_, h1, h2⟩, hl⟩ := IP46.takes _ _ hp
    refine ⟨⟨h1, h2⟩, ?_⟩
    rw [IP46.emits v h1] at hm
    cases hm
    exact hl
  · rintro ⟨⟨h1, h2⟩, hl⟩
    exact ⟨IP46.emits v h1, fun sp => by have := IP46.reads v h1 h2 hl [] sp; rwa [List.append_nil] at this⟩

theorem C80_FSEID (v : FSEID) : FSEID.codec.Keeps v ↔
    Announced (bit v.flags 1) 4 v.v4 ∧ Announced (bit v.flags 0) 16 v.v6 := by
  rw [keeps_iff (R := v.Valid ∧ v.Agree) (e := v.enc) (v' := ⟨v.flags, v.seid, v.v4.as4, v.v6.as16⟩)]
  · rw [← announced4, ← announced16]
    obtain ⟨f, n, a, b⟩ := v
    simp only [FSEID.Valid, FSEID.Agree, FSEID.hasIPv4, FSEID.hasIPv6, has1stBit_eq, has2ndBit_eq, FSEID.mk.injEq,
      true_and]
    constructor
    · rintro ⟨⟨⟨h1, h2⟩, h3, h4⟩, h5, h6⟩
      exact ⟨⟨⟨h3, h1⟩, h5⟩, ⟨h4, h2⟩, h6⟩
    · rintro ⟨⟨⟨h3, h1⟩, h5⟩, ⟨h4, h2⟩, h6⟩
      exact ⟨⟨⟨h1, h2⟩, h3, h4⟩, h5, h6⟩
  · intro w hm hp
    obtain ⟨_, _, _, ⟨_, h1, h2⟩, hl⟩ := FSEID.takes _ _ hp
    exact ⟨h1, h2⟩
  · rintro ⟨h1, h2⟩
    exact ⟨FSEID.emits v h1 h2, fun sp => by have := FSEID.reads v h1 h2 [] sp; rwa [List.append_nil] at this⟩

theorem C80_MPTCPAddressInformation (v : MPTCPAddressInformation) : MPTCPAddressInformation.codec.Keeps v ↔
    Announced (bit v.flags 0) 4 v.v4 ∧ Announced (bit v.flags 1) 16 v.v6 := by
  rw [keeps_iff (R := v.Valid ∧ v.Agree) (e := v.enc) (v' := ⟨v.flags, v.ptype, v.port, v.v4.as4, v.v6.as16⟩)]
  · rw [← announced4, ← announced16]
    obtain ⟨f, n, p, a, b⟩ := v
    simp only [MPTCPAddressInformation.Valid, MPTCPAddressInformation.Agree, MPTCPAddressInformation.hasIPv4,
      MPTCPAddressInformation.hasIPv6, has1stBit_eq, has2ndBit_eq, MPTCPAddressInformation.mk.injEq, true_and]
    constructor
    · rintro ⟨⟨⟨h1, h2⟩, h3, h4⟩, h5, h6⟩
      exact ⟨⟨⟨h3, h1⟩, h5⟩, ⟨h4, h2⟩, h6⟩
    · rintro ⟨⟨⟨h3, h1⟩, h5⟩, ⟨h4, h2⟩, h6⟩
      exact ⟨⟨⟨h1, h2⟩, h3, h4⟩, h5, h6⟩
  · intro w hm hp
    obtain ⟨_, _, _, ⟨_, h1, h2⟩, hl⟩ := MPTCPAddressInformation.takes _ _ hp
    exact ⟨h1, h2⟩
  · rintro ⟨h1, h2⟩
    exact ⟨MPTCPAddressInformation.emits v h1 h2,
      fun sp => by have := MPTCPAddressInformation.reads v h1 h2 [] sp; rwa [List.append_nil] at this⟩

theorem C80_UELinkSpecificIPAddress (v : UELinkSpecificIPAddress) : UELinkSpecificIPAddress.codec.Keeps v ↔
    Announced (bit v.flags 0) 4 v.v4 ∧ Announced (bit v.flags 1) 16 v.v6 ∧
    Announced (bit v.flags 2) 4 v.nv4 ∧ Announced (bit v.flags 3) 16 v.nv6 := by
  rw [keeps_iff (R := v.Valid ∧ v.Agree) (e := v.enc)
    (v' := ⟨v.flags, v.v4.as4, v.v6.as16, v.nv4.as4, v.nv6.as16⟩)]
  · rw [← announced4, ← announced16, ← announced4, ← announced16]
    obtain ⟨f, a, b, c, d⟩ := v
    simp only [UELinkSpecificIPAddress.Valid, UELinkSpecificIPAddress.Agree, UELinkSpecificIPAddress.hasIPv4,
      UELinkSpecificIPAddress.hasIPv6, UELinkSpecificIPAddress.hasNV4, UELinkSpecificIPAddress.hasNV6, has1stBit_eq,
      has2ndBit_eq, has3rdBit_eq, has4thBit_eq, UELinkSpecificIPAddress.mk.injEq, true_and]
    constructor
    · rintro ⟨⟨⟨h1, h2, h3, h4⟩, g1, g2, g3, g4⟩, e1, e2, e3, e4⟩
      exact ⟨⟨⟨g1, h1⟩, e1⟩, ⟨⟨g2, h2⟩, e2⟩, ⟨⟨g3, h3⟩, e3⟩, ⟨g4, h4⟩, e4⟩
    · rintro ⟨⟨⟨g1, h1⟩, e1⟩, ⟨⟨g2, h2⟩, e2⟩, ⟨⟨g3, h3⟩, e3⟩, ⟨g4, h4⟩, e4⟩
      exact ⟨⟨⟨h1, h2, h3, h4⟩, g1, g2, g3, g4⟩, e1, e2, e3, e4⟩
  · intro w hm hp
    obtain ⟨_, _, _, ⟨_, h1, h2⟩, hl⟩ := UELinkSpecificIPAddress.takes _ _ hp
    exact ⟨h1, h2⟩
  · rintro ⟨h1, h2⟩
    exact ⟨UELinkSpecificIPAddress.emits v h1 h2,
      fun sp => by have := UELinkSpecificIPAddress.reads v h1 h2 [] sp; rwa [List.append_nil] at this⟩

theorem C80_SourceIPAddress (v : SourceIPAddress) : SourceIPAddress.codec.Keeps v ↔
    (bit v.flags 0 = true ∨ bit v.flags 1 = true ∨ bit v.flags 2 = true) ∧
    Announced (bit v.flags 1) 4 v.v4 ∧ Announced (bit v.flags 0) 16 v.v6 ∧ (bit v.flags 2 = false → v.mpl = 0) := by
  rw [keeps_iff (R := (v.Valid ∧ v.Agree) ∧ 2 ≤ v.enc.length) (e := v.enc)
    (v' := ⟨v.flags, v.v4.as4, v.v6.as16, if SourceIPAddress.hasMPL v.flags then v.mpl else 0⟩)]
  · rw [← announced4, ← announced16]
    obtain ⟨f, a, b, m⟩ := v
    simp only [SourceIPAddress.Valid, SourceIPAddress.Agree, SourceIPAddress.hasIPv4, SourceIPAddress.hasIPv6,
      SourceIPAddress.hasMPL, SourceIPAddress.enc, has1stBit_eq, has2ndBit_eq, has3rdBit_eq, SourceIPAddress.mk.injEq,
      true_and, ite_self_iff]
    constructor
    · rintro ⟨⟨⟨⟨h1, h2⟩, h3, h4⟩, hl⟩, h5, h6, h7⟩
      refine ⟨?_, ⟨⟨h3, h1⟩, h5⟩, ⟨⟨h4, h2⟩, h6⟩, h7⟩
      rw [List.length_append, List.length_append, List.length_append, wire4_length h1, wire16_length h2, ← h3,
        ← h4] at hl
      revert hl
      cases bit f 0 <;> cases bit f 1 <;> cases bit f 2 <;> simp
    · rintro ⟨h, ⟨⟨h3, h1⟩, h5⟩, ⟨⟨h4, h2⟩, h6⟩, h7⟩
      refine ⟨⟨⟨⟨h1, h2⟩, h3, h4⟩, ?_⟩, h5, h6, h7⟩
      rw [List.length_append, List.length_append, List.length_append, wire4_length h1, wire16_length h2, ← h3, ← h4]
      revert h
      cases bit f 0 <;> cases bit f 1 <;> cases bit f 2 <;> simp
  · intro w hm hp
    obtain ⟨_, _, _, ⟨_, h1, h2⟩, hl⟩ := SourceIPAddress.takes _ _ hp
    refine ⟨⟨h1, h2⟩, ?_⟩
    rw [SourceIPAddress.emits v h1 h2] at hm
    cases hm
    exact hl
  · rintro ⟨⟨h1, h2⟩, hl⟩
    exact ⟨SourceIPAddress.emits v h1 h2,
      fun sp => by have := SourceIPAddress.reads v h1 h2 hl [] sp; rwa [List.append_nil] at this⟩

theorem announced_when4 {c : Bool} {ip : IP} : ip.Ready4 c ∧ (ip.when c).as4 = ip ↔ Announced c 4 ip := by
  rw [← announced4]
  cases c
  · cases ip <;> simp [IP.Ready4, IP.when, IP.as4, IP.none_is4]
  · cases ip <;> simp [IP.Ready4, IP.when]

theorem announced_when16 {c : Bool} {ip : IP} : ip.Ready16 c ∧ (ip.when c).as16 = ip ↔ Announced c 16 ip := by
  rw [← announced16]
  cases c
  · cases ip <;> simp [IP.Ready16, IP.when, IP.as16, IP.none_is16]
  · cases ip <;> simp [IP.Ready16, IP.when]

/-- C80. With the CHOOSE bit, only the choose identifier is carried. -/
theorem C80_FTEID (v : FTEID) : FTEID.codec.Keeps v ↔
    if bit v.flags 2 then v.teid = 0 ∧ v.v4 = none ∧ v.v6 = none ∧ (bit v.flags 3 = false → v.chid = 0)
    else Announced (bit v.flags 0) 4 v.v4 ∧ Announced (bit v.flags 1) 16 v.v6 ∧ v.chid = 0 := by
  rw [keeps_iff (R := v.Ready) (e := v.enc) (v' := v.norm)]
  · rw [← announced_when4, ← announced_when16]
    obtain ⟨f, t, a, b, c⟩ := v
    simp only [FTEID.Ready, FTEID.norm, FTEID.hasCh, FTEID.hasChID, FTEID.hasIPv4, FTEID.hasIPv6, has1stBit_eq,
      has2ndBit_eq, has3rdBit_eq, has4thBit_eq]
    cases bit f 2
    · simp only [Bool.false_eq_true, if_false, FTEID.mk.injEq, true_and, forall_const]
      constructor
      · rintro ⟨⟨h1, h2⟩, h3, h4, h5⟩
        exact ⟨⟨h1, h3⟩, ⟨h2, h4⟩, h5.symm⟩
      · rintro ⟨⟨h1, h3⟩, ⟨h2, h4⟩, h5⟩
        exact ⟨⟨h1, h2⟩, h3, h4, h5.symm⟩
    · simp only [if_true, FTEID.mk.injEq, true_and, Bool.true_eq_false, false_implies, ite_self_iff]
      simp only [eq_comm]
  · intro w hm hp
    obtain ⟨_, _, _, ⟨_, h1⟩, hl⟩ := FTEID.takes _ _ hp
    exact h1
  · intro h
    exact ⟨FTEID.emits v h, fun sp => by have := FTEID.reads v h [] sp; rwa [List.append_nil] at this⟩

example : FTEID.codec.Keeps ⟨1, 7, some [1, 2, 3, 4], none, 0⟩ :=
  (C80_FTEID _).2 ⟨⟨_, rfl, rfl⟩, rfl, rfl⟩
/-- An address in the form net.ParseIP returns comes back shorter. -/
example : ¬ IP46.codec.Keeps ⟨2, some (v4Prefix ++ [1, 2, 3, 4]), none⟩ := by
  rintro h
  obtain ⟨_, ⟨x, hx, h⟩, _⟩ := (C80_IP46 _).1 h
  cases hx
  cases h

end Fields
end Pfcp
