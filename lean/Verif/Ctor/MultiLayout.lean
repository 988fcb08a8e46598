/-
The octets of the elements with several values, C52. `beBytes n v` are the `n` big-endian octets of the number `v`; fields
inside an octet are written as sums of multiples of powers of two.
-/
import Verif.Ctor.MultiProps2

namespace Pfcp
open Fields

theorem octet_two (a b : UInt8) (ha : a < 4) (hb : b < 4) : (a <<< 2) ||| b = UInt8.ofNat (4 * a.toNat + b.toNat) := by
  have h1 : a = 0 ∨ a = 1 ∨ a = 2 ∨ a = 3 := by
    revert ha
    revert a
    exact forall_byte (by decide +kernel)
  have h2 : b = 0 ∨ b = 1 ∨ b = 2 ∨ b = 3 := by
    revert hb
    revert b
    exact forall_byte (by decide +kernel)
  rcases h1 with rfl | rfl | rfl | rfl <;> rcases h2 with rfl | rfl | rfl | rfl <;> decide

theorem and_three_mod (a : UInt8) : a &&& 0x03 = UInt8.ofNat (a.toNat % 4) ∧ a &&& 0x03 < 4 := by
  revert a
  exact forall_byte (by decide +kernel)

/-- Access Availability Information: availability status in bits 3 and 4, access type in bits 1 and 2. -/
theorem C52_access_availability (status atype : UInt8) :
    (newAccessAvailabilityInformation status atype).payload = [UInt8.ofNat (4 * (status.toNat % 4) + atype.toNat % 4)] := by
  have h1 := and_three_mod status
  have h2 := and_three_mod atype
  show [((status &&& 0x03) <<< 2) ||| (atype &&& 0x03)] = _
  rw [octet_two _ _ h1.2 h2.2, h1.1, h2.1, UInt8.toNat_ofNat', UInt8.toNat_ofNat',
    Nat.mod_eq_of_lt (show status.toNat % 4 < 2 ^ 8 by omega), Nat.mod_eq_of_lt (show atype.toNat % 4 < 2 ^ 8 by omega)]

/-- Gate Status: the uplink gate in bits 3 and 4, the downlink gate in bits 1 and 2. -/
theorem C52_gate_status (ul dl : UInt8) (hul : ul < 4) (hdl : dl < 4) :
    (newGateStatus ul dl).payload = [UInt8.ofNat (4 * ul.toNat + dl.toNat)] := by
  show [(ul <<< 2) ||| dl] = _
  rw [octet_two ul dl hul hdl]

example : (newGateStatus 1 0).payload = [4] := rfl

/-- Additional Usage Reports Information: bit 8 of the first octet with a number, and the number. -/
theorem C52_usage_reports (num : UInt16) (h : num.toNat < 32768) :
    (newAdditionalUsageReportsInformation num).payload = beBytes 2 (if num = 0 then 0 else 32768 + num.toNat) := by
  unfold newAdditionalUsageReportsInformation
  split
  · rename_i h0
    rw [h0]
    rfl
  · show beBytes 2 (num ||| 0x8000).toNat = _
    rw [UInt16.toNat_or, show (0x8000 : UInt16).toNat = 2 ^ 15 * 1 from rfl, Nat.or_comm,
      ← Nat.two_pow_add_eq_or_of_lt (i := 15) (by simpa using h)]

example : (newAdditionalUsageReportsInformation 5).payload = [0x80, 5] := by decide

/-- DL Buffering Suggested Packet Count: one octet if the count fits. -/
theorem C52_packet_count (count : UInt16) :
    (newDLBufferingSuggestedPacketCount count).payload =
      if count.toNat < 256 then beBytes 1 count.toNat else beBytes 2 count.toNat := by
  unfold newDLBufferingSuggestedPacketCount
  by_cases h : count.toNat < 256
  · rw [if_pos h, if_pos (UInt16.le_iff_toNat_le.2 (by show count.toNat ≤ 255; omega))]
    show [count.toUInt8] = _
    simp [beBytes]
  · rw [if_neg h, if_neg (fun h' => h (by have := UInt16.le_iff_toNat_le.1 h'; change count.toNat ≤ 255 at this; omega))]
    rfl

/-- Failed Rule ID: the rule type; a PDR identifier in two octets, FAR, QER and URR identifiers in four, a BAR identifier
in one. -/
theorem C52_failed_rule (typ : UInt8) (id : UInt32) :
    (typ = 0 → (newFailedRuleID typ id).payload = typ :: beBytes 2 id.toNat) ∧
    (typ = 1 ∨ typ = 2 ∨ typ = 3 → (newFailedRuleID typ id).payload = typ :: beBytes 4 id.toNat) ∧
    (typ = 4 → (newFailedRuleID typ id).payload = typ :: beBytes 1 id.toNat) := by
  refine ⟨?_, ?_, ?_⟩
  · rintro rfl
    show 0 :: beBytes 2 id.toUInt16.toNat = _
    rw [UInt32.toNat_toUInt16]
    simp only [beBytes]
    congr 1
    congr 1
    · apply UInt8.toNat.inj
      simp only [UInt8.toNat_ofNat']
      omega
    congr 1
    apply UInt8.toNat.inj
    simp only [UInt8.toNat_ofNat']
    omega
  · rintro (rfl | rfl | rfl) <;> rfl
  · rintro rfl
    show [4, id.toUInt8] = _
    simp [beBytes]

/-- Flow Information: direction, length in two octets, description. -/
theorem C52_flow_information (dir : UInt8) (desc : Bytes) (h : desc.length < 65536) :
    (newFlowInformation dir desc).payload = dir :: (beBytes 2 desc.length ++ desc) := by
  show dir :: (beBytes 2 (UInt16.ofNat desc.length).toNat ++ desc) = _
  rw [UInt16.toNat_ofNat', Nat.mod_eq_of_lt h]

/-- Forwarding Policy: length in one octet, identifier. -/
theorem C52_forwarding_policy (id : Bytes) : (newForwardingPolicy id).payload = beBytes 1 id.length ++ id := by
  show UInt8.ofNat id.length :: id = _
  simp [beBytes]

/-- UE IP address Pool Identity: length in two octets, identity. -/
theorem C52_pool_identity (id : Bytes) (h : id.length < 65536) :
    (newUEIPAddressPoolIdentity id).payload = beBytes 2 id.length ++ id := by
  show beBytes 2 (UInt16.ofNat id.length).toNat ++ id = _
  rw [UInt16.toNat_ofNat', Nat.mod_eq_of_lt h]

/-- MBR and GBR: the uplink rate, then the downlink rate, in five octets each. -/
theorem C52_rates (ul dl : UInt64) :
    (newMBR ul dl).payload = beBytes 5 ul.toNat ++ beBytes 5 dl.toNat ∧
    (newGBR ul dl).payload = beBytes 5 ul.toNat ++ beBytes 5 dl.toNat := by
  rw [← uint64To40_eq, ← uint64To40_eq]
  exact ⟨rfl, rfl⟩

/-- Multiplier: value digits in eight octets, exponent in four. -/
theorem C52_multiplier (val : UInt64) (exp : UInt32) :
    (newMultiplier val exp).payload = beBytes 8 val.toNat ++ beBytes 4 exp.toNat := rfl

/-- Outer Header Removal: description, extension header deletion. -/
theorem C52_outer_header_removal (desc ext : UInt8) : (newOuterHeaderRemoval desc ext).payload = [desc, ext] :=
  be16_pair desc ext

/-- S-NSSAI: slice type, differentiator in three octets. -/
theorem C52_snssai (sst : UInt8) (sd : UInt32) : (newSNSSAI sst sd).payload = sst :: beBytes 3 sd.toNat := by
  rw [← uint32To24_eq]
  rfl

/-- FQ-CSID: node type in the upper half of the first octet, number of identifiers in the lower; node; identifiers. -/
theorem C52_fqcsid (text : Bytes) (ip : Option Bytes) (csids : List UInt16) (i : IE) (hn : csids.length < 16)
    (h : newFQCSID text ip csids = .ok (some i)) :
    ∃ kind nid, i.payload = UInt8.ofNat (16 * kind + csids.length) :: (nid ++ csids.flatMap fun c => beBytes 2 c.toNat) ∧
      ((kind = 0 ∧ ∃ a, ip = some a ∧ to4 a ≠ [] ∧ nid = to4 a) ∨ (kind = 1 ∧ ∃ a, ip = some a ∧ to4 a = [] ∧ nid = a) ∨
        (kind = 2 ∧ ip = none ∧ Text.hexDecode text = .ok nid)) := by
  have key : ∀ k : Nat, k < 3 → ∀ n : Nat, n < 16 →
      (((UInt8.ofNat k <<< 4) &&& 0xf0) ||| (UInt8.ofNat n &&& 0x0f)) = UInt8.ofNat (16 * k + n) := by
    decide +kernel
  unfold newFQCSID at h
  dsimp only at h
  split at h
  · split at h
    · rename_i nid hd
      cases h
      refine ⟨2, nid, ?_, .inr (.inr ⟨rfl, rfl, hd⟩)⟩
      rw [← key 2 (by decide) _ hn]
      rfl
    · cases h
    · cases h
  · rename_i a
    split at h
    · rename_i h4
      cases h
      refine ⟨0, to4 a, ?_, .inl ⟨rfl, a, rfl, h4, rfl⟩⟩
      rw [← key 0 (by decide) _ hn]
      rfl
    · rename_i h4
      cases h
      refine ⟨1, a, ?_, .inr (.inl ⟨rfl, a, rfl, Decidable.of_not_not h4, rfl⟩)⟩
      rw [← key 1 (by decide) _ hn]
      rfl

example : newFQCSID [] (some (v4Prefix ++ [127, 0, 0, 1])) [7] = .ok (some (IE.new T.FQCSID [1, 127, 0, 0, 1, 0, 7])) := by decide

/-- Time Quota Mechanism: interval type, seconds in four octets. -/
theorem C52_time_quota (f : SecondsConv) (hf : SecondsOK f) (btit : UInt8) (n : UInt32) :
    (newTimeQuotaMechanism f btit (n.toNat * second)).payload = UInt8.ofNat (btit.toNat % 4) :: beBytes 4 n.toNat := by
  show (btit &&& 0x03) :: beBytes 4 (f.u32 (n.toNat * second)).toNat = _
  rw [(and_three_mod btit).1, hf.u32 _ n.toNat_lt, UInt32.ofNat_toNat]

/-- TSN Bridge ID: bit 1 says whether an address follows. -/
theorem C52_tsn_bridge (m : Bytes) : (newTSNBridgeID none).payload = [0] ∧ (newTSNBridgeID (some m)).payload = 1 :: m := ⟨rfl, rfl⟩

end Pfcp
