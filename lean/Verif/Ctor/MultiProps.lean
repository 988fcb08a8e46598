/-
Property theorems about elements of several values (C55) and the scalar constructors with a coding of their own (C29).
`g` is the set of grouped types in force (it must not contain the type of the element, and the default set does not,
`C55_default`), `mem` and `sp` are the bytes that follow a payload in memory, `rest` whatever follows the element on
the wire; all arbitrary.
-/
import Verif.Ctor.MultiLemmas
import Verif.Flag.Props

namespace Pfcp
open Fields
open Text (dotted wireName)

/-- The element types made by the constructors of this file. -/
def multiTypes : List IEType :=
  [T.AccessAvailabilityInformation, T.AdditionalUsageReportsInformation, T.DLBufferingSuggestedPacketCount,
   T.FailedRuleID, T.FlowInformation, T.ForwardingPolicy, T.GateStatus, T.GBR, T.MBR, T.Multiplier, T.NFInstanceID,
   T.OuterHeaderRemoval, T.SNSSAI, T.TimeQuotaMechanism, T.TSNBridgeID, T.UEIPAddressPoolIdentity,
   T.UPFunctionFeatures, T.FQCSID, T.NodeID]

/-- With the default set of grouped types, all of the theorems apply. -/
theorem C55_default : ∀ t ∈ multiTypes, defaultGroupedTypes.contains t = false ∧ isVendor t = false := by
  decide +kernel

/-! ## Fields of a few bits -/

/-- Access availability information: the two values, of which two bits each are sent. -/
theorem C55_access_availability (g : IEType → Bool) (mem : IE → Bytes) (status atype : UInt8) (rest : Bytes)
    (hg : g T.AccessAvailabilityInformation = false) :
    ∃ b, (newAccessAvailabilityInformation status atype).marshal g = .ok b ∧
      parse g (b ++ rest) = .ok (newAccessAvailabilityInformation status atype) ∧
      availabilityStatus g mem (newAccessAvailabilityInformation status atype) = .ok (status % 4) ∧
      accessType g mem (newAccessAvailabilityInformation status atype) = .ok (atype % 4) := by
  unfold newAccessAvailabilityInformation
  refine made g _ _ rest hg (by decide) (by simp) ?_
  unfold availabilityStatus accessType
  rw [call_new g mem .AccessAvailabilityInformation _ _ .u8 1 rfl (by decide) (by simp)]
  simp only [Leaf.run]
  rw [valueAsUint8_new g _ _ hg, (and_three status).1, (and_three atype).1]
  obtain ⟨h1, h2⟩ := two_fields (status % 4) (atype % 4) (and_three status).2 (and_three atype).2
  constructor
  · exact congrArg Res.ok h1
  · exact congrArg Res.ok h2

example : (1 : UInt8) % 4 = 1 ∧ (2 : UInt8) % 4 = 2 := by decide

/-- Gate status: values below 4, as there are, are both read back. -/
theorem C55_gate_status_partial (g : IEType → Bool) (mem : IE → Bytes) (ul dl : UInt8) (rest : Bytes) (hul : ul < 4) (hdl : dl < 4)
    (hg : g T.GateStatus = false) :
    ∃ b, (newGateStatus ul dl).marshal g = .ok b ∧ parse g (b ++ rest) = .ok (newGateStatus ul dl) ∧
      gateStatusUL g mem (newGateStatus ul dl) = .ok ul ∧ gateStatusDL g mem (newGateStatus ul dl) = .ok dl ∧
      gateStatusULDL g mem (newGateStatus ul dl) = .ok (ul, dl) := by
  unfold newGateStatus
  refine made g _ _ rest hg (by decide) (by simp) ?_
  unfold gateStatusUL gateStatusDL gateStatusULDL
  rw [call_new g mem .GateStatus _ _ .u8 1 rfl (by decide) (by simp)]
  simp only [Leaf.run]
  rw [valueAsUint8_new g _ _ hg]
  obtain ⟨h1, h2⟩ := two_fields ul dl hul hdl
  refine ⟨congrArg Res.ok h1, congrArg Res.ok h2, ?_⟩
  show Res.ok (_, _) = _
  rw [h1, h2]

example : (1 : UInt8) < 4 ∧ (0 : UInt8) < 4 := by decide

/-- Larger values are not cut off but spill: a downlink value 4 closes the uplink gate. -/
theorem C55_gate_status_violated (g : IEType → Bool) (mem : IE → Bytes) (hg : g T.GateStatus = false) :
    gateStatusUL g mem (newGateStatus 0 4) = .ok 1 ∧ gateStatusDL g mem (newGateStatus 0 4) = .ok 0 := by
  unfold newGateStatus gateStatusUL gateStatusDL
  rw [call_new g mem .GateStatus _ _ .u8 1 rfl (by decide) (by simp)]
  simp only [Leaf.run]
  rw [valueAsUint8_new g _ _ hg]
  exact ⟨rfl, rfl⟩

/-- Outer header removal: both octets. -/
theorem C55_outer_header_removal (g : IEType → Bool) (mem : IE → Bytes) (desc ext : UInt8) (rest : Bytes)
    (hg : g T.OuterHeaderRemoval = false) :
    ∃ b, (newOuterHeaderRemoval desc ext).marshal g = .ok b ∧
      parse g (b ++ rest) = .ok (newOuterHeaderRemoval desc ext) ∧
      (newOuterHeaderRemoval desc ext).payload = [desc, ext] ∧
      outerHeaderRemovalDescription g mem (newOuterHeaderRemoval desc ext) = .ok desc ∧
      gtpuExtensionHeaderDeletion g mem (newOuterHeaderRemoval desc ext) = .ok ext := by
  unfold newOuterHeaderRemoval
  rw [be16_pair]
  refine made g _ _ rest hg (by decide) (by simp) ⟨rfl, ?_⟩
  unfold outerHeaderRemovalDescription gtpuExtensionHeaderDeletion
  rw [call_new g mem .OuterHeaderRemoval _ _ .payload 2 rfl (by decide) (by simp)]
  exact ⟨rfl, rfl⟩

/-- S-NSSAI: the slice type, and the differentiator if it has 24 bits. -/
theorem C55_snssai (g : IEType → Bool) (mem : IE → Bytes) (v : UInt8) (d : UInt32) (rest sp : Bytes)
    (hg : g T.SNSSAI = false) :
    ∃ b, (newSNSSAI v d).marshal g = .ok b ∧ parse g (b ++ rest) = .ok (newSNSSAI v d) ∧
      sst g mem (newSNSSAI v d) = .ok v ∧ (∃ x, sd g mem sp (newSNSSAI v d) = .ok x ∧ x.toNat = d.toNat % 2 ^ 24) ∧
      (d.toNat < 2 ^ 24 → sd g mem sp (newSNSSAI v d) = .ok d) := by
  unfold newSNSSAI
  refine made g _ _ rest hg (by decide) (by simp) ?_
  unfold sst sd
  rw [call_new g mem .SNSSAI _ _ (.prefix 4) 4 rfl (by decide) (by simp)]
  simp only [Leaf.run]
  rw [show (IE.new T.SNSSAI (v :: uint32To24 d)).payload = v :: uint32To24 d from rfl, sub_prefix _ _ 4 rfl]
  simp only [Res.ok_bind, asBytes]
  rw [show Slice.sub ⟨v :: uint32To24 d, sp⟩ 1 4 = _ from sub_last [v] (uint32To24 d) sp 1 4 rfl rfl]
  exact ⟨rfl, ⟨_, rfl, C34_uint24 d⟩, fun h => congrArg Res.ok (C34_uint24_id d h)⟩

example : (0x010203 : UInt32).toNat < 2 ^ 24 := by decide

/-! ## Numbers -/

theorem rate_read (ul dl : UInt64) (sp : Bytes) :
    rate40 (uint64To40 ul ++ uint64To40 dl) sp 0 = .ok (uint40To64 (uint64To40 ul)) ∧
    rate40 (uint64To40 ul ++ uint64To40 dl) sp 5 = .ok (uint40To64 (uint64To40 dl)) := by
  unfold rate40
  rw [sub_first (uint64To40 ul) _ sp (0 + 5) rfl, sub_last (uint64To40 ul) (uint64To40 dl) sp 5 (5 + 5) rfl rfl]
  exact ⟨rfl, rfl⟩

/-- Maximum bit rates: both, if they have 40 bits. -/
theorem C55_mbr (g : IEType → Bool) (mem : IE → Bytes) (ul dl : UInt64) (rest sp : Bytes) (hg : g T.MBR = false) :
    ∃ b, (newMBR ul dl).marshal g = .ok b ∧ parse g (b ++ rest) = .ok (newMBR ul dl) ∧
      (∃ x, mbrUL g mem sp (newMBR ul dl) = .ok x ∧ x.toNat = ul.toNat % 2 ^ 40) ∧
      (∃ x, mbrDL g mem sp (newMBR ul dl) = .ok x ∧ x.toNat = dl.toNat % 2 ^ 40) ∧
      (ul.toNat < 2 ^ 40 → mbrUL g mem sp (newMBR ul dl) = .ok ul) ∧
      (dl.toNat < 2 ^ 40 → mbrDL g mem sp (newMBR ul dl) = .ok dl) := by
  unfold newMBR
  refine made g _ _ rest hg (by decide) (by simp) ?_
  unfold mbrUL mbrDL
  rw [call_new g mem .MBR _ _ .payload 10 rfl (by decide) (by simp)]
  simp only [Leaf.run, asBytes, Res.ok_bind]
  rw [show (IE.new T.MBR (uint64To40 ul ++ uint64To40 dl)).payload = uint64To40 ul ++ uint64To40 dl from rfl,
    (rate_read ul dl sp).1, (rate_read ul dl sp).2]
  exact ⟨⟨_, rfl, C34_uint40 ul⟩, ⟨_, rfl, C34_uint40 dl⟩, fun h => congrArg Res.ok (C34_uint40_id ul h),
    fun h => congrArg Res.ok (C34_uint40_id dl h)⟩

/-- Guaranteed bit rates: both, if they have 40 bits. -/
theorem C55_gbr (g : IEType → Bool) (mem : IE → Bytes) (ul dl : UInt64) (rest sp : Bytes) (hg : g T.GBR = false) :
    ∃ b, (newGBR ul dl).marshal g = .ok b ∧ parse g (b ++ rest) = .ok (newGBR ul dl) ∧
      (∃ x, gbrUL g mem sp (newGBR ul dl) = .ok x ∧ x.toNat = ul.toNat % 2 ^ 40) ∧
      (∃ x, gbrDL g mem sp (newGBR ul dl) = .ok x ∧ x.toNat = dl.toNat % 2 ^ 40) ∧
      (ul.toNat < 2 ^ 40 → gbrUL g mem sp (newGBR ul dl) = .ok ul) ∧
      (dl.toNat < 2 ^ 40 → gbrDL g mem sp (newGBR ul dl) = .ok dl) := by
  unfold newGBR
  refine made g _ _ rest hg (by decide) (by simp) ?_
  unfold gbrUL gbrDL
  rw [call_new g mem .GBR _ _ .payload 10 rfl (by decide) (by simp)]
  simp only [Leaf.run, asBytes, Res.ok_bind]
  rw [show (IE.new T.GBR (uint64To40 ul ++ uint64To40 dl)).payload = uint64To40 ul ++ uint64To40 dl from rfl,
    (rate_read ul dl sp).1, (rate_read ul dl sp).2]
  exact ⟨⟨_, rfl, C34_uint40 ul⟩, ⟨_, rfl, C34_uint40 dl⟩, fun h => congrArg Res.ok (C34_uint40_id ul h),
    fun h => congrArg Res.ok (C34_uint40_id dl h)⟩

example : (1000000 : UInt64).toNat < 2 ^ 40 := by decide

/-- Multiplier: digits and exponent. -/
theorem C55_multiplier (g : IEType → Bool) (mem : IE → Bytes) (val : UInt64) (exp : UInt32) (rest : Bytes)
    (hg : g T.Multiplier = false) :
    ∃ b, (newMultiplier val exp).marshal g = .ok b ∧ parse g (b ++ rest) = .ok (newMultiplier val exp) ∧
      Acc.ValueDigits.call g mem (newMultiplier val exp) = .ok (.u64 val) ∧
      Acc.Exponent.call g mem (newMultiplier val exp) = .ok (.u32 exp) := by
  unfold newMultiplier
  refine made g _ _ rest hg (by decide) (by simp) ⟨?_, ?_⟩
  · rw [call_new g mem .ValueDigits _ _ .u64 12 rfl (by decide) (by simp)]
    simp only [Leaf.run]
    unfold IE.valueAsUint64
    rw [show g (IE.new T.Multiplier (be64 val ++ be32 exp)).typ = false from hg]
    show Res.ok (Val.u64 (dec64 ((be64 val ++ be32 exp).take 8))) = _
    rw [List.take_left' (by simp), dec64_be64]
  · rw [call_new g mem .Exponent _ _ .exponent 12 rfl (by decide) (by simp)]
    simp only [Leaf.run]
    unfold Slice.u32At
    rw [show (IE.new T.Multiplier (be64 val ++ be32 exp)).payload = be64 val ++ be32 exp from rfl,
      sub_last _ _ _ 8 _ (by simp) (by simp)]
    show Res.ok (Val.u32 (dec32 (be32 exp))) = _
    rw [dec32_be32]

/-- The suggested number of packets, in one octet or two. -/
theorem C29_packet_count (g : IEType → Bool) (mem : IE → Bytes) (count : UInt16) (rest : Bytes)
    (hg : g T.DLBufferingSuggestedPacketCount = false) :
    ∃ b, (newDLBufferingSuggestedPacketCount count).marshal g = .ok b ∧
      parse g (b ++ rest) = .ok (newDLBufferingSuggestedPacketCount count) ∧
      Acc.DLBufferingSuggestedPacketCount.call g mem (newDLBufferingSuggestedPacketCount count) = .ok (.u16 count) ∧
      (newDLBufferingSuggestedPacketCount count).payload.length = if count.toNat < 256 then 1 else 2 := by
  unfold newDLBufferingSuggestedPacketCount
  split
  · rename_i h
    have h' : count.toNat ≤ 255 := h
    refine made g _ _ rest hg (by decide) (by simp) ⟨?_, ?_⟩
    · rw [call_new g mem _ _ _ .packetCount 0 rfl (by decide) (by simp)]
      simp only [Leaf.run]
      rw [new_length _ _ (by decide), show [count.toUInt8].length = 1 from rfl,
        if_pos (show UInt16.ofNat 1 = 1 from rfl)]
      show Res.ok (Val.u16 count.toUInt8.toUInt16) = _
      have e : count.toUInt8.toUInt16 = count := by
        apply UInt16.toNat.inj
        simp only [UInt8.toNat_toUInt16, UInt16.toNat_toUInt8]
        omega
      rw [e]
    · rw [if_pos (by omega)]
      rfl
  · rename_i h
    have h' : ¬ count.toNat ≤ 255 := h
    refine made g _ _ rest hg (by decide) (by simp) ⟨?_, ?_⟩
    · rw [call_new g mem _ _ _ .packetCount 0 rfl (by decide) (by simp)]
      have hl : (IE.new T.DLBufferingSuggestedPacketCount (be16 count)).length = 2 := by
        rw [new_length _ _ (by decide), be16_len]
        rfl
      simp only [Leaf.run]
      rw [hl, if_neg (by decide), if_pos (by decide)]
      rw [valueAsUint16_new g _ _ hg]
      rfl
    · rw [if_neg (by omega)]
      exact be16_len count

theorem or_8000 (num : UInt16) (hn : num.toNat < 2 ^ 15) :
    (num ||| 0x8000).toNat = 32768 + num.toNat ∧ (num ||| 0x8000) &&& 0x7fff = num := by
  have h1 : (num ||| 0x8000).toNat = 32768 + num.toNat := by
    rw [UInt16.toNat_or, Nat.or_comm]
    exact or_shift 1 num.toNat 15 hn
  refine ⟨h1, ?_⟩
  apply UInt16.toNat.inj
  rw [UInt16.toNat_and, h1]
  show (32768 + num.toNat) &&& (2 ^ 15 - 1) = _
  rw [Nat.and_two_pow_sub_one_eq_mod]
  omega

/-- The number of additional usage reports, if it has 15 bits, together with the flag that says whether there are any. -/
theorem C29_usage_reports_partial (g : IEType → Bool) (mem : IE → Bytes) (num : UInt16) (rest : Bytes) (hn : num.toNat < 2 ^ 15)
    (hg : g T.AdditionalUsageReportsInformation = false) :
    ∃ b, (newAdditionalUsageReportsInformation num).marshal g = .ok b ∧
      parse g (b ++ rest) = .ok (newAdditionalUsageReportsInformation num) ∧
      Acc.AdditionalUsageReportsInformation.call g mem (newAdditionalUsageReportsInformation num) = .ok (.u16 num) ∧
      Flag.HasAURI.call g mem (newAdditionalUsageReportsInformation num) = .ok (decide (num ≠ 0)) := by
  have key : ∀ v : UInt16, v &&& 0x7fff = num → (v.toNat.testBit 15 = decide (num ≠ 0)) →
      ∃ b, (IE.new T.AdditionalUsageReportsInformation (be16 v)).marshal g = .ok b ∧
        parse g (b ++ rest) = .ok (IE.new T.AdditionalUsageReportsInformation (be16 v)) ∧
        Acc.AdditionalUsageReportsInformation.call g mem (IE.new T.AdditionalUsageReportsInformation (be16 v)) = .ok (.u16 num) ∧
        Flag.HasAURI.call g mem (IE.new T.AdditionalUsageReportsInformation (be16 v)) = .ok (decide (num ≠ 0)) := by
    intro v h1 h2
    refine made g _ _ rest hg (by decide) (by simp) ⟨?_, ?_⟩
    · rw [call_new g mem _ _ _ .usageReports 0 rfl (by decide) (by simp)]
      simp only [Leaf.run]
      rw [if_neg (by show ¬ (be16 v).length < 2; simp)]
      show (Slice.u16At ⟨be16 v, _⟩ 0 >>= fun v => Res.ok (Val.u16 (v &&& 0x7fff))) = _
      rw [u16At_be16]
      show Res.ok (Val.u16 (v &&& 0x7fff)) = _
      rw [h1]
    · rw [C30_layout_partial g mem T.AdditionalUsageReportsInformation 0 7 .HasAURI (by omega) (by decide +kernel)
        (by decide +kernel) _ rfl hg (by show 0 < (be16 v).length; simp) (by show minOctets _ ≤ (be16 v).length; simp; decide +kernel)]
      rw [← h2]
      show Res.ok ((UInt8.ofNat (v.toNat / 256 ^ 1)).toNat.testBit 7) = _
      have hv := v.toNat_lt
      rw [UInt8.toNat_ofNat', Nat.mod_eq_of_lt (by omega)]
      rw [show (256 ^ 1 : Nat) = 2 ^ 8 by decide, Nat.testBit_div_two_pow]
  unfold newAdditionalUsageReportsInformation
  split
  · rename_i h
    subst h
    exact key 0 (by decide) (by decide)
  · rename_i h
    obtain ⟨h1, h2⟩ := or_8000 num hn
    refine key _ h2 ?_
    rw [h1, Nat.testBit_eq_decide_div_mod_eq]
    have : (32768 + num.toNat) / 2 ^ 15 % 2 = 1 := by omega
    rw [this]
    simp [h]

example : (20 : UInt16).toNat < 2 ^ 15 := by decide

/-- A larger number loses its top bit. -/
theorem C29_usage_reports_violated (g : IEType → Bool) (mem : IE → Bytes) :
    Acc.AdditionalUsageReportsInformation.call g mem (newAdditionalUsageReportsInformation 0x8001) = .ok (.u16 1) := by
  show Acc.AdditionalUsageReportsInformation.call g mem (IE.new T.AdditionalUsageReportsInformation (be16 0x8001)) = _
  rw [call_new g mem _ _ _ .usageReports 0 rfl (by decide) (by simp)]
  simp only [Leaf.run]
  rw [if_neg (by show ¬ (be16 0x8001).length < 2; decide)]
  show (Slice.u16At ⟨be16 0x8001, _⟩ 0 >>= fun v => Res.ok (Val.u16 (v &&& 0x7fff))) = _
  rw [u16At_be16]
  rfl

/-- Failed rule identifiers: the type of rule always, and of the identifier as many bits as identifiers of such rules
have (two octets for packet detection rules, four for forwarding, QoS and usage rules, one for buffering rules). -/
theorem C55_failed_rule (g : IEType → Bool) (mem : IE → Bytes) (typ : UInt8) (id : UInt32) (rest : Bytes)
    (hg : g T.FailedRuleID = false) :
    ∃ b, (newFailedRuleID typ id).marshal g = .ok b ∧ parse g (b ++ rest) = .ok (newFailedRuleID typ id) ∧
      Acc.RuleIDType.call g mem (newFailedRuleID typ id) = .ok (.u8 typ) ∧
      (typ = 0 → id.toNat < 65536 → Acc.FailedRuleID.call g mem (newFailedRuleID typ id) = .ok (.u32 id)) ∧
      (typ = 1 ∨ typ = 2 ∨ typ = 3 → Acc.FailedRuleID.call g mem (newFailedRuleID typ id) = .ok (.u32 id)) ∧
      (typ = 4 → id.toNat < 256 → Acc.FailedRuleID.call g mem (newFailedRuleID typ id) = .ok (.u32 id)) := by
  have ty : ∀ p, p.head? = some typ → Acc.RuleIDType.call g mem (IE.new T.FailedRuleID p) = .ok (.u8 typ) := by
    intro p hp
    rw [call_new g mem _ _ _ .u8 0 rfl (by decide) (by simp)]
    simp only [Leaf.run]
    unfold IE.valueAsUint8
    rw [show g (IE.new T.FailedRuleID p).typ = false from hg]
    match p, hp with
    | x :: r, h =>
      simp only [List.head?_cons, Option.some.injEq] at h
      subst h
      rfl
  unfold newFailedRuleID
  split
  · rename_i h
    subst h
    refine made g _ _ rest hg (by decide) (by simp) ⟨ty _ rfl, ?_, fun h => absurd h (by decide), fun h => absurd h (by decide)⟩
    intro _ h
    rw [call_new g mem _ _ _ .failedRule 0 rfl (by decide) (by simp)]
    show (Slice.u16At ⟨[0] ++ be16 id.toUInt16, _⟩ 1 >>= fun v => Res.ok v.toUInt32) >>= (fun v => Res.ok (Val.u32 v)) = _
    unfold Slice.u16At
    rw [sub_last [0] (be16 id.toUInt16) _ 1 (1 + 2) rfl (by simp)]
    show Res.ok (Val.u32 (dec16 (be16 id.toUInt16)).toUInt32) = _
    rw [dec16_be16]
    have e : id.toUInt16.toUInt32 = id := by
      apply UInt32.toNat.inj
      simp only [UInt16.toNat_toUInt32, UInt32.toNat_toUInt16]
      omega
    rw [e]
  · rename_i h0
    split
    · rename_i h
      refine made g _ _ rest hg (by decide) (by simp) ⟨ty _ rfl, fun h => absurd h h0, ?_, ?_⟩
      · intro _
        rw [call_new g mem _ _ _ .failedRule 0 rfl (by decide) (by simp)]
        simp only [Leaf.run]
        unfold failedRuleOf
        show ((if typ = 0 then _ else if typ = 1 ∨ typ = 2 ∨ typ = 3 then
          (if (typ :: be32 id).length < 5 then (Res.err .unexpectedEOF : Res UInt32) else Slice.u32At ⟨[typ] ++ be32 id, _⟩ 1) else _) >>= fun v => Res.ok (Val.u32 v)) = _
        rw [if_neg h0, if_pos h, if_neg (by simp)]
        unfold Slice.u32At
        rw [sub_last [typ] (be32 id) _ 1 (1 + 4) rfl (by simp)]
        show Res.ok (Val.u32 (dec32 (be32 id))) = _
        rw [dec32_be32]
      · rintro rfl
        exact absurd h (by decide)
    · rename_i h1
      split
      · rename_i h
        subst h
        refine made g _ _ rest hg (by decide) (by simp) ⟨ty _ rfl, fun h => absurd h (by decide), fun h => absurd h (by decide), ?_⟩
        intro _ h
        rw [call_new g mem _ _ _ .failedRule 0 rfl (by decide) (by simp)]
        show Res.ok (Val.u32 id.toUInt8.toUInt32) = _
        have e : id.toUInt8.toUInt32 = id := by
          apply UInt32.toNat.inj
          simp only [UInt8.toNat_toUInt32, UInt32.toNat_toUInt8]
          omega
        rw [e]
      · rename_i h4
        exact made g _ _ rest hg (by decide) (by simp)
          ⟨ty _ rfl, fun h => absurd h h0, fun h => absurd h h1, fun h => absurd h h4⟩

example : (0 : UInt8) = 0 ∧ (1234 : UInt32).toNat < 65536 := by decide

/-- For a type of rule that does not exist, the identifier is dropped and read as 0. -/
theorem C55_failed_rule_violated (g : IEType → Bool) (mem : IE → Bytes) (id : UInt32) :
    Acc.FailedRuleID.call g mem (newFailedRuleID 5 id) = .ok (.u32 0) := by
  show Acc.FailedRuleID.call g mem (IE.new T.FailedRuleID [5]) = _
  rw [call_new g mem _ _ _ .failedRule 0 rfl (by decide) (by simp)]
  rfl

/-! ## Texts with a length -/

/-- Flow information: direction (three bits) and description, of any octets, as long as an element can be. -/
theorem C55_flow_information (g : IEType → Bool) (mem : IE → Bytes) (dir : UInt8) (desc rest : Bytes)
    (hl : desc.length ≤ 65532) (hg : g T.FlowInformation = false) :
    ∃ b, (newFlowInformation dir desc).marshal g = .ok b ∧ parse g (b ++ rest) = .ok (newFlowInformation dir desc) ∧
      Acc.FlowDirection.call g mem (newFlowInformation dir desc) = .ok (.u8 (dir &&& 7)) ∧
      Acc.FlowDescription.call g mem (newFlowInformation dir desc) = .ok (.bytes desc) := by
  unfold newFlowInformation
  refine made g _ _ rest hg (by decide) (by simp; omega) ⟨?_, ?_⟩
  · rw [call_new g mem _ _ _ (.maskMin 0x07) 0 rfl (by decide) (by simp)]
    simp only [Leaf.run]
    rw [if_neg (by show ¬ (List.length _ + 1 < 1); omega)]
    rfl
  · rw [call_new g mem _ _ _ .flowDescription 0 rfl (by decide) (by simp)]
    simp only [Leaf.run]
    unfold flowDescriptionOf Slice.u16At
    rw [show (IE.new T.FlowInformation (dir :: (be16 (UInt16.ofNat desc.length) ++ desc))).payload =
      [dir] ++ (be16 (UInt16.ofNat desc.length) ++ desc) from rfl]
    rw [sub_mid [dir] (be16 (UInt16.ofNat desc.length)) desc _ 1 (1 + 2) rfl (by simp)]
    simp only [Res.ok_bind]
    rw [dec16_be16]
    have hn : (UInt16.ofNat desc.length).toNat = desc.length := by
      rw [UInt16.toNat_ofNat']
      omega
    rw [if_neg (by rw [hn]; show ¬ (List.length ([dir] ++ (be16 _ ++ desc)) < _); simp; omega)]
    have h3 : (3 + UInt16.ofNat desc.length).toNat = 3 + desc.length := by
      rw [UInt16.toNat_add, hn]
      show (3 + desc.length) % 65536 = _
      omega
    rw [h3, ← List.append_assoc, sub_last ([dir] ++ be16 (UInt16.ofNat desc.length)) desc _ 3 _ (by simp) rfl]
    rfl

example : (1 : UInt8) &&& 7 = 1 ∧ ("permit out ip from any to any".toUTF8.toList).length ≤ 65532 := by decide +kernel

/-- Forwarding policy: the identifier modulo the length that fits its length octet. -/
theorem C55_forwarding_policy_exact (g : IEType → Bool) (mem : IE → Bytes) (id rest sp : Bytes) (hl : id.length ≤ 65534)
    (hg : g T.ForwardingPolicy = false) :
    ∃ b, (newForwardingPolicy id).marshal g = .ok b ∧ parse g (b ++ rest) = .ok (newForwardingPolicy id) ∧
      forwardingPolicyIdentifier g mem sp (newForwardingPolicy id) = .ok (id.take (id.length % 256)) := by
  unfold newForwardingPolicy
  refine made g _ _ rest hg (by decide) (by simp; omega) ?_
  unfold forwardingPolicyIdentifier
  rw [call_new g mem _ _ _ .payload 0 rfl (by decide) (by simp)]
  simp only [Leaf.run, asBytes, Res.ok_bind]
  rw [show (IE.new T.ForwardingPolicy (UInt8.ofNat id.length :: id)).payload = UInt8.ofNat id.length :: id from rfl]
  rw [if_neg (by simp)]
  have hn : (UInt8.ofNat id.length).toNat = id.length % 256 := UInt8.toNat_ofNat'
  show (if (UInt8.ofNat id.length :: id).length < (UInt8.ofNat id.length).toNat + 1 then (Res.err .unexpectedEOF : Res Bytes)
    else Slice.sub ⟨UInt8.ofNat id.length :: id, sp⟩ 1 ((UInt8.ofNat id.length).toNat + 1) >>= fun x => Res.ok x.data) = _
  rw [hn, if_neg (by simp only [List.length_cons]; have := Nat.mod_le id.length 256; omega)]
  have h := sub_mid [UInt8.ofNat id.length] (id.take (id.length % 256)) (id.drop (id.length % 256)) sp 1 (id.length % 256 + 1) rfl
    (by rw [List.length_take]; have := Nat.mod_le id.length 256; omega)
  rw [List.take_append_drop] at h
  rw [show Slice.sub ⟨UInt8.ofNat id.length :: id, sp⟩ 1 (id.length % 256 + 1) = _ from h]
  rfl

/-- Identifiers of up to 255 octets are read back. -/
theorem C55_forwarding_policy_partial (g : IEType → Bool) (mem : IE → Bytes) (id rest sp : Bytes) (hl : id.length ≤ 255)
    (hg : g T.ForwardingPolicy = false) :
    ∃ b, (newForwardingPolicy id).marshal g = .ok b ∧ parse g (b ++ rest) = .ok (newForwardingPolicy id) ∧
      forwardingPolicyIdentifier g mem sp (newForwardingPolicy id) = .ok id := by
  have h := C55_forwarding_policy_exact g mem id rest sp (by omega) hg
  rwa [Nat.mod_eq_of_lt (by omega), List.take_length] at h

example : ("policy-1".toUTF8.toList).length ≤ 255 := by decide +kernel

/-- Longer ones never are, and no error is reported. -/
theorem C55_forwarding_policy_violated (g : IEType → Bool) (mem : IE → Bytes) (id sp : Bytes) (h : 255 < id.length)
    (hl : id.length ≤ 65534) (hg : g T.ForwardingPolicy = false) :
    ∃ v, forwardingPolicyIdentifier g mem sp (newForwardingPolicy id) = .ok v ∧ v ≠ id := by
  obtain ⟨_, _, _, e⟩ := C55_forwarding_policy_exact g mem id [] sp hl hg
  refine ⟨_, e, ?_⟩
  intro he
  have := congrArg List.length he
  rw [List.length_take] at this
  omega

example : 255 < (List.replicate 256 (97 : UInt8)).length ∧ (List.replicate 256 (97 : UInt8)).length ≤ 65534 := by
  rw [List.length_replicate]; decide

/-- The identity of an address pool, as long as an element can be. -/
theorem C55_pool_identity (g : IEType → Bool) (mem : IE → Bytes) (id rest sp : Bytes) (hl : id.length ≤ 65533)
    (hg : g T.UEIPAddressPoolIdentity = false) :
    ∃ b, (newUEIPAddressPoolIdentity id).marshal g = .ok b ∧ parse g (b ++ rest) = .ok (newUEIPAddressPoolIdentity id) ∧
      ueIPAddressPoolIdentityString g mem sp (newUEIPAddressPoolIdentity id) = .ok id := by
  unfold newUEIPAddressPoolIdentity
  refine made g _ _ rest hg (by decide) (by simp; omega) ?_
  unfold ueIPAddressPoolIdentityString
  rw [call_new g mem _ _ _ .payload 1 rfl (by decide) (by simp; omega)]
  simp only [Leaf.run, asBytes, Res.ok_bind]
  rw [show (IE.new T.UEIPAddressPoolIdentity (be16 (UInt16.ofNat id.length) ++ id)).payload = be16 (UInt16.ofNat id.length) ++ id from rfl]
  rw [if_neg (by simp)]
  unfold Slice.u16At
  rw [sub_first _ _ _ (0 + 2) (by simp)]
  simp only [Res.ok_bind]
  have hn : (UInt16.ofNat id.length).toNat = id.length := by
    rw [UInt16.toNat_ofNat']
    omega
  rw [dec16_be16, hn, if_neg (by simp; omega), sub_last _ _ _ 2 _ (by simp) (by omega)]
  rfl

example : ("pool".toUTF8.toList).length ≤ 65533 := by decide +kernel

/-! ## Octet strings -/

/-- An instance identifier of 16 octets. -/
theorem C55_nf_instance_partial (g : IEType → Bool) (mem : IE → Bytes) (id sp rest : Bytes) (hl : id.length = 16)
    (hg : g T.NFInstanceID = false) :
    ∃ i b, newNFInstanceID ⟨id, sp⟩ = .ok i ∧ i.marshal g = .ok b ∧ parse g (b ++ rest) = .ok i ∧
      Acc.NFInstanceID.call g mem i = .ok (.bytes id) := by
  obtain ⟨b, h1, h2⟩ := new_wire g T.NFInstanceID id rest hg (by decide) (by omega)
  refine ⟨IE.new T.NFInstanceID id, b, ?_, h1, h2, ?_⟩
  · unfold newNFInstanceID
    rw [sub_prefix _ _ 16 hl]
    rfl
  · rw [call_new g mem _ _ _ (.prefix 16) 16 rfl (by decide) (by omega)]
    simp only [Leaf.run]
    rw [show (IE.new T.NFInstanceID id).payload = id from rfl, sub_prefix _ _ 16 hl]
    rfl

example : (List.replicate 16 (1 : UInt8)).length = 16 := by decide

/-- The constructor panics exactly if the slice it is given has no 16 octets of capacity. -/
theorem C55_nf_instance_panics (id sp : Bytes) : newNFInstanceID ⟨id, sp⟩ = .panic ↔ id.length + sp.length < 16 := by
  unfold newNFInstanceID Slice.sub Slice.cap
  dsimp only
  split
  · rename_i h
    constructor
    · intro h'
      cases h'
    · intro h'
      omega
  · rename_i h
    exact ⟨fun _ => by omega, fun _ => rfl⟩

/-- If it is shorter but has the capacity, what happens to be behind it in memory is sent. -/
theorem C55_nf_instance_violated (a b : Bytes) (ha : a.length = 15) (x : UInt8) :
    newNFInstanceID ⟨a, x :: b⟩ = .ok (IE.new T.NFInstanceID (a ++ [x])) := by
  unfold newNFInstanceID Slice.sub Slice.cap
  rw [if_pos ⟨by omega, by dsimp only; simp only [List.length_cons]; omega⟩]
  simp only [Res.ok_bind]
  rw [show a ++ x :: b = (a ++ [x]) ++ b by simp, List.take_left' (by simp [ha])]
  rfl

example : (List.replicate 15 (1 : UInt8)).length = 15 := by decide

theorem tsn_read (m sp : Bytes) : tsnBridgeIDOf ⟨1 :: m, sp⟩ =
    if m.length = 6 then .ok (some m) else if m.length < 8 then .err .unexpectedEOF else .ok (some (m.take 8)) := by
  unfold tsnBridgeIDOf
  have e : Slice.idx ⟨1 :: m, sp⟩ 0 = .ok 1 := rfl
  rw [e]
  simp only [Res.ok_bind]
  rw [if_neg (by decide)]
  have hl : Slice.len ⟨1 :: m, sp⟩ = m.length + 1 := rfl
  rw [hl]
  by_cases h6 : m.length = 6
  · rw [if_neg (by omega), if_pos (by omega), if_pos h6,
      show Slice.sub ⟨1 :: m, sp⟩ 1 7 = _ from sub_last [1] m sp 1 7 rfl (by omega)]
    rfl
  · by_cases h8 : m.length < 8
    · rw [if_pos (by omega), if_neg h6, if_pos h8]
    · have h := sub_mid [1] (m.take 8) (m.drop 8) sp 1 9 rfl (by rw [List.length_take]; omega)
      rw [List.take_append_drop] at h
      rw [if_neg (by omega), if_neg (by omega), if_neg h6, if_neg h8, show Slice.sub ⟨1 :: m, sp⟩ 1 9 = _ from h]
      rfl

/-- TSN bridge identifier: no address, or one of six octets, or of eight (EUI-64). -/
theorem C55_tsn_bridge_partial (g : IEType → Bool) (mem : IE → Bytes) (mac : Option Bytes) (rest : Bytes)
    (hm : ∀ m, mac = some m → m.length = 6 ∨ m.length = 8) (hg : g T.TSNBridgeID = false) :
    ∃ b, (newTSNBridgeID mac).marshal g = .ok b ∧ parse g (b ++ rest) = .ok (newTSNBridgeID mac) ∧
      Acc.TSNBridgeID.call g mem (newTSNBridgeID mac) = .ok (.mac mac) := by
  cases mac with
  | none =>
    unfold newTSNBridgeID
    refine made g _ _ rest hg (by decide) (by simp) ?_
    rw [call_new g mem _ _ _ .tsnBridgeID 1 rfl (by decide) (by simp)]
    rfl
  | some m =>
    have h6 := hm m rfl
    unfold newTSNBridgeID
    refine made g _ _ rest hg (by decide) (by simp; omega) ?_
    rw [call_new g mem _ _ _ .tsnBridgeID 1 rfl (by decide) (by simp)]
    show (tsnBridgeIDOf ⟨1 :: m, _⟩ >>= fun v => Res.ok (Val.mac v)) = _
    rw [tsn_read]
    rcases h6 with h | h
    · rw [if_pos h]
      rfl
    · rw [if_neg (by omega), if_neg (by omega), ← h, List.take_length]
      rfl

example : ∀ m, some (List.replicate 6 (2 : UInt8)) = some m → m.length = 6 ∨ m.length = 8 := by
  rintro m ⟨⟩
  exact .inl rfl

/-- Addresses of another length are sent, but reading them fails or gives another address. -/
theorem C55_tsn_bridge_violated (g : IEType → Bool) (mem : IE → Bytes) (m : Bytes) (h6 : m.length ≠ 6) (h8 : m.length ≠ 8) :
    Acc.TSNBridgeID.call g mem (newTSNBridgeID (some m)) = .err .unexpectedEOF ∨
    ∃ v, Acc.TSNBridgeID.call g mem (newTSNBridgeID (some m)) = .ok (.mac (some v)) ∧ v ≠ m := by
  unfold newTSNBridgeID
  rw [call_new g mem _ _ _ .tsnBridgeID 1 rfl (by decide) (by simp)]
  have e : ∀ x, Leaf.tsnBridgeID.run g (IE.new T.TSNBridgeID (1 :: m)) x = (tsnBridgeIDOf ⟨1 :: m, x⟩ >>= fun v => Res.ok (Val.mac v)) :=
    fun _ => rfl
  rw [e, tsn_read, if_neg h6]
  split
  · exact .inl rfl
  · refine .inr ⟨_, rfl, ?_⟩
    intro he
    have := congrArg List.length he
    rw [List.length_take] at this
    omega

example : (List.replicate 7 (2 : UInt8)).length ≠ 6 ∧ (List.replicate 7 (2 : UInt8)).length ≠ 8 := by decide

/-- Time quota mechanism: the payload returned has the type in the low two bits, then the interval in seconds. -/
theorem C55_time_quota (g : IEType → Bool) (mem : IE → Bytes) (f : SecondsConv) (hf : SecondsOK f) (btit : UInt8) (s : UInt32)
    (rest : Bytes) (hg : g T.TimeQuotaMechanism = false) :
    ∃ b, (newTimeQuotaMechanism f btit (s.toNat * second)).marshal g = .ok b ∧
      parse g (b ++ rest) = .ok (newTimeQuotaMechanism f btit (s.toNat * second)) ∧
      Acc.TimeQuotaMechanism.call g mem (newTimeQuotaMechanism f btit (s.toNat * second)) = .ok (.bytes ((btit % 4) :: be32 s)) := by
  unfold newTimeQuotaMechanism
  rw [hf.u32 s.toNat s.toNat_lt, UInt32.ofNat_toNat, (and_three btit).1]
  refine made g _ _ rest hg (by decide) (by simp) ?_
  rw [call_new g mem _ _ _ .payload 0 rfl (by decide) (by simp)]
  rfl

theorem up_features_new (fs : List UInt8) : newUPFunctionFeatures fs = .ok (IE.new T.UPFunctionFeatures ((fs ++ [0, 0, 0, 0]).take (if fs.length ≤ 2 then 2 else 4))) := by
  match fs with
  | [] => rfl
  | [a] => rfl
  | [a, b] => rfl
  | [a, b, c] => rfl
  | [a, b, c, d] => rfl
  | a :: b :: c :: d :: e :: r =>
    rw [if_neg (by simp)]
    unfold newUPFunctionFeatures
    rw [if_pos (by simp)]
    rfl

/-- The octets of the supported features, filled up to two or to four; more than four are ignored. -/
theorem C55_up_features (g : IEType → Bool) (mem : IE → Bytes) (fs : List UInt8) (rest : Bytes)
    (hg : g T.UPFunctionFeatures = false) :
    ∃ i b, newUPFunctionFeatures fs = .ok i ∧ i.marshal g = .ok b ∧ parse g (b ++ rest) = .ok i ∧
      Acc.UPFunctionFeatures.call g mem i =
        .ok (.bytes ((fs ++ [0, 0, 0, 0]).take (if fs.length ≤ 2 then 2 else 4))) := by
  obtain ⟨b, h1, h2⟩ := new_wire g T.UPFunctionFeatures ((fs ++ [0, 0, 0, 0]).take (if fs.length ≤ 2 then 2 else 4)) rest hg
    (by decide) (by rw [List.length_take]; split <;> omega)
  refine ⟨_, b, up_features_new fs, h1, h2, ?_⟩
  rw [call_new g mem _ _ _ .payload 0 rfl (by decide) (by simp)]
  rfl

example : (([1, 2, 3] : List UInt8) ++ [0, 0, 0, 0]).take 4 = [1, 2, 3, 0] := by decide

end Pfcp
