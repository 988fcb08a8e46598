/-
C37 and C38 exactly: which length an accessor compares before it looks at the type. C39 exactly: where the accessors that can panic do so. A panic always comes from an element of a type the accessor is
about (`C39_provenance`); for such elements the theorems `C39_..._exact` give the inputs.
-/
import Verif.Acc.Props
import Verif.Fields.Panics
import Verif.Fields.PfdPanics
import Verif.Fields.Props6

namespace Pfcp
open Fields

/-! ### C37, C38 -/

/-- The length an accessor compares before it looks at the type of the element, read from the `if len(i.Payload) < n`
in front of the `switch i.Type` of the accessors in /repo/ie, e.g. time-threshold.go, mbr.go, nf-instance-id.go. -/
def firstCheck : Acc → Nat
  | .DLBufferingDuration | .DownlinkDataNotificationDelay | .NodeIDType | .NodeAddress | .CSIDs | .OuterHeaderRemoval
  | .PagingPolicyIndicator | .TGPPInterfaceType | .Timer | .TSNBridgeID | .UEIPAddressPoolIdentity => 1
  | .ReportingTriggers | .UsageReportTrigger | .ValidityTimer => 2
  | .AveragePacketDelay | .DurationMeasurement | .EthernetInactivityTimer | .MaximumPacketDelay | .MeasurementPeriod
  | .MinimumPacketDelay | .MinimumWaitTime | .QuotaHoldingTime | .QuotaValidityTime | .SNSSAI
  | .SubsequentTimeThreshold | .TimeQuota | .TimeThreshold => 4
  | .TimeOffsetMeasurement | .TimeOffsetThreshold => 8
  | .GBR | .MBR => 10
  | .Exponent => 12
  | .NFInstanceID => 16
  | _ => 0

theorem pre_eq (a : Acc) : a.table.pre = firstCheck a := by
  have : (a.table.pre == firstCheck a) = true :=
    forall_acc (p := fun a => a.table.pre == firstCheck a) (by decide +kernel) a
  simpa using this

/-- C37, exact: what an accessor answers to a foreign element. -/
theorem C37_exact (g : IEType → Bool) (mem : IE → Bytes) (a : Acc) (i : IE) (h : a.handles i.typ = false) :
    a.call g mem i = if i.payload.length < firstCheck a then .err .unexpectedEOF else .err (.invalidTypeError i.typ) := by
  rw [← pre_eq]
  split
  · rename_i hl
    rw [call_eq, if_pos hl]
  · rename_i hl
    exact C37_foreign_partial g mem a i h (by omega)

/-- C38, exact: what an accessor answers to a grouped element. -/
theorem C38_exact (g : IEType → Bool) (mem : IE → Bytes) (a : Acc) (i : IE) (h : a.descends i.typ = true) :
    a.call g mem i = if i.payload.length < firstCheck a then .err .unexpectedEOF else
      match parseMulti g i.payload with
      | .panic => .panic
      | .err e => .err e
      | .ok cs =>
        match cs.find? (fun c => (a.searched i.typ).contains c.typ) with
        | none => .err .ieNotFound
        | some c => a.onChild.call g mem c := by
  rw [← pre_eq]
  split
  · rename_i hl
    rw [call_eq, if_pos hl]
  · rename_i hl
    exact C38_grouped_partial g mem a i h (by omega)

/-- The leading check costs no value: where it strikes, the search would have ended in an error too. -/
theorem C38_short_costs_nothing (g : IEType → Bool) (mem : IE → Bytes) (a : Acc) (i : IE)
    (hs : i.payload.length < firstCheck a) (cs : List IE) (hc : parseMulti g i.payload = .ok cs) (c : IE) (hm : c ∈ cs) :
    ∃ e, a.onChild.call g mem c = .err e := by
  have hlt := child_payload hc hm
  have : (firstCheck a ≤ firstCheck a.onChild : Bool) = true :=
    forall_acc (p := fun a => decide (firstCheck a ≤ firstCheck a.onChild)) (by decide +kernel) a
  have := of_decide_eq_true this
  exact ⟨_, by rw [call_eq, if_pos (by rw [pre_eq]; omega)]⟩

example : firstCheck .TimeThreshold = 4 ∧ Acc.TimeThreshold.descends T.CreateURR = true := ⟨rfl, by decide +kernel⟩

/-! ### C39 -/

/-- A panicking accessor panics on an element, inside the given one, that carries values of its kind. -/
theorem C39_provenance (g : IEType → Bool) (mem : IE → Bytes) (a : Acc) (i : IE) (h : a.call g mem i = .panic) :
    ∃ x, Contains g i x ∧ x.typ ∈ a.onChild.home ∧ a.onChild.call g mem x = .panic := by
  generalize hn : i.payload.length = n
  induction n using Nat.strongRecOn generalizing a i with
  | ind n ih =>
    have key : a.table.cases.all (fun c => match c.2 with
        | .leaf .ambiguous => true
        | .leaf _ => a.home.contains c.1 && decide (a.onChild = a)
        | .descend _ _ => true) = true :=
      forall_acc (p := fun a => a.table.cases.all (fun c => match c.2 with
        | .leaf .ambiguous => true
        | .leaf _ => a.home.contains c.1 && decide (a.onChild = a)
        | .descend _ _ => true)) (by decide +kernel) a
    have key2 : (decide (a.onChild.onChild = a.onChild)) = true :=
      forall_acc (p := fun a => decide (a.onChild.onChild = a.onChild)) (by decide +kernel) a
    have key2 := of_decide_eq_true key2
    have h0 := h
    rw [call_eq] at h
    split at h
    · cases h
    · split at h
      · cases h
      · rename_i l hl
        have hk := List.all_eq_true.1 key _ (lookup_mem hl)
        have hb : a.home.contains i.typ && decide (a.onChild = a) := by
          cases l <;> first | exact hk | cases h
        simp only [Bool.and_eq_true, decide_eq_true_eq] at hb
        refine ⟨i, .here i, ?_, ?_⟩
        · rw [hb.2]; simpa using hb.1
        · rw [hb.2]; exact h0
      · rename_i via subs hl
        split at h
        · cases h
        · rename_i hp; exact absurd hp (C03_parse_total g i.payload).2
        · rename_i cs hcs
          split at h
          · cases h
          · rename_i x b hf
            obtain ⟨hx, hb⟩ := findSub_mem hf
            have hs := List.all_eq_true.1 (subs_onChild a) _ (lookup_mem hl)
            have hbe : b = a.onChild := by
              have := List.all_eq_true.1 hs _ (lookup_mem hb)
              simpa using this
            have hlt := child_payload hcs hx
            obtain ⟨y, h1, h2, h3⟩ := ih x.payload.length (by omega) b x h rfl
            rw [hbe, key2] at h2 h3
            exact ⟨y, .child hcs hx h1, h2, h3⟩

/-- An accessor without leading length check, on an element of its own type. -/
theorem call_home_leaf (g : IEType → Bool) (mem : IE → Bytes) {a : Acc} {i : IE} {l : Leaf} {t : IEType} (ht : i.typ = t)
    (hp : a.table.pre ≤ i.payload.length) (hl : a.table.cases.lookup t = some (.leaf l)) :
    a.call g mem i = l.run g i (mem i) := by
  rw [call_eq, if_neg (by omega), ht, hl]

theorem map_panic {α β : Type} {x : Res α} {f : α → β} : (x >>= fun v => .ok (f v)) = .panic ↔ x = .panic := by
  cases x with
  | ok a => exact ⟨fun h => (nomatch h), fun h => (nomatch h)⟩
  | err e => exact ⟨fun h => (nomatch h), fun h => (nomatch h)⟩
  | panic => exact ⟨fun _ => rfl, fun _ => rfl⟩

/-! ### Accessors that only call a decoder -/

theorem C39_SourceIPAddress_exact (g : IEType → Bool) (mem : IE → Bytes) (i : IE) (ht : i.typ = T.SourceIPAddress) :
    Acc.SourceIPAddress.call g mem i = .panic ↔
    ∃ f rest, i.payload = f :: rest ∧ rest ≠ [] ∧ bit f 2 = true ∧
      rest.length = (if bit f 1 then 4 else 0) + (if bit f 0 then 16 else 0) := by
  rw [call_home_leaf g mem ht (Nat.zero_le _) (l := .sourceIPAddress) rfl]
  exact map_panic.trans (C41_SourceIPAddress_exact _)

theorem C39_RemoteGTPUPeer_exact (g : IEType → Bool) (mem : IE → Bytes) (i : IE) (ht : i.typ = T.RemoteGTPUPeer) :
    Acc.RemoteGTPUPeer.call g mem i = .panic ↔
    ∃ f mid, i.payload = f :: (mid ++ [0, 0]) ∧ bit f 2 = true ∧
      mid.length = (if bit f 1 then 4 else 0) + (if bit f 0 then 16 else 0) := by
  rw [call_home_leaf g mem ht (Nat.zero_le _) (l := .remoteGTPUPeer) rfl]
  exact map_panic.trans (C41_RemoteGTPUPeer_exact _)

theorem C39_UserPlaneIPResourceInformation_exact (g : IEType → Bool) (mem : IE → Bytes) (i : IE)
    (ht : i.typ = T.UserPlaneIPResourceInformation) :
    Acc.UserPlaneIPResourceInformation.call g mem i = .panic ↔
    ∃ f rest, i.payload = f :: rest ∧ rest ≠ [] ∧ bit f 6 = true ∧
      ∃ n, n = (if bit f 2 || bit f 3 || bit f 4 then 1 else 0) + (if bit f 0 then 4 else 0) + (if bit f 1 then 16 else 0) ∧
      if bit f 5 then n ≤ rest.length else n = rest.length := by
  rw [call_home_leaf g mem ht (Nat.zero_le _) (l := .userPlaneIPResourceInformation) rfl]
  exact map_panic.trans (C41_UserPlaneIPResourceInformation_exact _)

theorem C39_OuterHeaderCreation_exact (g : IEType → Bool) (mem : IE → Bytes) (i : IE)
    (ht : i.typ = T.OuterHeaderCreation) :
    Acc.OuterHeaderCreation.call g mem i = .panic ↔
    ∃ x b rest, i.payload = x :: b :: rest ∧ (bit b 6 = true ∨ bit b 7 = true) ∧
      (if bit x 0 || bit x 1 then 4 else 0) + (if bit x 0 || bit x 2 || bit x 4 then 4 else 0) +
      (if bit x 1 || bit x 3 || bit x 5 then 16 else 0) + (if bit x 2 || bit x 3 then 2 else 0) + 3 ≤ rest.length := by
  rw [call_home_leaf g mem ht (Nat.zero_le _) (l := .outerHeaderCreation) rfl]
  exact map_panic.trans (C41_OuterHeaderCreation_exact _)

/-- Here the bytes behind the payload matter. -/
theorem C39_SDFFilter_exact (g : IEType → Bool) (mem : IE → Bytes) (i : IE) (ht : i.typ = T.SDFFilter) :
    Acc.SDFFilter.call g mem i = .panic ↔
    ∃ f x n1 n2 rest, i.payload = f :: x :: n1 :: n2 :: rest ∧ rest ≠ [] ∧ bit f 0 = true ∧
      rest.length < n1.toNat * 256 + n2.toNat ∧
      (rest.length + (mem i).length < n1.toNat * 256 + n2.toNat ∨
        bit f 1 = true ∨ bit f 2 = true ∨ bit f 3 = true ∨ bit f 4 = true) := by
  rw [call_home_leaf g mem ht (Nat.zero_le _) (l := .sdfFilter) rfl]
  exact map_panic.trans (C41_SDFFilter_exact _)

/-- The texts of a PFD Contents; `crashes` (Verif/Fields/PfdPanics.lean) follows the declared lengths. -/
theorem C39_PFDContents_exact (g : IEType → Bool) (mem : IE → Bytes) (i : IE) (ht : i.typ = T.PFDContents) :
    Acc.PFDContents.call g mem i = .panic ↔
    ∃ fl x r, i.payload = fl :: x :: r ∧ crashes (i.payload ++ mem i) i.payload.length
      [(bit fl 0, true), (bit fl 1, true), (bit fl 2, true), (bit fl 3, true), (bit fl 4, true),
        (bit fl 5, false), (bit fl 6, false), (bit fl 7, false)] 2 := by
  rw [call_home_leaf g mem ht (Nat.zero_le _) (l := .pfdContents) rfl]
  exact map_panic.trans (C41_PFDContents_exact _)

theorem macs_panic (d sp : Bytes) : MACAddresses.codec.parse ⟨d, sp⟩ = .panic ↔
    ∃ n r, d = n :: r ∧ r.length = 6 * (n.toNat + 1) := by
  match d with
  | [] =>
    rw [show MACAddresses.codec.parse ⟨[], sp⟩ = .err .unexpectedEOF from rfl]
    constructor
    · intro h; cases h
    · rintro ⟨_, _, h, _⟩; cases h
  | n :: r =>
    rw [C41_MACAddresses_violated]
    constructor
    · intro h; exact ⟨n, r, rfl, h⟩
    · rintro ⟨n', r', h, h'⟩; cases h; exact h'

/-- A list of MAC addresses that ends right behind them: the length of the first tag is missing. -/
theorem C39_MACAddresses_exact (g : IEType → Bool) (mem : IE → Bytes) (i : IE) :
    (i.typ = T.MACAddressesDetected → (Acc.MACAddressesDetected.call g mem i = .panic ↔
      ∃ n r, i.payload = n :: r ∧ r.length = 6 * (n.toNat + 1))) ∧
    (i.typ = T.MACAddressesRemoved → (Acc.MACAddressesRemoved.call g mem i = .panic ↔
      ∃ n r, i.payload = n :: r ∧ r.length = 6 * (n.toNat + 1))) := by
  constructor
  · intro ht
    rw [call_home_leaf g mem ht (Nat.zero_le _) (l := .macAddresses) rfl]
    exact map_panic.trans (macs_panic _ _)
  · intro ht
    rw [call_home_leaf g mem ht (Nat.zero_le _) (l := .macAddresses) rfl]
    exact map_panic.trans (macs_panic _ _)

/-- The same for the tags of such a list; a tag by itself never makes its accessor panic. -/
theorem C39_tags_exact (g : IEType → Bool) (mem : IE → Bytes) (i : IE) :
    ((i.typ = T.MACAddressesDetected ∨ i.typ = T.MACAddressesRemoved) →
      (Acc.CTAG.call g mem i = .panic ↔ ∃ n r, i.payload = n :: r ∧ r.length = 6 * (n.toNat + 1)) ∧
      (Acc.STAG.call g mem i = .panic ↔ ∃ n r, i.payload = n :: r ∧ r.length = 6 * (n.toNat + 1))) ∧
    (i.typ = T.CTAG → Acc.CTAG.call g mem i ≠ .panic) ∧ (i.typ = T.STAG → Acc.STAG.call g mem i ≠ .panic) := by
  have hx : ∀ (x : Res MACAddresses) (f : MACAddresses → Bytes),
      (x >>= fun y => Tag.codec.parse ⟨f y, []⟩ >>= fun v => .ok (Val.tag v)) = .panic ↔ x = .panic := by
    intro x f
    cases x with
    | panic => exact ⟨fun _ => rfl, fun _ => rfl⟩
    | err e => exact ⟨fun h => (nomatch h), fun h => (nomatch h)⟩
    | ok y =>
      refine ⟨fun h => ?_, fun h => (nomatch h)⟩
      exact absurd (map_panic.1 h) (C41_Tag _)
  refine ⟨fun ht => ?_, fun ht => ?_, fun ht => ?_⟩
  · have h1 : Acc.CTAG.call g mem i = Leaf.run g .ctagOf i (mem i) := by
      rcases ht with ht | ht
      · exact call_home_leaf g mem ht (Nat.zero_le _) rfl
      · exact call_home_leaf g mem ht (Nat.zero_le _) rfl
    have h2 : Acc.STAG.call g mem i = Leaf.run g .stagOf i (mem i) := by
      rcases ht with ht | ht
      · exact call_home_leaf g mem ht (Nat.zero_le _) rfl
      · exact call_home_leaf g mem ht (Nat.zero_le _) rfl
    rw [h1, h2]
    exact ⟨(hx _ _).trans (macs_panic _ _), (hx _ _).trans (macs_panic _ _)⟩
  · rw [call_home_leaf g mem ht (Nat.zero_le _) (l := .tag) rfl]
    exact fun h => C41_Tag _ (map_panic.1 h)
  · rw [call_home_leaf g mem ht (Nat.zero_le _) (l := .tag) rfl]
    exact fun h => C41_Tag _ (map_panic.1 h)

/-- Trace information: the four places where the payload may end too early. Here `q` is any six octets. -/
theorem C39_TraceInformation_exact (g : IEType → Bool) (mem : IE → Bytes) (i : IE) (ht : i.typ = T.TraceInformation) :
    Acc.TraceInformation.call g mem i = .panic ↔
    ∃ q : Bytes, q.length = 6 ∧ (i.payload = q ∨
      (∃ (n : UInt8) (ev : Bytes), ev.length = n.toNat ∧ i.payload = q ++ n :: ev) ∨
      (∃ (n : UInt8) (ev : Bytes) (dep : UInt8), ev.length = n.toNat ∧ i.payload = q ++ (n :: ev ++ [dep])) ∨
      (∃ (n : UInt8) (ev : Bytes) (dep m : UInt8) (fs : Bytes), ev.length = n.toNat ∧ fs.length = m.toNat ∧
        i.payload = q ++ (n :: ev ++ dep :: m :: fs))) := by
  rw [call_home_leaf g mem ht (Nat.zero_le _) (l := .traceInformation) rfl]
  exact map_panic.trans (C41_TraceInformation_partial _ _)

/-! ### Accessors with code of their own -/

/-- The packet count trusts the length field: it panics precisely on an element that claims one octet and has none. -/
theorem C39_DLBufferingSuggestedPacketCount_exact (g : IEType → Bool) (mem : IE → Bytes) (i : IE)
    (ht : i.typ = T.DLBufferingSuggestedPacketCount) :
    Acc.DLBufferingSuggestedPacketCount.call g mem i = .panic ↔ i.length = 1 ∧ i.payload = [] := by
  rw [call_home_leaf g mem ht (Nat.zero_le _) (l := .packetCount) rfl]
  unfold Leaf.run
  dsimp only
  by_cases h1 : i.length = 1
  · rw [if_pos h1, map_panic]
    cases hp : i.payload with
    | nil => simp [Slice.idx, h1]
    | cons x r => simp [Slice.idx]
  · rw [if_neg h1]
    split
    · constructor
      · intro h
        exact absurd h (leaf_safe g .u16 i 0 rfl (Nat.zero_le _) (mem i)).1
      · rintro ⟨h, _⟩; exact absurd h h1
    · constructor
      · intro h; cases h
      · rintro ⟨h, _⟩; exact absurd h h1

/-- The QoS flow identifier in a Downlink Data Service Information: the length is compared with 2, the third octet is
read. -/
theorem C39_QFI_exact (g : IEType → Bool) (mem : IE → Bytes) (i : IE) :
    (i.typ = T.DownlinkDataServiceInformation → (Acc.QFI.call g mem i = .panic ↔ i.payload.length = 2)) ∧
    (i.typ = T.QFI → Acc.QFI.call g mem i ≠ .panic) := by
  constructor
  · intro ht
    rw [call_home_leaf g mem ht (Nat.zero_le _) (l := .byteMin 2 2) rfl]
    unfold Leaf.run
    dsimp only
    by_cases hl : (Slice.mk i.payload (mem i)).len < 2
    · rw [if_pos hl]
      unfold Slice.len at hl
      dsimp only at hl
      constructor
      · intro h; cases h
      · intro h; omega
    · rw [if_neg hl, map_panic]
      unfold Slice.len at hl
      dsimp only at hl
      unfold Slice.idx
      dsimp only
      by_cases h : i.payload.length = 2
      · rw [List.getElem?_eq_none (by omega)]
        simp [h]
      · rw [List.getElem?_eq_getElem (by omega)]
        simp [h]
  · intro ht
    rw [call_home_leaf g mem ht (Nat.zero_le _) (l := .u8) rfl]
    exact (leaf_safe g .u8 i 0 rfl (Nat.zero_le _) (mem i)).1

/-- The subsequent time quota is read without looking at the length. -/
theorem C39_SubsequentTimeQuota_exact (g : IEType → Bool) (mem : IE → Bytes) (i : IE)
    (ht : i.typ = T.SubsequentTimeQuota) :
    Acc.SubsequentTimeQuota.call g mem i = .panic ↔ i.payload.length + (mem i).length < 4 := by
  rw [call_home_leaf g mem ht (Nat.zero_le _) (l := .sec32) rfl]
  unfold Leaf.run
  dsimp only
  rw [map_panic]
  unfold Slice.u32At
  rw [map_panic]
  unfold Slice.sub Slice.cap
  dsimp only
  split
  · constructor
    · intro h; cases h
    · intro h; omega
  · simp; omega

/-- The flow description of a Flow Information. -/
theorem C39_FlowDescription_exact (g : IEType → Bool) (mem : IE → Bytes) (i : IE) (ht : i.typ = T.FlowInformation) :
    Acc.FlowDescription.call g mem i = .panic ↔
      i.payload.length + (mem i).length < 3 ∨
      ∃ x hi lo r, i.payload ++ mem i = x :: hi :: lo :: r ∧ hi.toNat * 256 + lo.toNat ≤ i.payload.length ∧
        (65533 ≤ hi.toNat * 256 + lo.toNat ∨ r.length < hi.toNat * 256 + lo.toNat) := by
  rw [call_home_leaf g mem ht (Nat.zero_le _) (l := .flowDescription) rfl]
  unfold Leaf.run
  dsimp only
  rw [map_panic]
  unfold flowDescriptionOf Slice.u16At
  generalize mem i = sp
  generalize i.payload = p
  by_cases h3 : p.length + sp.length < 3
  · simp only [h3, true_or, iff_true]
    unfold Slice.sub
    rw [if_neg (by unfold Slice.cap; simp; omega)]
    rfl
  · have hm : ∃ x hi lo r, p ++ sp = x :: hi :: lo :: r := by
      have hl : 3 ≤ (p ++ sp).length := by simp; omega
      match p ++ sp, hl with
      | x :: hi :: lo :: r, _ => exact ⟨x, hi, lo, r, rfl⟩
    obtain ⟨x, hi, lo, r, hm⟩ := hm
    have hs : (Slice.mk p sp).sub 1 (1 + 2) = .ok ⟨[hi, lo], r⟩ := by
      unfold Slice.sub
      rw [if_pos ⟨by omega, by unfold Slice.cap; simp; omega⟩]
      dsimp only
      rw [hm]
      rfl
    rw [hs]
    have hn : (dec16 [hi, lo]).toNat = hi.toNat * 256 + lo.toNat := by
      have h1 := hi.toNat_lt
      have h2 := lo.toNat_lt
      simp [dec16, beNat]
      omega
    have hlt : hi.toNat * 256 + lo.toNat < 65536 := by
      have h1 := hi.toNat_lt
      have h2 := lo.toNat_lt
      omega
    have hr : r.length + 3 = p.length + sp.length := by
      have := congrArg List.length hm
      simp at this
      omega
    simp only [Res.ok_bind, Slice.len, hn, h3, false_or]
    have hsum : (3 + dec16 [hi, lo] : UInt16).toNat = (3 + (hi.toNat * 256 + lo.toNat)) % 65536 := by
      rw [UInt16.toNat_add, hn]; rfl
    have hex : (∃ x' hi' lo' r', p ++ sp = x' :: hi' :: lo' :: r' ∧ hi'.toNat * 256 + lo'.toNat ≤ p.length ∧
        (65533 ≤ hi'.toNat * 256 + lo'.toNat ∨ r'.length < hi'.toNat * 256 + lo'.toNat)) ↔
        hi.toNat * 256 + lo.toNat ≤ p.length ∧
        (65533 ≤ hi.toNat * 256 + lo.toNat ∨ r.length < hi.toNat * 256 + lo.toNat) := by
      constructor
      · rintro ⟨x', hi', lo', r', h, h'⟩
        rw [hm] at h
        cases h
        exact h'
      · intro h; exact ⟨x, hi, lo, r, hm, h⟩
    rw [hex]
    split
    · constructor
      · intro h; cases h
      · rintro ⟨h, _⟩; omega
    · rw [map_panic, hsum]
      unfold Slice.sub Slice.cap
      dsimp only
      split
      · constructor
        · intro h; cases h
        · rintro ⟨_, h⟩; omega
      · simp only [true_iff]
        omega

/-- The same with the values and the errors: the length says how much of what follows is the description; the length is
compared with that of the whole element. -/
theorem C39_FlowDescription_value (g : IEType → Bool) (mem : IE → Bytes) (i : IE) (ht : i.typ = T.FlowInformation)
    (x hi lo : UInt8) (r : Bytes) (hm : i.payload ++ mem i = x :: hi :: lo :: r) :
    Acc.FlowDescription.call g mem i =
      if i.payload.length < hi.toNat * 256 + lo.toNat then .err .unexpectedEOF
      else if 65533 ≤ hi.toNat * 256 + lo.toNat ∨ r.length < hi.toNat * 256 + lo.toNat then .panic
      else .ok (.bytes (r.take (hi.toNat * 256 + lo.toNat))) := by
  by_cases hp : Acc.FlowDescription.call g mem i = .panic
  · rw [hp]
    rw [C39_FlowDescription_exact g mem i ht] at hp
    rcases hp with hp | ⟨x', hi', lo', r', h, h1, h2⟩
    · have := congrArg List.length hm
      simp at this
      omega
    · rw [hm] at h
      cases h
      rw [if_neg (by omega), if_pos h2]
  · have hq := hp
    rw [C39_FlowDescription_exact g mem i ht] at hq
    rw [call_home_leaf g mem ht (Nat.zero_le _) (l := .flowDescription) rfl] at hp ⊢
    unfold Leaf.run flowDescriptionOf Slice.u16At
    dsimp only
    have hs : (Slice.mk i.payload (mem i)).sub 1 (1 + 2) = .ok ⟨[hi, lo], r⟩ := by
      have := congrArg List.length hm
      simp at this
      unfold Slice.sub
      rw [if_pos ⟨by omega, by unfold Slice.cap; simp; omega⟩]
      dsimp only
      rw [hm]
      rfl
    have h1 := hi.toNat_lt
    have h2 := lo.toNat_lt
    have hn : (dec16 [hi, lo]).toNat = hi.toNat * 256 + lo.toNat := by
      simp [dec16, beNat]
      omega
    rw [hs]
    simp only [Res.ok_bind, Slice.len, hn]
    split
    · rfl
    · rename_i hlt
      have hnot : ¬(65533 ≤ hi.toNat * 256 + lo.toNat ∨ r.length < hi.toNat * 256 + lo.toNat) :=
        fun h => hq (.inr ⟨x, hi, lo, r, hm, by omega, h⟩)
      have hsum : (3 + dec16 [hi, lo] : UInt16).toNat = 3 + (hi.toNat * 256 + lo.toNat) := by
        rw [UInt16.toNat_add, hn]
        have : (3 : UInt16).toNat = 3 := rfl
        omega
      rw [if_neg hnot, hsum]
      have hlen := congrArg List.length hm
      simp at hlen
      unfold Slice.sub
      rw [if_pos ⟨by omega, by unfold Slice.cap; simp; omega⟩]
      dsimp only
      rw [hm]
      show Res.ok (Val.bytes _) = _
      rw [List.drop_take]
      simp

example : ∃ x hi lo r, ([1, 0, 1, 97] : Bytes) ++ [] = x :: hi :: lo :: r ∧ r.take (hi.toNat * 256 + lo.toNat) = [97] :=
  ⟨1, 0, 1, [97], rfl, rfl⟩

/-- The elements whose payload is the value and needs a minimum of octets: /repo/ie/apply-action.go,
cp-function-features.go, fq-csid.go. -/
theorem C39_payload_min (g : IEType → Bool) (mem : IE → Bytes) (a : Acc) (t : IEType) (n : Nat)
    (h : (a, t, n) ∈ [(Acc.ApplyAction, T.ApplyAction, 1), (.CPFunctionFeatures, T.CPFunctionFeatures, 1), (.FQCSID, T.FQCSID, 3)])
    (i : IE) (ht : i.typ = t) :
    a.call g mem i = if i.payload.length < n then .err .unexpectedEOF else .ok (.bytes i.payload) := by
  simp only [List.mem_cons, Prod.mk.injEq, List.not_mem_nil, or_false] at h
  rcases h with ⟨rfl, rfl, rfl⟩ | ⟨rfl, rfl, rfl⟩ | ⟨rfl, rfl, rfl⟩
  all_goals
    rw [call_home_leaf g mem ht (Nat.zero_le _) (l := .payloadMin _) rfl]
    rfl

example : (Acc.FQCSID, T.FQCSID, 3) ∈ [(Acc.ApplyAction, T.ApplyAction, 1), (.FQCSID, T.FQCSID, 3)] := by decide

theorem csidLoop_stop (s : Slice) (n o : Nat) (h : o + 2 ≤ s.len) : csidLoop s (n + 1) o = .ok [] := by
  unfold csidLoop
  rw [if_neg (by omega)]

theorem csidLoop_panic (s : Slice) : ∀ n o, s.len < o + 2 → csidLoop s n o = .panic
  | 0, _, _ => rfl
  | n + 1, o, h => by
    unfold csidLoop
    rw [if_pos (by omega), csidLoop_panic s n (o + 2) (by omega)]
    unfold Slice.u16At Slice.sub
    split <;> rfl

/-- The list of session set identifiers of an FQ-CSID: whatever the element says, the answer is the empty list or a
panic (or, for an unknown node type, an error). No identifier is ever returned. -/
theorem C39_CSIDs_exact (g : IEType → Bool) (mem : IE → Bytes) (i : IE) (ht : i.typ = T.FQCSID) (b : UInt8) (r : Bytes)
    (hp : i.payload = b :: r) :
    Acc.CSIDs.call g mem i =
      if b.toNat / 16 = 0 ∨ b.toNat / 16 = 2 then (if r.length < 6 then .panic else .ok (.u16s []))
      else if b.toNat / 16 = 1 then (if r.length < 18 then .panic else .ok (.u16s []))
      else .err .malformed := by
  have hb : ∀ b : UInt8, ((b >>> 4) &&& 0x0f).toNat = b.toNat / 16 := forall_byte (by decide +kernel)
  have hn : ∀ k : UInt8, ((b >>> 4) &&& 0x0f = k) = (b.toNat / 16 = k.toNat) := by
    intro k
    rw [← hb b, UInt8.toNat_inj]
  rw [call_home_leaf g mem ht (by rw [hp]; simp [Acc.table, Acc.dCSIDs]) (l := .csids) rfl]
  unfold Leaf.run csidsOf
  rw [hp]
  have hi : (Slice.mk (b :: r) (mem i)).idx 0 = .ok b := rfl
  simp only [hi, Res.ok_bind, hn, show UInt8.toNat 0 = 0 from rfl, show UInt8.toNat 1 = 1 from rfl,
    show UInt8.toNat 2 = 2 from rfl]
  have loop : ∀ o, (csidLoop ⟨b :: r, mem i⟩ (Slice.cap ⟨b :: r, mem i⟩ + 1) (o + 1) >>= fun v => .ok (Val.u16s v)) =
      if r.length < o + 2 then .panic else .ok (.u16s []) := by
    intro o
    split
    · rw [csidLoop_panic _ _ _ (by simp [Slice.len]; omega)]; rfl
    · rw [csidLoop_stop _ _ _ (by simp [Slice.len]; omega)]; rfl
  have l5 := loop 4
  have l17 := loop 16
  by_cases h02 : b.toNat / 16 = 0 ∨ b.toNat / 16 = 2
  · rw [if_pos h02, if_pos h02]
    exact l5
  · rw [if_neg h02, if_neg h02]
    by_cases h1 : b.toNat / 16 = 1
    · rw [if_pos h1, if_pos h1]
      exact l17
    · rw [if_neg h1, if_neg h1]
      rfl

example : Acc.CSIDs.call (fun _ => false) (fun _ => []) ⟨T.FQCSID, 7, 0, [1, 192, 0, 2, 1, 0, 5], []⟩ =
    .ok (.u16s []) := by
  rw [C39_CSIDs_exact _ _ _ rfl 1 [192, 0, 2, 1, 0, 5] rfl]
  rfl
example : Acc.SDFFilter.call (fun _ => false) (fun _ => []) ⟨T.SDFFilter, 5, 0, [1, 0, 0, 9, 65], []⟩ = .panic :=
  (C39_SDFFilter_exact _ _ _ rfl).2 ⟨1, 0, 0, 9, [65], rfl, by simp, by decide, by decide, .inl (by decide)⟩

end Pfcp
