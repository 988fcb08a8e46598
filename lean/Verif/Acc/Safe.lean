/- Helper lemmas: which accessor expressions never panic and never read behind the payload. -/
import Verif.Acc.Lemmas
import Verif.Fields.Props7
import Verif.Fields.Props1
import Verif.Fields.Props2
import Verif.Fields.Props3
import Verif.Fields.Props5
import Verif.Text.Props

namespace Pfcp
open Fields

/-- Payload length from which the expression is safe; `none` if no length is enough. -/
def Leaf.need : Leaf → Option Nat
  | .sec32 | .ms32 => some 4
  | .sec16 => some 2
  | .ns64 => some 8
  | .timer | .delay50 | .mask _ | .nodeIDType | .nodeAddress | .tsnBridgeID => some 1
  | .exponent => some 12
  | .prefix n => some n
  | .byteMin n k => if k < n then some 0 else some (k + 1)
  | .csids | .flowDescription | .packetCount | .ctagOf | .stagOf | .sourceIPAddress | .remoteGTPUPeer
  | .userPlaneIPResourceInformation | .sdfFilter | .outerHeaderCreation | .traceInformation | .macAddresses
  | .pfdContents => none
  | _ => some 0

/-- A result that is not a panic and does not depend on the spare bytes. -/
def SafeAt {α : Type} (f : Bytes → Res α) : Prop := ∀ sp, f sp ≠ .panic ∧ ∀ sp', f sp = f sp'

theorem SafeAt.bind {α β : Type} {f : Bytes → Res α} (h : SafeAt f) {k : α → Res β} (hk : ∀ a, k a ≠ .panic) :
    SafeAt (fun sp => f sp >>= k) := by
  intro sp
  obtain ⟨h1, h2⟩ := h sp
  refine ⟨?_, fun sp' => by simp only [h2 sp']⟩
  show f sp >>= k ≠ .panic
  cases hf : f sp with
  | ok a => exact hk a
  | err e => exact fun h => nomatch h
  | panic => exact absurd hf h1

theorem SafeAt.const {α : Type} {r : Res α} (h : r ≠ .panic) : SafeAt (fun _ => r) := fun _ => ⟨h, fun _ => rfl⟩

theorem SafeAt.map {α : Type} {f : Bytes → Res α} (h : SafeAt f) (w : α → Val) :
    SafeAt (fun sp => f sp >>= fun v => .ok (w v)) := h.bind (fun _ h => nomatch h)

theorem SafeAt.codec {α : Type} {c : Codec α} (h1 : c.NoPanic) (h2 : c.Local) (d : Bytes) :
    SafeAt (fun sp => c.parse ⟨d, sp⟩) := fun sp => ⟨h1 _, fun sp' => h2 d sp sp'⟩

theorem SafeAt.idx {d : Bytes} {k : Nat} (h : k < d.length) : SafeAt (fun sp => Slice.idx ⟨d, sp⟩ k) := by
  intro sp
  refine ⟨?_, fun _ => rfl⟩
  simp [Slice.idx, h]

theorem sub_inside (d sp : Bytes) {lo hi : Nat} (h1 : lo ≤ hi) (h2 : hi ≤ d.length) :
    Slice.sub ⟨d, sp⟩ lo hi >>= (fun x => Res.ok x.data) = Res.ok ((d.take hi).drop lo) := by
  unfold Slice.sub Slice.cap
  rw [if_pos ⟨h1, by dsimp only; omega⟩]
  show Res.ok (((d ++ sp).take hi).drop lo) = _
  rw [List.take_append_of_le_length h2]

theorem SafeAt.sub {d : Bytes} {lo hi : Nat} (h1 : lo ≤ hi) (h2 : hi ≤ d.length) :
    SafeAt (fun sp => Slice.sub ⟨d, sp⟩ lo hi >>= fun x => Res.ok x.data) := by
  intro sp
  simp only [sub_inside d _ h1 h2]
  exact ⟨fun h => (nomatch h), fun _ => trivial⟩

theorem SafeAt.u32At {d : Bytes} {lo : Nat} (h : lo + 4 ≤ d.length) : SafeAt (fun sp => Slice.u32At ⟨d, sp⟩ lo) := by
  have := (SafeAt.sub (d := d) (lo := lo) (hi := lo + 4) (by omega) h).bind (k := fun x => .ok (dec32 x)) (fun _ h => nomatch h)
  intro sp
  have e : ∀ sp, Slice.u32At ⟨d, sp⟩ lo = (Slice.sub ⟨d, sp⟩ lo (lo + 4) >>= fun x => Res.ok x.data) >>= fun x => Res.ok (dec32 x) := by
    intro sp
    unfold Slice.u32At
    cases Slice.sub ⟨d, sp⟩ lo (lo + 4) <;> rfl
  simp only [e]
  exact this sp
theorem SafeAt.u16At {d : Bytes} {lo : Nat} (h : lo + 2 ≤ d.length) : SafeAt (fun sp => Slice.u16At ⟨d, sp⟩ lo) := by
  have := (SafeAt.sub (d := d) (lo := lo) (hi := lo + 2) (by omega) h).bind (k := fun x => .ok (dec16 x)) (fun _ h => nomatch h)
  intro sp
  have e : ∀ sp, Slice.u16At ⟨d, sp⟩ lo = (Slice.sub ⟨d, sp⟩ lo (lo + 2) >>= fun x => Res.ok x.data) >>= fun x => Res.ok (dec16 x) := by
    intro sp
    unfold Slice.u16At
    cases Slice.sub ⟨d, sp⟩ lo (lo + 2) <;> rfl
  simp only [e]
  exact this sp
theorem SafeAt.u64At {d : Bytes} {lo : Nat} (h : lo + 8 ≤ d.length) : SafeAt (fun sp => Slice.u64At ⟨d, sp⟩ lo) := by
  have := (SafeAt.sub (d := d) (lo := lo) (hi := lo + 8) (by omega) h).bind (k := fun x => .ok (dec64 x)) (fun _ h => nomatch h)
  intro sp
  have e : ∀ sp, Slice.u64At ⟨d, sp⟩ lo = (Slice.sub ⟨d, sp⟩ lo (lo + 8) >>= fun x => Res.ok x.data) >>= fun x => Res.ok (dec64 x) := by
    intro sp
    unfold Slice.u64At
    cases Slice.sub ⟨d, sp⟩ lo (lo + 8) <;> rfl
  simp only [e]
  exact this sp

theorem SafeAt.ite {α : Type} {c : Prop} [Decidable c] {f : Bytes → Res α} {r : Res α} (hr : r ≠ .panic)
    (h : ¬c → SafeAt f) : SafeAt (fun sp => if c then r else f sp) := by
  by_cases hc : c
  · simp only [if_pos hc]
    exact SafeAt.const hr
  · simp only [if_neg hc]
    exact h hc

theorem eof_ne_panic {α : Type} {e : GoErr} : (Res.err e : Res α) ≠ .panic := fun h => nomatch h

theorem SafeAt.min {α : Type} {d : Bytes} {n : Nat} {e : GoErr} {f : Bytes → Res α} (h : n ≤ d.length → SafeAt f) :
    SafeAt (fun sp => if Slice.len ⟨d, sp⟩ < n then .err e else f sp) := by
  show SafeAt (fun sp => if d.length < n then .err e else f sp)
  exact SafeAt.ite eof_ne_panic (fun hn => h (by omega))

theorem failedRule_safe (d : Bytes) : SafeAt (fun sp => failedRuleOf ⟨d, sp⟩) := by
  unfold failedRuleOf
  refine SafeAt.min (fun h => ?_)
  match d, h with
  | t :: r, _ =>
    show SafeAt (fun sp => if t = 0 then _ else _)
    by_cases h0 : t = 0
    · simp only [if_pos h0]
      exact SafeAt.min (fun h => (SafeAt.u16At (by simpa using h)).bind (fun _ h => nomatch h))
    simp only [if_neg h0]
    by_cases h1 : t = 1 ∨ t = 2 ∨ t = 3
    · simp only [if_pos h1]
      exact SafeAt.min (fun h => SafeAt.u32At (by simpa using h))
    simp only [if_neg h1]
    by_cases h2 : t = 4
    · simp only [if_pos h2]
      exact SafeAt.min (fun h => (SafeAt.idx (by simp at h ⊢; omega)).bind (fun _ h => nomatch h))
    simp only [if_neg h2]
    exact SafeAt.const (fun h => nomatch h)

theorem nodeAddress_safe (d : Bytes) (h : 1 ≤ d.length) : SafeAt (fun sp => nodeAddressOf ⟨d, sp⟩) := by
  match d, h with
  | t :: r, _ =>
    unfold nodeAddressOf
    show SafeAt (fun sp => if (t >>> 4) &&& 0x0f = 0 ∨ (t >>> 4) &&& 0x0f = 2 then _ else _)
    by_cases h0 : (t >>> 4) &&& 0x0f = 0 ∨ (t >>> 4) &&& 0x0f = 2
    · simp only [if_pos h0]
      exact SafeAt.min (fun h => SafeAt.sub (by omega) (by omega))
    simp only [if_neg h0]
    by_cases h1 : (t >>> 4) &&& 0x0f = 1
    · simp only [if_pos h1]
      exact SafeAt.min (fun h => SafeAt.sub (by omega) (by omega))
    simp only [if_neg h1]
    exact SafeAt.const (fun h => nomatch h)

theorem nodeID_safe (d : Bytes) : SafeAt (fun sp => nodeIDOf ⟨d, sp⟩) := by
  unfold nodeIDOf
  refine SafeAt.min (fun h => ?_)
  match d, h with
  | t :: r, h =>
    have e : ∀ sp, Slice.subFrom ⟨t :: r, sp⟩ 1 = .ok ⟨r, sp⟩ := by
      intro sp
      unfold Slice.subFrom Slice.sub Slice.len Slice.cap
      rw [if_pos ⟨by simp, by simp⟩]
      simp
    have e2 : ∀ sp, Slice.idx ⟨t :: r, sp⟩ 0 = .ok t := fun _ => rfl
    simp only [e, e2]
    show SafeAt (fun sp => if t = 0 then _ else _)
    by_cases h0 : t = 0
    · simp only [if_pos h0]
      exact SafeAt.const (fun h => nomatch h)
    simp only [if_neg h0]
    by_cases h1 : t = 1
    · simp only [if_pos h1]
      exact SafeAt.const (fun h => nomatch h)
    simp only [if_neg h1]
    by_cases h2 : t = 2
    · simp only [if_pos h2]
      exact (SafeAt.const (Text.decodeFQDN_safe r)).bind (fun _ h => nomatch h)
    simp only [if_neg h2]
    exact SafeAt.const (fun h => nomatch h)

theorem tsnBridgeID_safe (d : Bytes) (h : 1 ≤ d.length) : SafeAt (fun sp => tsnBridgeIDOf ⟨d, sp⟩) := by
  match d, h with
  | t :: r, _ =>
    unfold tsnBridgeIDOf
    show SafeAt (fun sp => if (!has1stBit t) = true then _ else _)
    refine SafeAt.ite (by exact fun h => nomatch h) (fun _ => ?_)
    show SafeAt (fun sp => if (t :: r).length ≠ 7 ∧ (t :: r).length < 9 then _ else _)
    refine SafeAt.ite eof_ne_panic (fun h => ?_)
    have e : ∀ n sp, n ≤ (t :: r).length → 1 ≤ n → Slice.sub ⟨t :: r, sp⟩ 1 n >>= (fun x => Res.ok (some x.data))
        = Res.ok (some (((t :: r).take n).drop 1)) := by
      intro n sp h1 h2
      have := sub_inside (t :: r) sp h2 h1
      cases hs : Slice.sub ⟨t :: r, sp⟩ 1 n with
      | ok x =>
        rw [hs] at this
        have : x.data = _ := Res.ok.inj this
        show Res.ok (some x.data) = _
        rw [this]
      | err x => rw [hs] at this; cases this
      | panic => rw [hs] at this; cases this
    by_cases h7 : (t :: r).length = 7
    · show SafeAt (fun sp => if (t :: r).length = 7 then _ else _)
      rw [funext (fun sp => if_pos h7)]
      rw [funext (fun sp => e 7 sp (by omega) (by omega))]
      exact SafeAt.const (fun h => nomatch h)
    · show SafeAt (fun sp => if (t :: r).length = 7 then _ else _)
      rw [funext (fun sp => if_neg h7)]
      rw [funext (fun sp => e 9 sp (by omega) (by omega))]
      exact SafeAt.const (fun h => nomatch h)

theorem valueAsUint8_safe (g : IEType → Bool) (i : IE) : i.valueAsUint8 g ≠ .panic := by
  unfold IE.valueAsUint8 index
  split
  · exact fun h => nomatch h
  · split
    · exact fun h => nomatch h
    · rename_i h
      rw [List.getElem?_eq_getElem (by omega)]
      exact fun h => nomatch h

theorem slice_safe {b : Bytes} {lo hi : Nat} (h1 : lo ≤ hi) (h2 : hi ≤ b.length) {α : Type} {k : Bytes → Res α}
    (hk : ∀ x, k x ≠ .panic) : (slice b lo hi >>= k) ≠ .panic := by
  rw [slice_ok b lo hi h1 h2]
  exact hk _

theorem valueAsUint16_safe (g : IEType → Bool) (i : IE) : i.valueAsUint16 g ≠ .panic := by
  unfold IE.valueAsUint16
  split
  · exact fun h => nomatch h
  · split
    · exact fun h => nomatch h
    · exact slice_safe (by omega) (by omega) (fun _ h => nomatch h)
theorem valueAsUint32_safe (g : IEType → Bool) (i : IE) : i.valueAsUint32 g ≠ .panic := by
  unfold IE.valueAsUint32
  split
  · exact fun h => nomatch h
  · split
    · exact fun h => nomatch h
    · exact slice_safe (by omega) (by omega) (fun _ h => nomatch h)
theorem valueAsUint64_safe (g : IEType → Bool) (i : IE) : i.valueAsUint64 g ≠ .panic := by
  unfold IE.valueAsUint64
  split
  · exact fun h => nomatch h
  · split
    · exact fun h => nomatch h
    · exact slice_safe (by omega) (by omega) (fun _ h => nomatch h)
theorem valueAsString_safe (g : IEType → Bool) (i : IE) : i.valueAsString g ≠ .panic := by
  unfold IE.valueAsString
  split <;> exact fun h => nomatch h

/-- From the stated payload length on, the expression returns a value or an error that does not depend on the bytes
behind the payload. -/
theorem leaf_safe (g : IEType → Bool) (l : Leaf) (i : IE) (n : Nat) (hn : l.need = some n) (h : n ≤ i.payload.length) :
    SafeAt (fun sp => l.run g i sp) := by
  cases l <;> first | (simp only [Leaf.need, Option.some.injEq, reduceCtorEq] at hn) | skip
  case ies => exact (SafeAt.const (C03_parse_total g i.payload).2).map _
  case u8 => exact (SafeAt.const (valueAsUint8_safe g i)).map _
  case u16 => exact (SafeAt.const (valueAsUint16_safe g i)).map _
  case u32 => exact (SafeAt.const (valueAsUint32_safe g i)).map _
  case u64 => exact (SafeAt.const (valueAsUint64_safe g i)).map _
  case str => exact (SafeAt.const (valueAsString_safe g i)).map _
  case fqdn => exact SafeAt.ite eof_ne_panic (fun _ => (SafeAt.const (Text.decodeFQDN_safe _)).map _)
  case timestamp =>
    exact SafeAt.ite eof_ne_panic (fun _ => SafeAt.min
      (fun h => (SafeAt.u32At (by simpa using h)).map _))
  case payload => exact SafeAt.const (fun h => nomatch h)
  case payloadMin m => exact SafeAt.min (fun _ => SafeAt.const (fun h => nomatch h))
  case sec32 => exact (SafeAt.u32At (by omega)).map _
  case sec32Min => exact SafeAt.min (fun h => (SafeAt.u32At (by simpa using h)).map _)
  case ms32 => exact (SafeAt.u32At (by omega)).map _
  case sec16 => exact (SafeAt.u16At (by omega)).map _
  case ns64 => exact (SafeAt.u64At (by omega)).map _
  case timer => exact (SafeAt.idx (by omega)).map _
  case timerMin => exact SafeAt.min (fun h => (SafeAt.idx (by omega)).map _)
  case usageReports => exact SafeAt.min (fun h => (SafeAt.u16At (by simpa using h)).map _)
  case delay50 => exact (SafeAt.idx (by omega)).map _
  case byteMin m k =>
    refine SafeAt.min (fun h' => (SafeAt.idx ?_).map _)
    by_cases hk : k < m
    · omega
    · rw [if_neg hk] at hn
      cases hn
      omega
  case mask m => exact (SafeAt.idx (by omega)).map _
  case maskMin m => exact SafeAt.min (fun h => (SafeAt.idx (by omega)).map _)
  case ambiguous => exact SafeAt.const (fun h => nomatch h)
  case failedRule => exact (failedRule_safe _).map _
  case nodeIDType => exact (SafeAt.idx (by omega)).map _
  case nodeAddress => exact (nodeAddress_safe _ (by omega)).map _
  case exponent => exact (SafeAt.u32At (by omega)).map _
  case «prefix» m =>
    subst hn
    intro sp
    have e : ∀ sp, Leaf.run g (.prefix m) i sp = .ok (.bytes ((i.payload.take m).drop 0)) := by
      intro sp
      have := sub_inside i.payload sp (Nat.zero_le m) h
      show (Slice.sub ⟨i.payload, sp⟩ 0 m >>= fun x => Res.ok (Val.bytes x.data)) = _
      cases hs : Slice.sub ⟨i.payload, sp⟩ 0 m with
      | ok x =>
        rw [hs] at this
        have : x.data = _ := Res.ok.inj this
        show Res.ok (Val.bytes x.data) = _
        rw [this]
      | err x => rw [hs] at this; cases this
      | panic => rw [hs] at this; cases this
    simp only [e]
    exact ⟨fun h => (nomatch h), fun _ => trivial⟩
  case nodeID => exact nodeID_safe _
  case tsnBridgeID => exact (tsnBridgeID_safe _ (by omega)).map _
  case volume => exact (SafeAt.codec C41_Volume C42_Volume _).map _
  case volumeMeasurement => exact (SafeAt.codec C41_VolumeMeasurement C42_VolumeMeasurement _).map _
  case numberOfUEIPAddresses => exact (SafeAt.codec C41_NumberOfUEIPAddresses C42_NumberOfUEIPAddresses _).map _
  case delays => exact (SafeAt.codec C41_Delays C42_Delays _).map _
  case dlFlowLevelMarking => exact (SafeAt.codec C41_DLFlowLevelMarking C42_DLFlowLevelMarking _).map _
  case packetRate => exact (SafeAt.codec C41_PacketRate C42_PacketRate _).map _
  case packetRateStatus => exact (SafeAt.codec C41_PacketRateStatus C42_PacketRateStatus _).map _
  case ip46 => exact (SafeAt.codec C41_IP46 C42_IP46 _).map _
  case fseid => exact (SafeAt.codec C41_FSEID C42_FSEID _).map _
  case fteid => exact (SafeAt.codec C41_FTEID C42_FTEID _).map _
  case mptcpAddressInformation => exact (SafeAt.codec C41_MPTCPAddressInformation C42_MPTCPAddressInformation _).map _
  case ueLinkSpecificIPAddress => exact (SafeAt.codec C41_UELinkSpecificIPAddress C42_UELinkSpecificIPAddress _).map _
  case ueIPAddress => exact (SafeAt.codec C41_UEIPAddress C42_UEIPAddress _).map _
  case ipMulticastAddress => exact (SafeAt.codec C41_IPMulticastAddress C42_IPMulticastAddress _).map _
  case headerEnrichment => exact (SafeAt.codec C41_HeaderEnrichment C42_HeaderEnrichment _).map _
  case tag => exact (SafeAt.codec C41_Tag C42_Tag _).map _
  case macAddress => exact (SafeAt.codec C41_MACAddress C42_MACAddress _).map _
  case pmfAddressInformation => exact (SafeAt.codec C41_PMFAddressInformation C42_PMFAddressInformation _).map _
  case redirectInformation => exact (SafeAt.codec C41_RedirectInformation C42_RedirectInformation _).map _
  case userID => exact (SafeAt.codec C41_UserID C42_UserID _).map _

end Pfcp
