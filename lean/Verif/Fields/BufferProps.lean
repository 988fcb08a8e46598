/-
C71: `MarshalTo` of a structured value in a buffer that the caller supplies.

A caller hands `MarshalTo` a slice of their own: it may hold anything, be too short, and be a window on a larger array.
The contract of such a method is that of `io` everywhere: what `Marshal` returns lands at the front, the rest of the
slice and what lies behind it stay as they are, and a slice too short is reported as an error.
-/
import Verif.Fields.Buffer
import Verif.Fields.Addr
import Verif.Fields.Addr2
import Verif.Fields.Volume
import Verif.Fields.Counters
import Verif.Fields.Misc4

namespace Pfcp
namespace Fields

/-- The contract in full. `m` is what `Marshal` returns, `to` is `MarshalTo`. -/
def Bounded (m : Res Bytes) (to : Slice → Res Slice) : Prop :=
  ∃ bs, m = .ok bs ∧ ∀ b : Slice, to b =
    if bs.length ≤ b.data.length then .ok ⟨bs ++ b.data.drop bs.length, b.spare⟩ else .err .unexpectedEOF

/-- The part about slices long enough. -/
def Fits (m : Res Bytes) (to : Slice → Res Slice) : Prop :=
  ∃ bs, m = .ok bs ∧ ∀ b : Slice, bs.length ≤ b.data.length → to b = .ok ⟨bs ++ b.data.drop bs.length, b.spare⟩

/-- Slices too short: an error below `n` octets, and a panic from there on (slices at the end of their array). -/
def CrashesFrom (n : Nat) (m : Res Bytes) (to : Slice → Res Slice) : Prop :=
  ∃ bs, m = .ok bs ∧ ∀ d : Bytes, d.length < bs.length →
    to ⟨d, []⟩ = if d.length < n then .err .unexpectedEOF else .panic

theorem Bounded.fits {m : Res Bytes} {to : Slice → Res Slice} (h : Bounded m to) : Fits m to := by
  obtain ⟨bs, h1, h2⟩ := h
  exact ⟨bs, h1, fun b hb => by rw [h2 b, if_pos hb]⟩

theorem Bounded.of {m : Res Bytes} {k n : Nat} {w : W} {bs : Bytes} (hm : m = .ok bs) (h : W.Exact k w bs)
    (hk : k ≤ n) (hn : n ≤ bs.length) : Bounded m (W.run (W.minLen n ;; w)) :=
  ⟨bs, hm, fun b => h.run hk hn b⟩

theorem Fits.of {m : Res Bytes} {n : Nat} {w : W} {bs : Bytes} (hm : m = .ok bs) (h : W.Lays w bs)
    (hn : n ≤ bs.length) : Fits m (W.run (W.minLen n ;; w)) :=
  ⟨bs, hm, fun _ hb => h.run hn hb⟩

theorem CrashesFrom.of {m : Res Bytes} {n : Nat} {w : W} {bs : Bytes} (hm : m = .ok bs) (h : W.Loose w bs)
    (hn : n ≤ bs.length) : CrashesFrom n m (W.run (W.minLen n ;; w)) :=
  ⟨bs, hm, fun d hd => by rw [h.run hn d, if_neg (by omega)]⟩

/-! ### Kept in full: every piece is checked -/

/-- alternative-smf-ip-address.go :130-154, cp-pfcp-entity-ip-address.go :142-166. -/
theorem C71_IP46_bounded (f : IP46) (h : f.Valid) : Bounded (IP46.codec.marshal f) f.marshalW.run :=
  Bounded.of (IP46.emits f h) (W.Exact.pre (W.Lays.u8 _) (W.Exact.seq (W.Exact.ip4 rfl h.1)
    (W.Exact.tail (W.Exact.ip16 rfl h.2)))) (Nat.le_refl 1) (by simp [IP46.enc])

example : (IP46.new (some [1, 2, 3, 4]) none).Valid ∧
    (IP46.new (some [1, 2, 3, 4]) none).marshalW.run ⟨[9, 9, 9, 9, 9, 9], [7]⟩
      = .ok ⟨[2, 1, 2, 3, 4, 9], [7]⟩ ∧
    (IP46.new (some [1, 2, 3, 4]) none).marshalW.run ⟨[9, 9, 9, 9], [7, 7]⟩ = .err .unexpectedEOF := by
  refine ⟨⟨?_, IP.none_is16⟩, by decide +kernel, by decide +kernel⟩
  rintro a ⟨⟩; exact Or.inl rfl

/-- f-seid.go :136-164. -/
theorem C71_FSEID_bounded (f : FSEID) (h : f.Valid) (ha : f.Agree) : Bounded (FSEID.codec.marshal f) f.marshalW.run := by
  refine Bounded.of (FSEID.emits f h ha) (W.Exact.pre (W.Lays.u8 _) (W.Exact.pre (W.Lays.put _)
    (W.Exact.seq (W.Exact.ip4 ?_ h.1) (W.Exact.tail (W.Exact.ip16 ?_ h.2))))) (by simp) (by simp [FSEID.enc])
  · rw [ha.1, Bool.and_self]
  · rw [ha.2, Bool.and_self]

/-- f-teid.go :243-283. -/
theorem C71_FTEID_bounded (f : FTEID) (h : f.Ready) : Bounded (FTEID.codec.marshal f) f.marshalW.run := by
  have key : W.Exact 0 (if FTEID.hasCh f.flags then W.opt (FTEID.hasChID f.flags) (W.need 1 ;; W.u8 f.chid)
      else W.need 4 ;; W.put (be32 f.teid) ;;
        W.ip4 (FTEID.hasIPv4 f.flags && f.v4.isSome) f.v4 ;; W.ip16 (FTEID.hasIPv6 f.flags && f.v6.isSome) f.v6)
      (if FTEID.hasCh f.flags then (if FTEID.hasChID f.flags then [f.chid] else []) ++ [] else
    be32 f.teid ++ (wire4 (f.v4.when (FTEID.hasIPv4 f.flags)) ++ (wire16 (f.v6.when (FTEID.hasIPv6 f.flags)) ++ []))) := by
    cases hc : FTEID.hasCh f.flags
    · obtain ⟨h4, h6⟩ := h hc
      simp only [Bool.false_eq_true, if_false]
      have e4 : (FTEID.hasIPv4 f.flags && f.v4.isSome) = FTEID.hasIPv4 f.flags := by
        cases hb : FTEID.hasIPv4 f.flags
        · rfl
        · rw [(h4 hb).1]; rfl
      have e6 : (FTEID.hasIPv6 f.flags && f.v6.isSome) = FTEID.hasIPv6 f.flags := by
        cases hb : FTEID.hasIPv6 f.flags
        · rfl
        · rw [(h6 hb).1]; rfl
      rw [e4, e6]
      exact W.Exact.piece (W.Lays.put _) (by simp) (W.Exact.seq (W.Exact.when4 (fun e => (h4 e).1) (fun e => (h4 e).2))
        (W.Exact.tail (W.Exact.when16 (fun e => (h6 e).1) (fun e => (h6 e).2))))
    · simp only [if_true]
      exact W.Exact.tail (W.Exact.opt fun _ => W.Exact.one (W.Lays.u8 _) rfl)
  exact Bounded.of (FTEID.emits f h) (W.Exact.pre (W.Lays.u8 _) key) (Nat.le_refl 1) (by simp [FTEID.enc])

/-- mptcp-address-information.go :165-192. -/
theorem C71_MPTCPAddressInformation_bounded (f : MPTCPAddressInformation) (h : f.Valid) (ha : f.Agree) :
    Bounded (MPTCPAddressInformation.codec.marshal f) f.marshalW.run :=
  Bounded.of (MPTCPAddressInformation.emits f h ha) (W.Exact.pre (W.Lays.u8 _) (W.Exact.pre (W.Lays.u8 _)
    (W.Exact.pre (W.Lays.put _) (W.Exact.seq (W.Exact.ip4 ha.1 h.1) (W.Exact.tail (W.Exact.ip16 ha.2 h.2))))))
    (by simp) (by simp [MPTCPAddressInformation.enc])

/-- ue-link-specific-ip-address.go :198-239. -/
theorem C71_UELinkSpecificIPAddress_bounded (f : UELinkSpecificIPAddress) (h : f.Valid) (ha : f.Agree) :
    Bounded (UELinkSpecificIPAddress.codec.marshal f) f.marshalW.run := by
  have he := UELinkSpecificIPAddress.emits f h ha
  obtain ⟨h1, h2, h3, h4⟩ := h
  obtain ⟨a1, a2, a3, a4⟩ := ha
  exact Bounded.of he (W.Exact.pre (W.Lays.u8 _) (W.Exact.seq (W.Exact.ip4 a1 h1) (W.Exact.seq (W.Exact.ip16 a2 h2)
    (W.Exact.seq (W.Exact.ip4 a3 h3) (W.Exact.tail (W.Exact.ip16 a4 h4)))))) (Nat.le_refl 1)
    (by simp [UELinkSpecificIPAddress.enc])

/-- ip-multicast-address.go :243-290. -/
theorem C71_IPMulticastAddress_bounded (f : IPMulticastAddress) (h : f.Valid) (ha : f.Agree) :
    Bounded (IPMulticastAddress.codec.marshal f) f.marshalW.run := by
  refine Bounded.of (IPMulticastAddress.emits f h ha) (W.Exact.pre (k := 0) (W.Lays.u8 _) ?_) (Nat.le_refl 1)
    (by simp [IPMulticastAddress.enc])
  obtain ⟨h1, h2, h3, h4⟩ := h
  unfold IPMulticastAddress.Agree at ha
  cases hc : IPMulticastAddress.hasAny f.flags
  · simp only [hc, Bool.false_eq_true, if_false] at ha ⊢
    obtain ⟨a1, a2, a3, a4⟩ := ha
    exact W.Exact.seq (W.Exact.ip4 a1 h1) (W.Exact.seq (W.Exact.ip16 a2 h2)
      (W.Exact.seq (W.Exact.ip4 a3 h3) (W.Exact.tail (W.Exact.ip16 a4 h4))))
  · simp only [hc, if_true] at ha ⊢
    obtain ⟨a1, a2, a3, a4⟩ := ha
    rw [a1, a2, a3, a4]
    exact W.Exact.nop

/-- volume-quota.go :173-206, volume-threshold.go :173-206, subsequent-volume-quota.go :184-217,
subsequent-volume-threshold.go :184-217. -/
theorem C71_Volume_bounded (f : Volume) : Bounded (Volume.codec.marshal f) f.marshalW.run :=
  Bounded.of (Volume.emits f) (W.Exact.pre (W.Lays.u8 _)
    (W.Exact.seq (W.Exact.opt fun _ => W.Exact.one (W.Lays.put _) (by simp))
    (W.Exact.seq (W.Exact.opt fun _ => W.Exact.one (W.Lays.put _) (by simp))
    (W.Exact.tail (W.Exact.opt fun _ => W.Exact.one (W.Lays.put _) (by simp)))))) (Nat.le_refl 1) (by simp [Volume.enc])

example : (⟨5, 1, 0, 2⟩ : Volume).marshalW.run ⟨List.replicate 18 9, [7]⟩
      = .ok ⟨[5, 0, 0, 0, 0, 0, 0, 0, 1, 0, 0, 0, 0, 0, 0, 0, 2, 9], [7]⟩ ∧
    (⟨5, 1, 0, 2⟩ : Volume).marshalW.run ⟨List.replicate 16 9, [7]⟩ = .err .unexpectedEOF := by
  constructor <;> decide +kernel

/-- volume-measurement.go :233-290. -/
theorem C71_VolumeMeasurement_bounded (f : VolumeMeasurement) :
    Bounded (VolumeMeasurement.codec.marshal f) f.marshalW.run :=
  Bounded.of (VolumeMeasurement.emits f) (W.Exact.pre (W.Lays.u8 _)
    (W.Exact.seq (W.Exact.opt fun _ => W.Exact.one (W.Lays.put _) (by simp))
    (W.Exact.seq (W.Exact.opt fun _ => W.Exact.one (W.Lays.put _) (by simp))
    (W.Exact.seq (W.Exact.opt fun _ => W.Exact.one (W.Lays.put _) (by simp))
    (W.Exact.seq (W.Exact.opt fun _ => W.Exact.one (W.Lays.put _) (by simp))
    (W.Exact.seq (W.Exact.opt fun _ => W.Exact.one (W.Lays.put _) (by simp))
    (W.Exact.tail (W.Exact.opt fun _ => W.Exact.one (W.Lays.put _) (by simp))))))))) (Nat.le_refl 1)
    (by simp [VolumeMeasurement.enc])

/-- number-of-ue-ip-addresses.go :133-158. -/
theorem C71_NumberOfUEIPAddresses_bounded (f : NumberOfUEIPAddresses) :
    Bounded (NumberOfUEIPAddresses.codec.marshal f) f.marshalW.run :=
  Bounded.of (NumberOfUEIPAddresses.emits f) (W.Exact.pre (W.Lays.u8 _)
    (W.Exact.seq (W.Exact.opt fun _ => W.Exact.one (W.Lays.put _) (by simp))
    (W.Exact.tail (W.Exact.opt fun _ => W.Exact.one (W.Lays.put _) (by simp))))) (Nat.le_refl 1)
    (by simp [NumberOfUEIPAddresses.enc])

/-- packet-delay-thresholds.go :153-186, qos-monitoring-measurement.go :163-196. -/
theorem C71_Delays_bounded (f : Delays) : Bounded (Delays.codec.marshal f) f.marshalW.run :=
  Bounded.of (Delays.emits f) (W.Exact.pre (W.Lays.u8 _)
    (W.Exact.seq (W.Exact.opt fun _ => W.Exact.one (W.Lays.put _) (by simp))
    (W.Exact.seq (W.Exact.opt fun _ => W.Exact.one (W.Lays.put _) (by simp))
    (W.Exact.tail (W.Exact.opt fun _ => W.Exact.one (W.Lays.put _) (by simp)))))) (Nat.le_refl 1) (by simp [Delays.enc])

/-- packet-rate-status.go :206-253. -/
theorem C71_PacketRateStatus_bounded (f : PacketRateStatus) :
    Bounded (PacketRateStatus.codec.marshal f) f.marshalW.run := by
  refine Bounded.of (PacketRateStatus.emits f) (W.Exact.pre (W.Lays.u8 _)
    (W.Exact.seq (W.Exact.opt fun _ => W.Exact.piece (W.Lays.put _) (by simp)
      (W.Exact.tail (W.Exact.opt fun _ => W.Exact.one (W.Lays.put _) (by simp))))
    (W.Exact.seq (W.Exact.opt fun _ => W.Exact.piece (W.Lays.put _) (by simp)
      (W.Exact.tail (W.Exact.opt fun _ => W.Exact.one (W.Lays.put _) (by simp))))
    (W.Exact.tail (W.Exact.one (W.Lays.put _) (by simp)))))) (Nat.le_refl 1) (by simp [PacketRateStatus.enc])

/-- One MAC address. -/
theorem W.Exact.mac {c : Bool} {m : Option Bytes} (h : c = m.isSome ∧ MACAddress.Long m) :
    W.Exact 0 (W.mac c m) (MACAddress.wire m) := by
  cases m with
  | none =>
    have hc : c = false := h.1
    subst hc
    exact W.Exact.nop
  | some a =>
    have hc : c = true := h.1
    subst hc
    have hl := h.2 a rfl
    unfold W.mac
    simp only [Option.getD_some]
    rw [if_neg (by omega)]
    have hw : (a.take 6).length = 6 := by rw [List.length_take]; omega
    exact W.Exact.one (W.Lays.copy _ hw) hw

/-- mac-address.go :204-245. -/
theorem C71_MACAddress_bounded (f : MACAddress) (h : f.Agree) : Bounded (MACAddress.codec.marshal f) f.marshalW.run := by
  have he := MACAddress.emits f h
  obtain ⟨h1, h2, h3, h4⟩ := h
  exact Bounded.of he (W.Exact.pre (W.Lays.u8 _) (W.Exact.seq (W.Exact.mac h1) (W.Exact.seq (W.Exact.mac h2)
    (W.Exact.seq (W.Exact.mac h3) (W.Exact.tail (W.Exact.mac h4)))))) (Nat.le_refl 1) (by simp [MACAddress.enc])

/-- pmf-address-information.go :196-245, when both MAC addresses are given. -/
theorem C71_PMFAddressInformation_bounded (f : PMFAddressInformation) (h : f.Agree) (h1 : f.mac1.val.length = 6)
    (h2 : f.mac2.val.length = 6) : Bounded (PMFAddressInformation.codec.marshal f) f.marshalW.run := by
  have he := PMFAddressInformation.emits f h
  obtain ⟨⟨a1, a2⟩, ⟨a3, a4⟩, _, _⟩ := h
  have m1 : PMFAddressInformation.mac6 f.mac1 = f.mac1.val := by simp [PMFAddressInformation.mac6, h1]
  have m2 : PMFAddressInformation.mac6 f.mac2 = f.mac2.val := by simp [PMFAddressInformation.mac6, h2]
  refine Bounded.of he (W.Exact.pre (W.Lays.u8 _) (W.Exact.seq (W.Exact.ip4 a1 a2) (W.Exact.seq (W.Exact.ip16 a3 a4) ?_)))
    (Nat.le_refl 1) (by simp [PMFAddressInformation.enc])
  rw [m1, m2]
  exact W.Exact.piece (W.Lays.put _) (by simp) (W.Exact.piece (W.Lays.put _) (by simp)
    (W.Exact.piece (W.Lays.copy _ h1) h1 (W.Exact.tail (W.Exact.one (W.Lays.copy _ h2) h2))))

/-! ### Slices long enough, where nothing is checked; and what a shorter one does -/

theorem UEIPAddress.loose (f : UEIPAddress) (h : f.Agree) : ∃ w, f.marshalW = (W.minLen 1 ;; w) ∧ W.Loose w f.enc := by
  obtain ⟨⟨h1, h2⟩, h3, h4⟩ := h
  exact ⟨_, rfl, W.Loose.seq (W.Loose.u8 _) (W.Loose.seq (W.Loose.raw h1 h2) (W.Loose.seq (W.Loose.raw h3 h4)
    (W.Loose.seq (W.Loose.opt fun _ => W.Loose.u8 _) (W.Loose.tail (W.Loose.opt fun _ => W.Loose.u8 _)))))⟩

/-- ue-ip-address.go :273-302. -/
theorem C71_UEIPAddress_fits (f : UEIPAddress) (h : f.Agree) : Fits (UEIPAddress.codec.marshal f) f.marshalW.run := by
  obtain ⟨w, e, hw⟩ := UEIPAddress.loose f h
  rw [e]
  exact Fits.of (UEIPAddress.emits f h) hw.lays (by simp [UEIPAddress.enc])
/-- ue-ip-address.go :273-302. -/
theorem C71_UEIPAddress_crash (f : UEIPAddress) (h : f.Agree) :
    CrashesFrom 1 (UEIPAddress.codec.marshal f) f.marshalW.run := by
  obtain ⟨w, e, hw⟩ := UEIPAddress.loose f h
  rw [e]
  exact CrashesFrom.of (UEIPAddress.emits f h) hw (by simp [UEIPAddress.enc])

example : (⟨2, some [1, 2, 3, 4], none, 0, 0⟩ : UEIPAddress).marshalW.run ⟨[9, 9, 9, 9, 9, 9], [7]⟩
      = .ok ⟨[2, 1, 2, 3, 4, 9], [7]⟩ ∧
    (⟨2, some [1, 2, 3, 4], none, 0, 0⟩ : UEIPAddress).marshalW.run ⟨[9, 9, 9, 9], []⟩ = .panic := by
  constructor <;> decide +kernel

theorem RemoteGTPUPeer.loose (f : RemoteGTPUPeer) (h : f.Ready) :
    ∃ w, f.marshalW = (W.minLen 2 ;; w) ∧ W.Loose w f.enc := by
  obtain ⟨h5, ⟨⟨h1, h2⟩, h3, h4⟩, hd, hn⟩ := h
  refine ⟨_, rfl, W.Loose.seq (W.Loose.u8 _) (W.Loose.seq (W.Loose.raw h1 h2) (W.Loose.seq (W.Loose.raw h3 h4)
    (W.Loose.seq (W.Loose.opt fun e => W.Loose.seq (W.Loose.put _) ?_)
      (W.Loose.tail (W.Loose.opt fun e => W.Loose.seq (W.Loose.put _) ?_)))))⟩
  · rw [hd e]
    exact W.Loose.poke_skip f.di
  · exact W.Loose.copy _ (hn e)

/-- remote-gtp-u-peer.go :218-251. -/
theorem C71_RemoteGTPUPeer_fits (f : RemoteGTPUPeer) (h : f.Ready) (hl : 2 ≤ f.enc.length) :
    Fits (RemoteGTPUPeer.codec.marshal f) f.marshalW.run := by
  obtain ⟨w, e, hw⟩ := RemoteGTPUPeer.loose f h
  rw [e]
  exact Fits.of (RemoteGTPUPeer.emits f h hl) hw.lays hl
/-- remote-gtp-u-peer.go :218-251. -/
theorem C71_RemoteGTPUPeer_crash (f : RemoteGTPUPeer) (h : f.Ready) (hl : 2 ≤ f.enc.length) :
    CrashesFrom 2 (RemoteGTPUPeer.codec.marshal f) f.marshalW.run := by
  obtain ⟨w, e, hw⟩ := RemoteGTPUPeer.loose f h
  rw [e]
  exact CrashesFrom.of (RemoteGTPUPeer.emits f h hl) hw hl

theorem UserPlaneIPResourceInformation.loose (f : UserPlaneIPResourceInformation) (h : f.Agree) :
    ∃ w, f.marshalW = (W.minLen 2 ;; w) ∧ W.Loose w f.enc := by
  obtain ⟨⟨h1, h2⟩, h3, h4⟩ := h
  exact ⟨_, rfl, W.Loose.seq (W.Loose.u8 _) (W.Loose.seq (W.Loose.opt fun _ => W.Loose.u8 _)
    (W.Loose.seq (W.Loose.raw h1 h2) (W.Loose.seq (W.Loose.raw h3 h4)
    (W.Loose.seq (W.Loose.opt fun _ => W.Loose.copy _ rfl) (W.Loose.tail (W.Loose.opt fun _ => W.Loose.u8 _))))))⟩

/-- user-plane-ip-resource-information.go :181-215. -/
theorem C71_UserPlaneIPResourceInformation_fits (f : UserPlaneIPResourceInformation) (h : f.Agree)
    (hl : 2 ≤ f.enc.length) : Fits (UserPlaneIPResourceInformation.codec.marshal f) f.marshalW.run := by
  obtain ⟨w, e, hw⟩ := UserPlaneIPResourceInformation.loose f h
  rw [e]
  exact Fits.of (UserPlaneIPResourceInformation.emits f h hl) hw.lays hl
/-- user-plane-ip-resource-information.go :181-215. -/
theorem C71_UserPlaneIPResourceInformation_crash (f : UserPlaneIPResourceInformation) (h : f.Agree)
    (hl : 2 ≤ f.enc.length) : CrashesFrom 2 (UserPlaneIPResourceInformation.codec.marshal f) f.marshalW.run := by
  obtain ⟨w, e, hw⟩ := UserPlaneIPResourceInformation.loose f h
  rw [e]
  exact CrashesFrom.of (UserPlaneIPResourceInformation.emits f h hl) hw hl

theorem DLFlowLevelMarking.loose (f : DLFlowLevelMarking) : ∃ w, f.marshalW = (W.minLen 2 ;; w) ∧ W.Loose w f.enc :=
  ⟨_, rfl, W.Loose.seq (W.Loose.u8 _) (W.Loose.seq (W.Loose.opt fun _ => W.Loose.put _)
    (W.Loose.tail (W.Loose.opt fun _ => W.Loose.put _)))⟩

/-- dl-flow-level-marking.go :153-172. -/
theorem C71_DLFlowLevelMarking_fits (f : DLFlowLevelMarking) (hl : 2 ≤ f.enc.length) :
    Fits (DLFlowLevelMarking.codec.marshal f) f.marshalW.run := by
  obtain ⟨w, e, hw⟩ := DLFlowLevelMarking.loose f
  rw [e]
  exact Fits.of (DLFlowLevelMarking.emits f hl) hw.lays hl
/-- dl-flow-level-marking.go :153-172. -/
theorem C71_DLFlowLevelMarking_crash (f : DLFlowLevelMarking) (hl : 2 ≤ f.enc.length) :
    CrashesFrom 2 (DLFlowLevelMarking.codec.marshal f) f.marshalW.run := by
  obtain ⟨w, e, hw⟩ := DLFlowLevelMarking.loose f
  rw [e]
  exact CrashesFrom.of (DLFlowLevelMarking.emits f hl) hw hl

theorem PacketRate.loose (f : PacketRate) : ∃ w, f.marshalW = (W.minLen 2 ;; w) ∧ W.Loose w f.enc :=
  ⟨_, rfl, W.Loose.seq (W.Loose.u8 _) (W.Loose.seq (W.Loose.opt fun _ => W.Loose.seq (W.Loose.u8 _) (W.Loose.put _))
    (W.Loose.tail (W.Loose.opt fun _ => W.Loose.seq (W.Loose.u8 _) (W.Loose.put _))))⟩

/-- packet-rate.go :168-189. -/
theorem C71_PacketRate_fits (f : PacketRate) (hl : 2 ≤ f.enc.length) :
    Fits (PacketRate.codec.marshal f) f.marshalW.run := by
  obtain ⟨w, e, hw⟩ := PacketRate.loose f
  rw [e]
  exact Fits.of (PacketRate.emits f hl) hw.lays hl
/-- packet-rate.go :168-189. -/
theorem C71_PacketRate_crash (f : PacketRate) (hl : 2 ≤ f.enc.length) :
    CrashesFrom 2 (PacketRate.codec.marshal f) f.marshalW.run := by
  obtain ⟨w, e, hw⟩ := PacketRate.loose f
  rw [e]
  exact CrashesFrom.of (PacketRate.emits f hl) hw hl

theorem HeaderEnrichment.loose (f : HeaderEnrichment) (h : f.Agree) :
    ∃ w, f.marshalW = (W.minLen 2 ;; w) ∧ W.Loose w f.enc :=
  ⟨_, rfl, W.Loose.seq (W.Loose.u8 _) (W.Loose.seq (W.Loose.u8 _) (W.Loose.seq (W.Loose.copy _ h.1)
    (W.Loose.seq (W.Loose.u8 _) (W.Loose.tail (W.Loose.copy _ h.2)))))⟩

/-- header-enrichment.go :134-153. -/
theorem C71_HeaderEnrichment_fits (f : HeaderEnrichment) (h : f.Agree) :
    Fits (HeaderEnrichment.codec.marshal f) f.marshalW.run := by
  obtain ⟨w, e, hw⟩ := HeaderEnrichment.loose f h
  rw [e]
  exact Fits.of (HeaderEnrichment.emits f h) hw.lays (by simp [HeaderEnrichment.enc])
/-- header-enrichment.go :134-153. -/
theorem C71_HeaderEnrichment_crash (f : HeaderEnrichment) (h : f.Agree) :
    CrashesFrom 2 (HeaderEnrichment.codec.marshal f) f.marshalW.run := by
  obtain ⟨w, e, hw⟩ := HeaderEnrichment.loose f h
  rw [e]
  exact CrashesFrom.of (HeaderEnrichment.emits f h) hw (by simp [HeaderEnrichment.enc])

theorem Tag.loose (f : Tag) : ∃ w, f.marshalW = (W.minLen 1 ;; w) ∧ W.Loose w f.enc :=
  ⟨_, rfl, W.Loose.seq (W.Loose.u8 _) (W.Loose.tail (W.Loose.put _))⟩

/-- c-tag.go :176-187, s-tag.go :176-187. -/
theorem C71_Tag_fits (f : Tag) : Fits (Tag.codec.marshal f) f.marshalW.run := by
  obtain ⟨w, e, hw⟩ := Tag.loose f
  rw [e]
  exact Fits.of (Tag.emits f) hw.lays (by simp [Tag.enc])
/-- c-tag.go :176-187, s-tag.go :176-187. -/
theorem C71_Tag_crash (f : Tag) : CrashesFrom 1 (Tag.codec.marshal f) f.marshalW.run := by
  obtain ⟨w, e, hw⟩ := Tag.loose f
  rw [e]
  exact CrashesFrom.of (Tag.emits f) hw (by simp [Tag.enc])

theorem W.Loose.macs {macs : List Bytes} (h : ∀ m ∈ macs, m.length = 6) :
    W.Loose (MACAddresses.macsW macs) macs.flatten := by
  induction macs with
  | nil => exact W.Loose.nop
  | cons m r ih =>
    rw [List.flatten_cons]
    exact W.Loose.seq (W.Loose.copy m (h m (List.mem_cons_self ..))) (ih fun x hx => h x (List.mem_cons_of_mem _ hx))

theorem MACAddresses.loose (f : MACAddresses) (h : f.Agree) : ∃ w, f.marshalW = (W.minLen 1 ;; w) ∧ W.Loose w f.enc := by
  obtain ⟨h1, h2, h3, h4⟩ := h
  exact ⟨_, rfl, W.Loose.seq (W.Loose.u8 _) (W.Loose.seq (W.Loose.macs h2)
    (W.Loose.seq (W.Loose.u8 _) (W.Loose.seq (W.Loose.copy _ h3) (W.Loose.seq (W.Loose.u8 _)
      (W.Loose.tail (W.Loose.copy _ h4))))))⟩

/-- mac-address-detected.go :157-181, mac-address-removed.go :146-170. -/
theorem C71_MACAddresses_fits (f : MACAddresses) (h : f.Agree) :
    Fits (MACAddresses.codec.marshal f) f.marshalW.run := by
  obtain ⟨w, e, hw⟩ := MACAddresses.loose f h
  rw [e]
  exact Fits.of (MACAddresses.emits f h) hw.lays (by simp [MACAddresses.enc])
/-- mac-address-detected.go :157-181, mac-address-removed.go :146-170. -/
theorem C71_MACAddresses_crash (f : MACAddresses) (h : f.Agree) :
    CrashesFrom 1 (MACAddresses.codec.marshal f) f.marshalW.run := by
  obtain ⟨w, e, hw⟩ := MACAddresses.loose f h
  rw [e]
  exact CrashesFrom.of (MACAddresses.emits f h) hw (by simp [MACAddresses.enc])

theorem W.Loose.digits {n : UInt8} {s v : Bytes} (h : Text.strToSwappedBytes s Text.fillerF = .ok v)
    (hl : v.length = n.toNat) : W.Loose (UserID.digitsW n s) ([n] ++ v) := by
  refine W.Loose.seq (W.Loose.u8 _) ?_
  have e : (fun b o => Text.strToSwappedBytes s Text.fillerF >>= fun v' => W.copy n.toNat v' b o)
      = W.copy n.toNat v := by
    funext b o
    rw [h, Res.ok_bind]
  rw [e]
  exact W.Loose.copy v hl

/-- The digit strings announced encode to as many octets as their length field says. -/
def UserID.Ready (f : UserID) : Prop :=
  (has1stBit f.flags = true → ∃ v, Text.strToSwappedBytes f.imsi Text.fillerF = .ok v ∧ v.length = f.imsiLen.toNat) ∧
  (has2ndBit f.flags = true → ∃ v, Text.strToSwappedBytes f.imei Text.fillerF = .ok v ∧ v.length = f.imeiLen.toNat) ∧
  (has3rdBit f.flags = true → ∃ v, Text.strToSwappedBytes f.msisdn Text.fillerF = .ok v ∧ v.length = f.msisdnLen.toNat) ∧
  (has4thBit f.flags = true → f.nai.length = f.naiLen.toNat)

theorem UserID.loose (f : UserID) (h : f.Ready) : ∃ w bs, f.marshalW = (W.minLen 1 ;; w) ∧ W.Loose w bs ∧
    1 ≤ bs.length ∧ UserID.codec.marshal f = .ok bs := by
  obtain ⟨h1, h2, h3, h4⟩ := h
  have pick : ∀ (c : Bool) (n : UInt8) (s : Bytes), (c = true → ∃ v, Text.strToSwappedBytes s Text.fillerF = .ok v ∧
      v.length = n.toNat) → ∃ bs : Bytes, W.Loose (W.opt c (UserID.digitsW n s)) bs ∧
        bs.length = if c then 1 + n.toNat else 0 := by
    intro c n s hc
    cases c with
    | false => exact ⟨[], W.Loose.nop, rfl⟩
    | true =>
      obtain ⟨v, e1, e2⟩ := hc rfl
      exact ⟨[n] ++ v, W.Loose.digits e1 e2, by simp [e2]; omega⟩
  obtain ⟨b1, e1, l1⟩ := pick _ _ _ h1
  obtain ⟨b2, e2, l2⟩ := pick _ _ _ h2
  obtain ⟨b3, e3, l3⟩ := pick _ _ _ h3
  have hw := W.Loose.seq (W.Loose.u8 f.flags) (W.Loose.seq e1 (W.Loose.seq e2 (W.Loose.seq e3
    (W.Loose.opt (c := has4thBit f.flags) fun hc => W.Loose.seq (W.Loose.u8 f.naiLen) (W.Loose.copy f.nai (h4 hc))))))
  have hlen : ([f.flags] ++ (b1 ++ (b2 ++ (b3 ++ if has4thBit f.flags then [f.naiLen] ++ f.nai else [])))).length
      = f.marshalLen := by
    unfold UserID.marshalLen
    simp only [List.length_append, l1, l2, l3]
    cases has1stBit f.flags <;> cases has2ndBit f.flags <;> cases has3rdBit f.flags <;> cases hc : has4thBit f.flags <;>
      simp <;> try rw [h4 hc]
    all_goals omega
  refine ⟨_, _, rfl, hw, by simp, ?_⟩
  show f.marshalW.marshal f.marshalLen = _
  rw [← hlen]
  exact hw.lays.marshal (by simp)

/-- user-id.go :179-232. -/
theorem C71_UserID_fits (f : UserID) (h : f.Ready) : Fits (UserID.codec.marshal f) f.marshalW.run := by
  obtain ⟨w, bs, e, hw, hl, hm⟩ := UserID.loose f h
  rw [e]
  exact Fits.of hm hw.lays hl
/-- user-id.go :179-232. -/
theorem C71_UserID_crash (f : UserID) (h : f.Ready) : CrashesFrom 1 (UserID.codec.marshal f) f.marshalW.run := by
  obtain ⟨w, bs, e, hw, hl, hm⟩ := UserID.loose f h
  rw [e]
  exact CrashesFrom.of hm hw hl

/-! ### Some pieces checked, some not -/

theorem SourceIPAddress.mixed (f : SourceIPAddress) (h : f.Valid) (ha : f.Agree) (sp : Bytes) :
    ∃ w, f.marshalW = (W.minLen 1 ;; w) ∧
      W.Mixed sp w f.enc fun k => k = 0 ∨ (SourceIPAddress.hasMPL f.flags = true ∧ k + 1 = f.enc.length) := by
  refine ⟨_, rfl, (W.Mixed.seq (W.Mixed.u8 sp _) (W.Mixed.seq ((W.Exact.ip4 ha.1 h.1).mixed sp)
    (W.Mixed.seq ((W.Exact.ip16 ha.2 h.2).mixed sp)
      (W.Mixed.tail (W.Mixed.opt fun _ => W.Mixed.need0 (W.Mixed.u8 sp _)))))).congr ?_⟩
  intro k hk
  simp only [SourceIPAddress.enc, List.length_append, List.length_cons, List.length_nil] at hk ⊢
  cases hc : SourceIPAddress.hasMPL f.flags <;> simp [hc] at hk ⊢ <;> omega

/-- source-ip-address.go :197-230: as it should be on a slice long enough. -/
theorem C71_SourceIPAddress_fits (f : SourceIPAddress) (h : f.Valid) (ha : f.Agree) :
    Fits (SourceIPAddress.codec.marshal f) f.marshalW.run := by
  obtain ⟨w, e, hw⟩ := SourceIPAddress.mixed f h ha []
  rw [e]
  exact Fits.of (SourceIPAddress.emits f h ha) hw.lays (by simp [SourceIPAddress.enc])

/-- source-ip-address.go :222-227: the check before the mask prefix length asks for `offset` octets, not `offset+1`.
A slice that is too short is reported, except one that is short of exactly that octet: there the method panics. -/
theorem C71_SourceIPAddress_crash (f : SourceIPAddress) (h : f.Valid) (ha : f.Agree) :
    ∃ bs, SourceIPAddress.codec.marshal f = .ok bs ∧ ∀ b : Slice, b.data.length < bs.length → f.marshalW.run b =
      if SourceIPAddress.hasMPL f.flags = true ∧ b.data.length + 1 = bs.length then .panic else .err .unexpectedEOF := by
  refine ⟨_, SourceIPAddress.emits f h ha, fun b hb => ?_⟩
  obtain ⟨d, sp⟩ := b
  obtain ⟨w, e, hw⟩ := SourceIPAddress.mixed f h ha sp
  rw [e, hw.out hb]
  simp only at hb ⊢
  have hc : (1 ≤ d.length ∧ (d.length = 0 ∨ (SourceIPAddress.hasMPL f.flags = true ∧ d.length + 1 = f.enc.length))) ↔
      (SourceIPAddress.hasMPL f.flags = true ∧ d.length + 1 = f.enc.length) := by
    constructor
    · rintro ⟨h1, h2 | h2⟩
      · omega
      · exact h2
    · intro h2
      have : 1 < f.enc.length := by
        simp only [SourceIPAddress.enc, List.length_append, List.length_cons, List.length_nil, h2.1, if_true]; omega
      exact ⟨by omega, Or.inr h2⟩
  simp only [hc]

example : (⟨4, none, none, 24⟩ : SourceIPAddress).marshalW.run ⟨[9], []⟩ = .panic ∧
    (⟨4, none, none, 24⟩ : SourceIPAddress).marshalW.run ⟨[9, 9], []⟩ = .ok ⟨[4, 24], []⟩ := by
  constructor <;> decide +kernel

theorem TraceInformation.mixed {p : Bytes} (hp : p.length = 3) (f : TraceInformation) (h : f.Agree)
    (he : Text.encodePLMN f.mcc f.mnc = .ok p) (sp : Bytes) :
    ∃ w, f.marshalW = (W.minLen 6 ;; w) ∧ W.Lays w (f.enc p) ∧ ∀ d : Bytes, 6 ≤ d.length → d.length < (f.enc p).length →
      (W.minLen 6 ;; w).run ⟨d, sp⟩ = if d.length = 6 ∨ d.length = 7 + f.events.length ∨
        d.length = 8 + f.events.length ∨ d.length = 9 + f.events.length + f.ifs.length then .panic
      else .err .unexpectedEOF := by
  obtain ⟨h1, h2, h3, h4⟩ := h
  have hplmn : W.Lays (TraceInformation.plmnW f.mcc f.mnc) p := by
    have e : TraceInformation.plmnW f.mcc f.mnc = W.copy 3 p := by
      funext b o
      unfold TraceInformation.plmnW
      rw [he, Res.ok_bind]
    rw [e]
    exact W.Lays.copy p hp
  have rest : W.Mixed sp (W.need 0 ;; W.u8 f.eventsLen ;; W.need f.eventsLen.toNat ;; W.copy f.eventsLen.toNat f.events ;;
      W.need 0 ;; W.u8 f.depth ;;
      W.need 0 ;; W.u8 f.ifsLen ;; W.need f.ifsLen.toNat ;; W.copy f.ifsLen.toNat f.ifs ;;
      W.need 0 ;; W.u8 f.ipLen ;; W.need f.ipLen.toNat ;; W.copy f.ipLen.toNat f.ip.val)
      ([f.eventsLen] ++ (f.events ++ ([f.depth] ++ ([f.ifsLen] ++ (f.ifs ++ ([f.ipLen] ++ f.ip.val))))))
      fun k => k = 0 ∨ k = 1 + f.events.length ∨ k = 2 + f.events.length ∨ k = 3 + f.events.length + f.ifs.length := by
    refine W.Mixed.congr (W.Mixed.octet (W.Mixed.piece (W.Lays.copy _ h2) h2 (W.Mixed.octet (W.Mixed.octet
      (W.Mixed.piece (W.Lays.copy _ h3) h3 (W.Mixed.octet ((W.Exact.one (W.Lays.copy _ h4) h4).mixed sp))))))) ?_
    intro k hk
    simp only [List.length_append, List.length_cons, List.length_nil, and_true, and_false, false_or, or_false] at hk ⊢
    omega
  have hpre := W.Lays.seq hplmn (W.Lays.copy f.id h1)
  have e : f.enc p = (p ++ f.id) ++ ([f.eventsLen] ++ (f.events ++ ([f.depth] ++ ([f.ifsLen] ++ (f.ifs ++ ([f.ipLen] ++
      f.ip.val)))))) := by
    simp [TraceInformation.enc]
  refine ⟨_, rfl, ?_, fun d hd hl => ?_⟩
  · rw [e, ← W.seq_assoc]
    exact hpre.seq rest.lays
  · rw [e] at hl
    have h6 : (p ++ f.id).length = 6 := by rw [List.length_append, hp, h1]
    rw [List.length_append, h6] at hl
    have := W.Mixed.preOut (n := 6) hpre rest hd (by omega) (by omega)
    rw [W.seq_assoc] at this
    rw [this, h6]
    have hc : (d.length - 6 = 0 ∨ d.length - 6 = 1 + f.events.length ∨ d.length - 6 = 2 + f.events.length ∨
        d.length - 6 = 3 + f.events.length + f.ifs.length) ↔ (d.length = 6 ∨ d.length = 7 + f.events.length ∨
        d.length = 8 + f.events.length ∨ d.length = 9 + f.events.length + f.ifs.length) := by omega
    simp only [hc]

/-- trace-information.go :156-212: as it should be on a slice long enough. -/
theorem C71_TraceInformation_fits {p : Bytes} (hp : p.length = 3) (f : TraceInformation) (h : f.Agree)
    (he : Text.encodePLMN f.mcc f.mnc = .ok p) : Fits (TraceInformation.codec.marshal f) f.marshalW.run := by
  obtain ⟨w, e, hw, _⟩ := TraceInformation.mixed hp f h he []
  rw [e]
  refine Fits.of (TraceInformation.emits hp f h he) hw ?_
  simp only [TraceInformation.enc, List.length_append, hp, h.1]
  omega

/-- trace-information.go :156-212: the checks before the four single octets ask for `offset` octets, not `offset+1`.
A slice that is too short is reported, except one that ends right before one of these: there the method panics. -/
theorem C71_TraceInformation_crash {p : Bytes} (hp : p.length = 3) (f : TraceInformation) (h : f.Agree)
    (he : Text.encodePLMN f.mcc f.mnc = .ok p) :
    ∃ bs, TraceInformation.codec.marshal f = .ok bs ∧ ∀ b : Slice, b.data.length < bs.length → f.marshalW.run b =
      if b.data.length = 6 ∨ b.data.length = 7 + f.events.length ∨ b.data.length = 8 + f.events.length ∨
        b.data.length = 9 + f.events.length + f.ifs.length then .panic else .err .unexpectedEOF := by
  refine ⟨_, TraceInformation.emits hp f h he, fun b hb => ?_⟩
  obtain ⟨d, sp⟩ := b
  obtain ⟨w, e, _, hw⟩ := TraceInformation.mixed hp f h he sp
  rw [e]
  by_cases h6 : 6 ≤ d.length
  · exact hw d h6 hb
  · simp only at hb ⊢
    rw [W.short (by simp only; omega), if_neg (by omega)]

example : let f : TraceInformation := ⟨[48, 48, 49], [48, 49], [1, 2, 3], 1, [4], 5, 1, [6], 4, some [1, 2, 3, 4]⟩
    f.Agree ∧ (∃ p, Text.encodePLMN f.mcc f.mnc = .ok p ∧ p.length = 3) ∧
    f.marshalW.run ⟨List.replicate 6 9, [9]⟩ = .panic ∧
    f.marshalW.run ⟨List.replicate 7 9, [9]⟩ = .err .unexpectedEOF ∧
    f.marshalW.run ⟨List.replicate 8 9, [9]⟩ = .panic ∧ f.marshalW.run ⟨List.replicate 11 9, [9]⟩ = .panic ∧
    f.marshalW.run ⟨List.replicate 12 9, [9]⟩ = .err .unexpectedEOF := by
  refine ⟨⟨rfl, rfl, rfl, rfl⟩, ⟨[0, 241, 16], by decide +kernel, rfl⟩, ?_, ?_, ?_, ?_, ?_⟩ <;> decide +kernel

/-- What is left of a redirect information when only `k` octets follow the type. -/
theorem RedirectInformation.mixed (f : RedirectInformation) (h : f.Agree) :
    ∃ w, f.marshalW = (W.minLen 1 ;; w) ∧ W.Mixed [] w f.enc fun k => k = 0 ∨
      (1 + f.addr1.length ≤ k ∧ (k < 3 + f.addr1.length ∨ f.addr2 = [] ∨ 3 + f.addr1.length + f.addr2.length ≤ k)) := by
  obtain ⟨h1, h2⟩ := h
  refine ⟨_, rfl, ?_⟩
  by_cases h0 : f.addr2 = []
  · rw [if_pos h0]
    have e : f.enc = [f.typ] ++ (be16 f.len1 ++ (f.addr1 ++ be16 f.len2)) := by
      simp [RedirectInformation.enc, h0]
    rw [e]
    refine W.Mixed.congr (W.Mixed.seq (W.Mixed.u8 [] f.typ) (W.Mixed.need (by simp [h1]; omega)
      (W.Loose.seq (W.Loose.put _) (W.Loose.seq (W.Loose.copy _ h1) (W.Loose.put _))).mixed)) ?_
    intro k hk
    simp only [List.length_append, List.length_cons, List.length_nil, and_true, be16_length, h0, ← h1] at hk ⊢
    simp only [true_or, or_true, and_true]
    omega
  · rw [if_neg h0]
    refine W.Mixed.congr (W.Mixed.seq (W.Mixed.u8 [] f.typ) (W.Mixed.need (by simp [h1]; omega)
      (W.Mixed.seq (W.Loose.put _).mixed (W.Mixed.seq (W.Loose.copy _ h1).mixed (W.Mixed.need (by simp [h2])
        (W.Loose.seq (W.Loose.put _) (W.Loose.copy _ h2)).mixed))))) ?_
    intro k hk
    simp only [List.length_cons, List.length_nil, and_true, be16_length, h0, ← h1, ← h2, false_or] at hk ⊢
    omega

/-- redirect-information.go :151-184: as it should be on a slice long enough. -/
theorem C71_RedirectInformation_fits (f : RedirectInformation) (h : f.Agree) :
    Fits (RedirectInformation.codec.marshal f) f.marshalW.run := by
  obtain ⟨w, e, hw⟩ := RedirectInformation.mixed f h
  rw [e]
  exact Fits.of (RedirectInformation.emits f h) hw.lays (by simp [RedirectInformation.enc])

/-- redirect-information.go :151-184: the checks leave out the two octets of each length. A slice that is too short is
reported only if the addresses do not fit even without them; otherwise the method panics. -/
theorem C71_RedirectInformation_crash (f : RedirectInformation) (h : f.Agree) :
    ∃ bs, RedirectInformation.codec.marshal f = .ok bs ∧ ∀ d : Bytes, d.length < bs.length → f.marshalW.run ⟨d, []⟩ =
      if 1 + f.addr1.length ≤ d.length ∧
        (d.length < 3 + f.addr1.length ∨ f.addr2 = [] ∨ 3 + f.addr1.length + f.addr2.length ≤ d.length)
      then .panic else .err .unexpectedEOF := by
  refine ⟨_, RedirectInformation.emits f h, fun d hd => ?_⟩
  obtain ⟨w, e, hw⟩ := RedirectInformation.mixed f h
  rw [e, hw.out hd]
  have hc : ∀ q : Prop, (1 ≤ d.length ∧ (d.length = 0 ∨ (1 + f.addr1.length ≤ d.length ∧ q))) ↔
      (1 + f.addr1.length ≤ d.length ∧ q) := by
    intro q
    constructor
    · rintro ⟨h1, h2 | h2⟩
      · omega
      · exact h2
    · intro h2
      exact ⟨by omega, Or.inr h2⟩
  simp only [hc]

example : (⟨0, 2, [65, 66], 0, []⟩ : RedirectInformation).marshalW.run ⟨[9, 9, 9, 9], []⟩ = .panic ∧
    (⟨0, 2, [65, 66], 0, []⟩ : RedirectInformation).marshalW.run ⟨[9, 9], []⟩ = .err .unexpectedEOF ∧
    (⟨0, 2, [65, 66], 0, []⟩ : RedirectInformation).marshalW.run ⟨[9, 9, 9, 9, 9, 9, 9, 9], []⟩
      = .ok ⟨[0, 0, 2, 65, 66, 0, 0, 9], []⟩ := by
  refine ⟨?_, ?_, ?_⟩ <;> decide +kernel

/-! ### Octets that `Marshal` owes to a fresh buffer -/

theorem ne {b : Bytes} {n : Nat} (hl : b.length = n) (hn : 0 < n) : b ≠ [] := by
  rintro rfl
  simp at hl
  omega

theorem SDFFilter.parts (f : SDFFilter) (h : f.Sized) : ∃ w bs, f.marshalW = (W.minLen 1 ;; W.u8 f.flags ;; W.skip 1 ;; w) ∧
    W.Loose w bs ∧ W.Beyond w bs ∧ SDFFilter.codec.marshal f = .ok (f.flags :: 0 :: bs) := by
  have he := SDFFilter.emits f h
  obtain ⟨h1, h2, h3, h4⟩ := h
  refine ⟨_, _, rfl, W.Loose.seq
    (W.Loose.opt fun e => W.Loose.seq (W.Loose.put _) (W.Loose.copy _ (h1 e))) (W.Loose.seq
    (W.Loose.opt fun e => W.Loose.copy _ (h2 e)) (W.Loose.seq (W.Loose.opt fun e => W.Loose.copy _ (h3 e))
    (W.Loose.seq (W.Loose.opt fun e => W.Loose.copy _ (h4 e)) (W.Loose.tail (W.Loose.opt fun _ => W.Loose.put _))))),
    ?_, he⟩
  exact W.Beyond.seq (W.Beyond.opt fun e => W.Beyond.first (W.Beyond.put (ne (be16_length _) (by omega))) (ne (be16_length _) (by omega))) (W.Beyond.seq
    (W.Beyond.opt fun e => W.Beyond.copy (ne (h2 e) (by omega))) (W.Beyond.seq
    (W.Beyond.opt fun e => W.Beyond.copy (ne (h3 e) (by omega)))
    (W.Beyond.seq (W.Beyond.opt fun e => W.Beyond.copy (ne (h4 e) (by omega)))
      (W.Beyond.tail (W.Beyond.opt fun _ => W.Beyond.put (ne (be32_length _) (by omega)))))))

/-- sdf-filter.go :238-273: the spare octet is passed over, so it keeps what the caller's buffer held there. -/
theorem C71_SDFFilter_exact (f : SDFFilter) (h : f.Sized) : ∃ bs, SDFFilter.codec.marshal f = .ok (f.flags :: 0 :: bs) ∧
    ∀ x y t sp, bs.length ≤ t.length →
      f.marshalW.run ⟨x :: y :: t, sp⟩ = .ok ⟨f.flags :: y :: bs ++ t.drop bs.length, sp⟩ := by
  obtain ⟨w, bs, e, hw, _, hm⟩ := SDFFilter.parts f h
  exact ⟨bs, hm, fun x y t sp ht => by rw [e]; exact hw.lays.gap _ x y t sp (by omega) ht⟩

/-- sdf-filter.go :238-273: a slice too short: an error if it is empty; a panic otherwise, except that a filter with
nothing in it "succeeds" in a slice of one octet, leaving half of it out. -/
theorem C71_SDFFilter_crash (f : SDFFilter) (h : f.Sized) : ∃ bs, SDFFilter.codec.marshal f = .ok (f.flags :: 0 :: bs) ∧
    f.marshalW.run ⟨[], []⟩ = .err .unexpectedEOF ∧
    (∀ x, f.marshalW.run ⟨[x], []⟩ = if bs = [] then .ok ⟨[f.flags], []⟩ else .panic) ∧
    ∀ x y t, t.length < bs.length → f.marshalW.run ⟨x :: y :: t, []⟩ = .panic := by
  obtain ⟨w, bs, e, hw, hb, hm⟩ := SDFFilter.parts f h
  refine ⟨bs, hm, ?_, fun x => ?_, fun x y t ht => ?_⟩ <;> rw [e]
  · exact W.short (by simp)
  · exact hb.gap _ x (Nat.le_refl 1)
  · exact hw.gap _ x y t (by omega) ht

theorem W.Loose.text {n : UInt16} {t : Bytes} (h : t.length < 65536) (hn : n = UInt16.ofNat t.length) :
    W.Loose (PFDContents.textW n t) (PFDContents.lv t) := by
  subst hn
  exact W.Loose.seq (W.Loose.put _) (W.Loose.copy t (by simp; omega))

theorem W.Loose.items (l : List Bytes) : W.Loose (PFDContents.itemsW l) (PFDContents.blob l) := by
  induction l with
  | nil => exact W.Loose.nop
  | cons a r ih =>
    rw [PFDContents.blob, PFDContents.lv, List.append_assoc]
    exact W.Loose.seq (W.Loose.put _) (W.Loose.seq (W.Loose.copy a rfl) ih)

theorem W.Loose.optText {c : Bool} {o : Option Bytes} (hc : c = o.isSome) (h : PFDContents.Short o) :
    W.Loose (W.opt c (PFDContents.textW (UInt16.ofNat (o.getD []).length) (o.getD []))) (PFDContents.part o) ∧
    W.Beyond (W.opt c (PFDContents.textW (UInt16.ofNat (o.getD []).length) (o.getD []))) (PFDContents.part o) := by
  subst hc
  cases o with
  | none => exact ⟨W.Loose.nop, W.Beyond.nop⟩
  | some t => exact ⟨W.Loose.text (h t rfl) rfl, W.Beyond.first (W.Beyond.put (ne (be16_length _) (by omega))) (ne (be16_length _) (by omega))⟩

theorem W.Loose.optList {c : Bool} {o : Option (List Bytes)} (hc : c = o.isSome) :
    W.Loose (W.opt c (PFDContents.listW (UInt16.ofNat (PFDContents.total (o.getD []))) (o.getD [])))
      (PFDContents.part (o.map PFDContents.blob)) ∧
    W.Beyond (W.opt c (PFDContents.listW (UInt16.ofNat (PFDContents.total (o.getD []))) (o.getD [])))
      (PFDContents.part (o.map PFDContents.blob)) := by
  subst hc
  cases o with
  | none => exact ⟨W.Loose.nop, W.Beyond.nop⟩
  | some t =>
    refine ⟨?_, ?_⟩
    · show W.Loose (PFDContents.listW _ t) (PFDContents.lv (PFDContents.blob t))
      unfold PFDContents.lv
      rw [PFDContents.blob_length]
      exact W.Loose.seq (W.Loose.put _) (W.Loose.items t)
    · show W.Beyond (PFDContents.listW _ t) (PFDContents.lv (PFDContents.blob t))
      unfold PFDContents.lv
      rw [PFDContents.blob_length]
      exact W.Beyond.first (W.Beyond.put (ne (be16_length _) (by omega))) (ne (be16_length _) (by omega))

/-- pfd-contents.go :383-456: the spare octet is passed over here too. -/
theorem C71_PFDContents_exact (fl : UInt8) (a b c d e : Option Bytes) (f g h : Option (List Bytes))
    (ha : PFDContents.hasFD fl = a.isSome) (hb : PFDContents.hasURL fl = b.isSome) (hc : PFDContents.hasDN fl = c.isSome)
    (hd : PFDContents.hasCP fl = d.isSome) (he : PFDContents.hasDNP fl = e.isSome) (hf : PFDContents.hasAFD fl = f.isSome)
    (hg : PFDContents.hasAURL fl = g.isSome) (hh : PFDContents.hasADNP fl = h.isSome)
    (sa : PFDContents.Short a) (sb : PFDContents.Short b) (sc : PFDContents.Short c) (sd : PFDContents.Short d)
    (se : PFDContents.Short e) (sf : PFDContents.Short (f.map PFDContents.blob))
    (sg : PFDContents.Short (g.map PFDContents.blob)) (sh : PFDContents.Short (h.map PFDContents.blob)) :
    ∃ bs, PFDContents.codec.marshal (PFDContents.full fl a b c d e f g h) = .ok (fl :: 0 :: bs) ∧
    (∀ x y t sp, bs.length ≤ t.length → (PFDContents.full fl a b c d e f g h).marshalW.run ⟨x :: y :: t, sp⟩
      = .ok ⟨fl :: y :: bs ++ t.drop bs.length, sp⟩) ∧
    (PFDContents.full fl a b c d e f g h).marshalW.run ⟨[], []⟩ = .err .unexpectedEOF ∧
    (∀ x, (PFDContents.full fl a b c d e f g h).marshalW.run ⟨[x], []⟩
      = if bs = [] then .ok ⟨[fl], []⟩ else .panic) ∧
    ∀ x y t, t.length < bs.length →
      (PFDContents.full fl a b c d e f g h).marshalW.run ⟨x :: y :: t, []⟩ = .panic := by
  have hm := PFDContents.emits fl a b c d e f g h ha hb hc hd he hf hg hh sa sb sc sd se sf sg sh
  have ta := W.Loose.optText ha sa
  have tb := W.Loose.optText hb sb
  have tc := W.Loose.optText hc sc
  have td := W.Loose.optText hd sd
  have te := W.Loose.optText he se
  have lf := W.Loose.optList hf
  have lg := W.Loose.optList hg
  have lh := W.Loose.optList hh
  have hw := W.Loose.seq ta.1 (W.Loose.seq tb.1 (W.Loose.seq tc.1 (W.Loose.seq td.1 (W.Loose.seq te.1
    (W.Loose.seq lf.1 (W.Loose.seq lg.1 (W.Loose.tail lh.1)))))))
  have hy := W.Beyond.seq ta.2 (W.Beyond.seq tb.2 (W.Beyond.seq tc.2 (W.Beyond.seq td.2 (W.Beyond.seq te.2
    (W.Beyond.seq lf.2 (W.Beyond.seq lg.2 (W.Beyond.tail lh.2)))))))
  have key : (PFDContents.full fl a b c d e f g h).marshalW = (W.minLen 1 ;; W.u8 fl ;; W.skip 1 ;;
      (PFDContents.full fl a b c d e f g h).bodyW) := by
    show (W.minLen 1 ;; (W.poke fl ;; W.skip 2) ;; _) = _
    rw [W.poke_skip_eq]
  refine ⟨_, hm, fun x y t sp ht => ?_, ?_, fun x => ?_, fun x y t ht => ?_⟩ <;> rw [key]
  · exact hw.lays.gap _ x y t sp (by omega) ht
  · exact W.short (by simp)
  · exact hy.gap _ x (Nat.le_refl 1)
  · exact hw.gap _ x y t (by omega) ht

/-- How many octets at the end of an outer header creation are never written: a tag goes over the port. -/
def OuterHeaderCreation.lost (f : OuterHeaderCreation) : Nat :=
  if OuterHeaderCreation.hasPort (hiOctet f.desc) ∧
    (OuterHeaderCreation.hasCTag (hiOctet f.desc) ∨ OuterHeaderCreation.hasSTag (hiOctet f.desc)) then 2 else 0

/-- What is written at the end. -/
def OuterHeaderCreation.body (f : OuterHeaderCreation) : Bytes :=
  if OuterHeaderCreation.hasCTag (hiOctet f.desc) || OuterHeaderCreation.hasSTag (hiOctet f.desc) then
    (if OuterHeaderCreation.hasCTag (hiOctet f.desc) then OuterHeaderCreation.tag24 f.ctag else []) ++
    (if OuterHeaderCreation.hasSTag (hiOctet f.desc) then OuterHeaderCreation.tag24 f.stag else [])
  else if OuterHeaderCreation.hasPort (hiOctet f.desc) then be16 f.port else []

theorem OuterHeaderCreation.end_parts (f : OuterHeaderCreation) :
    W.LaysEnd f.marshalEnd f.body ∧ W.Bursts f.marshalEnd f.body := by
  unfold OuterHeaderCreation.marshalEnd OuterHeaderCreation.body
  have hc := W.Loose.copy (OuterHeaderCreation.tag24 f.ctag) (OuterHeaderCreation.tag24_length _)
  have hs := W.Loose.copy (OuterHeaderCreation.tag24 f.stag) (OuterHeaderCreation.tag24_length _)
  have oc := W.Loose.over (be16 f.port) (OuterHeaderCreation.tag24 f.ctag) (OuterHeaderCreation.tag24_length _) (by simp)
  have os := W.Loose.over (be16 f.port) (OuterHeaderCreation.tag24 f.stag) (OuterHeaderCreation.tag24_length _) (by simp)
  have seqNop : ∀ p : W, (p ;; W.nop) = p := by
    intro p
    funext s o
    unfold W.seq W.nop
    cases p s o <;> rfl
  cases OuterHeaderCreation.hasPort (hiOctet f.desc) <;> cases OuterHeaderCreation.hasCTag (hiOctet f.desc) <;>
    cases OuterHeaderCreation.hasSTag (hiOctet f.desc) <;>
    simp only [W.opt, if_true, if_false, Bool.false_eq_true, OuterHeaderCreation.nop_seq, Bool.or_false, Bool.or_true,
      Bool.or_self, List.nil_append, List.append_nil, seqNop]
  · exact ⟨W.Loose.nop.lays.toEnd, W.Loose.nop.bursts⟩
  · exact ⟨hs.lays.toEnd, hs.bursts⟩
  · exact ⟨hc.lays.toEnd, hc.bursts⟩
  · exact ⟨(hc.seq hs).lays.toEnd, (hc.seq hs).bursts⟩
  · exact ⟨W.LaysEnd.putStay _, W.Bursts.putStay _⟩
  · exact ⟨os.lays.toEnd, os.bursts⟩
  · exact ⟨oc.lays.toEnd, oc.bursts⟩
  · have := oc.seq hs
    rw [W.seq_assoc] at this
    exact ⟨this.lays.toEnd, this.bursts⟩

theorem OuterHeaderCreation.enc_body (f : OuterHeaderCreation) :
    f.enc = (f.head ++ f.body) ++ List.replicate f.lost 0 := by
  unfold OuterHeaderCreation.enc OuterHeaderCreation.tail OuterHeaderCreation.body OuterHeaderCreation.lost
  cases OuterHeaderCreation.hasPort (hiOctet f.desc) <;> cases OuterHeaderCreation.hasCTag (hiOctet f.desc) <;>
    cases OuterHeaderCreation.hasSTag (hiOctet f.desc) <;> simp [List.replicate]

/-- outer-header-creation.go :425-469: with both a port and a tag the tag goes over the port, and the last two octets of
what `Marshal` returns are not written at all: they keep what the caller's buffer held, and need not even be there. -/
theorem C71_OuterHeaderCreation_exact (f : OuterHeaderCreation) (h : f.Agree) :
    ∃ bs, OuterHeaderCreation.codec.marshal f = .ok (bs ++ List.replicate f.lost 0) ∧
      (∀ b : Slice, bs.length ≤ b.data.length → f.marshalW.run b = .ok ⟨bs ++ b.data.drop bs.length, b.spare⟩) ∧
      ∀ d : Bytes, d.length < bs.length →
        f.marshalW.run ⟨d, []⟩ = if d.length < 2 then .err .unexpectedEOF else .panic := by
  have he := OuterHeaderCreation.emits f h
  rw [OuterHeaderCreation.enc_body] at he
  obtain ⟨⟨h1, h2⟩, h3, h4⟩ := h
  obtain ⟨e1, e2⟩ := OuterHeaderCreation.end_parts f
  have hw : ∃ w, f.marshalW = (W.minLen 2 ;; w) ∧ W.LaysEnd w (f.head ++ f.body) ∧ W.Bursts w (f.head ++ f.body) := by
    refine ⟨_, rfl, ?_⟩
    unfold OuterHeaderCreation.head
    simp only [List.append_assoc]
    exact ⟨W.Lays.seqEnd (W.Lays.put _) (W.Lays.seqEnd (W.Loose.opt fun _ => W.Loose.put _).lays
      (W.Lays.seqEnd (W.Loose.raw h1 h2).lays (W.Lays.seqEnd (W.Loose.raw h3 h4).lays e1))),
      W.Bursts.seq (W.Loose.put _) (W.Bursts.seq (W.Loose.opt fun _ => W.Loose.put _)
      (W.Bursts.seq (W.Loose.raw h1 h2) (W.Bursts.seq (W.Loose.raw h3 h4) e2)))⟩
  obtain ⟨w, em, hl, hb⟩ := hw
  rw [em]
  refine ⟨f.head ++ f.body, he, fun b hbl => ?_, fun d hd => ?_⟩
  · exact hl.run (by simp [OuterHeaderCreation.head]) hbl
  · exact hb.run hd

example : let f : OuterHeaderCreation := ⟨0x4400, 0, some [1, 2, 3, 4], none, 5, 6, 0⟩
    f.Agree ∧ f.lost = 2 ∧ f.marshalW.run ⟨List.replicate 11 9, []⟩
      = .ok ⟨[0x44, 0, 1, 2, 3, 4, 0, 0, 6, 9, 9], []⟩ ∧
    f.marshalW.run ⟨List.replicate 9 9, []⟩ = .ok ⟨[0x44, 0, 1, 2, 3, 4, 0, 0, 6], []⟩ ∧
    f.marshalW.run ⟨List.replicate 8 9, []⟩ = .panic := by
  refine ⟨⟨⟨by decide, ?_⟩, by decide, ?_⟩, by decide +kernel, by decide +kernel, by decide +kernel, by decide +kernel⟩
  · rintro a ⟨⟩; rfl
  · rintro a ⟨⟩

theorem W.copy_nil (n : Nat) (d sp : Bytes) (o : Nat) (h : o + n ≤ d.length) :
    W.copy n [] ⟨d, sp⟩ o = .ok (⟨d, sp⟩, o + n) := by
  have e := W.overwrite_lays d sp [] o (by simp; omega)
  unfold W.copy Slice.copyAt Slice.cap
  simp only
  rw [if_pos (by omega), List.take_nil, e, Res.ok_bind]
  simp

/-- pmf-address-information.go :196-245: an absent MAC address is passed over, so the last twelve octets keep what the
caller's buffer held. (`Marshal` returns zeros there, its buffer being fresh.) -/
theorem C71_PMFAddressInformation_exact (f : PMFAddressInformation) (h : f.Agree) (h1 : f.mac1 = none) (h2 : f.mac2 = none) :
    ∃ bs, PMFAddressInformation.codec.marshal f = .ok (bs ++ List.replicate 12 0) ∧ ∀ b : Slice, f.marshalW.run b =
      if bs.length + 12 ≤ b.data.length then .ok ⟨bs ++ b.data.drop bs.length, b.spare⟩ else .err .unexpectedEOF := by
  have he := PMFAddressInformation.emits f h
  obtain ⟨⟨a1, a2⟩, ⟨a3, a4⟩, _, _⟩ := h
  let bs := [f.flags] ++ (wire4 f.v4 ++ (wire16 f.v6 ++ (be16 f.port1 ++ (be16 f.port2 ++ []))))
  have e0 : f.enc = bs ++ List.replicate 12 0 := by
    show f.enc = _ ++ _
    unfold PMFAddressInformation.enc
    rw [h1, h2]
    simp [PMFAddressInformation.mac6, IP.val, bs, List.replicate]
  rw [e0] at he
  let w : W := W.u8 f.flags ;; W.ip4 (PMFAddressInformation.hasIPv4 f.flags) f.v4 ;;
    W.ip16 (PMFAddressInformation.hasIPv6 f.flags) f.v6 ;; W.need 2 ;; W.put (be16 f.port1) ;; W.need 2 ;;
    W.put (be16 f.port2)
  have hw : W.Exact 1 w bs := W.Exact.pre (k := 0) (W.Lays.u8 _) (W.Exact.seq (W.Exact.ip4 a1 a2) (W.Exact.seq
    (W.Exact.ip16 a3 a4) (W.Exact.piece (W.Lays.put _) (by simp) (W.Exact.tail (W.Exact.one (W.Lays.put _) (by simp))))))
  have em : f.marshalW = (W.minLen 1 ;; (w ;; W.need 6 ;; W.copy 6 [] ;; W.need 6 ;; W.copy 6 [])) := by
    unfold PMFAddressInformation.marshalW
    rw [h1, h2]
    simp only [w, W.seq_assoc]
    rfl
  have hb1 : 1 ≤ bs.length := by simp [bs]
  refine ⟨bs, he, fun b => ?_⟩
  obtain ⟨d, sp⟩ := b
  rw [em]
  show W.run _ ⟨d, sp⟩ = if bs.length + 12 ≤ d.length then .ok ⟨bs ++ d.drop bs.length, sp⟩ else .err .unexpectedEOF
  by_cases hd : bs.length ≤ d.length
  · unfold W.run W.seq W.minLen
    simp only
    rw [if_neg (by omega), Res.ok_bind]
    have hlen := W.laid_length (d := d) (bs := bs) (o := 0) (by omega)
    have hz : d.take 0 ++ bs ++ d.drop (0 + bs.length) = bs ++ d.drop bs.length := by simp
    have hrun := hw.lays d sp 0 (by omega)
    rw [hz, Nat.zero_add] at hrun
    rw [hz] at hlen
    rw [hrun, Res.ok_bind]
    simp only [W.need, hlen]
    by_cases h6 : d.length < bs.length + 6
    · rw [if_pos h6, if_neg (by omega)]; rfl
    · rw [if_neg h6, Res.ok_bind]
      simp only
      rw [W.copy_nil 6 _ sp _ (by rw [hlen]; omega), Res.ok_bind]
      simp only [hlen]
      by_cases h12 : d.length < bs.length + 6 + 6
      · rw [if_pos h12, if_neg (by omega)]; rfl
      · rw [if_neg h12, Res.ok_bind]
        simp only
        rw [W.copy_nil 6 _ sp _ (by rw [hlen]; omega), Res.ok_bind, if_pos (by omega)]
  · rw [if_neg (by omega)]
    have hr := hw.run (Nat.le_refl 1) hb1 ⟨d, sp⟩
    rw [if_neg hd] at hr
    unfold W.run W.seq W.minLen at hr ⊢
    simp only at hr ⊢
    by_cases h0 : d.length < 1
    · rw [if_pos h0]; rfl
    · rw [if_neg h0, Res.ok_bind] at hr ⊢
      cases hc : w ⟨d, sp⟩ 0 with
      | ok r => simp only [hc, Res.ok_bind] at hr; cases hr
      | panic => simp only [hc] at hr; cases hr
      | err e => simp only [hc] at hr ⊢; exact hr

example : (⟨0, none, none, 1, 2, none, none⟩ : PMFAddressInformation).Agree ∧
    (⟨0, none, none, 1, 2, none, none⟩ : PMFAddressInformation).marshalW.run ⟨List.replicate 17 9, []⟩
      = .ok ⟨[0, 0, 1, 0, 2] ++ List.replicate 12 9, []⟩ := by
  refine ⟨⟨⟨by decide, IP.none_is4⟩, ⟨by decide, IP.none_is16⟩, by decide, by decide⟩, by decide +kernel⟩

/-! ### Slices that are windows on a larger array -/

/-- c-tag.go :176-187, s-tag.go :176-187: given a slice of one or two octets of a larger array, the method reports
success and writes the rest behind the slice, over whatever the array holds there. -/
theorem C71_Tag_overrun (f : Tag) (b : Slice) (h1 : 1 ≤ b.data.length) (h3 : 3 ≤ b.cap) :
    ∃ bs, Tag.codec.marshal f = .ok bs ∧ f.marshalW.run b = .ok (b.overwrite 0 bs) := by
  refine ⟨_, Tag.emits f, ?_⟩
  exact W.Spills.run (W.Spills.tail (W.Spills.put (be16 f.bits))) b (Nat.le_refl 1) h1 (by simp; omega)

/-- dl-flow-level-marking.go :153-172: so too from two octets on. -/
theorem C71_DLFlowLevelMarking_overrun (f : DLFlowLevelMarking) (hl : 2 ≤ f.enc.length) (b : Slice)
    (h1 : 2 ≤ b.data.length) (h3 : f.enc.length ≤ b.cap) :
    ∃ bs, DLFlowLevelMarking.codec.marshal f = .ok bs ∧ f.marshalW.run b = .ok (b.overwrite 0 bs) := by
  refine ⟨_, DLFlowLevelMarking.emits f hl, ?_⟩
  refine W.Spills.run (W.Spills.seq (W.Spills.opt fun _ => W.Spills.put _)
    (W.Spills.tail (W.Spills.opt fun _ => W.Spills.put _))) b (by omega) h1 ?_
  unfold DLFlowLevelMarking.enc at h3
  rw [List.length_append] at h3
  exact h3

/-- C71 is false: a short slice is not always reported. Two octets of a three-octet array: success, and the third octet,
not part of the slice, is overwritten. -/
theorem C71_overrun_violated : ∃ f : Tag, ∃ d d' sp sp' : Bytes, ∃ bs, Tag.codec.marshal f = .ok bs ∧
    d.length < bs.length ∧ f.marshalW.run ⟨d, sp⟩ = .ok ⟨d', sp'⟩ ∧ sp' ≠ sp :=
  ⟨⟨7, 0, 0, 5⟩, [9, 9], [7, 0], [9], [5], [7, 0, 5], by decide +kernel, by decide, by decide +kernel, by decide⟩

/-- C71 is false: a short slice may crash the program. -/
theorem C71_crash_violated : ∃ f : UEIPAddress, ∃ d bs, UEIPAddress.codec.marshal f = .ok bs ∧ d.length < bs.length ∧
    f.marshalW.run ⟨d, []⟩ = .panic :=
  ⟨⟨2, some [1, 2, 3, 4], none, 0, 0⟩, [9, 9, 9, 9], [2, 1, 2, 3, 4], by decide +kernel, by decide, by decide +kernel⟩

/-- C71 is false: what lands in a buffer used before may differ from what `Marshal` returns. -/
theorem C71_stale_violated : ∃ f : SDFFilter, ∃ d d' bs, SDFFilter.codec.marshal f = .ok bs ∧ d.length = bs.length ∧
    f.marshalW.run ⟨d, []⟩ = .ok ⟨d', []⟩ ∧ d' ≠ bs :=
  ⟨⟨2, 0, [], [1, 2], [], [], 0⟩, [9, 9, 9, 9], [2, 9, 1, 2], [2, 0, 1, 2], by decide +kernel, by decide, by decide +kernel,
    by decide⟩

end Fields
end Pfcp
