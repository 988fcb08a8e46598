/-
`UnmarshalBinary` of the `XxxFields` structures into a value that is already in use. The definitions are those of
`parseP` with the fields of the used value in place of the zero values. A failed call also leaves the fields it had
already assigned; only the outcome of such a call is modelled here, not what it leaves behind.
-/
import Verif.Fields.Addr
import Verif.Fields.Addr2
import Verif.Fields.Volume
import Verif.Fields.Counters
import Verif.Fields.Misc5

namespace Pfcp

/-! ### Two readers that do the same up to their values -/

namespace P

variable {α β γ δ : Type}

/-- Wherever `q` stands, `p` fails as `q` does, or both succeed at the same `offset` with values related by `R`; if `E`
holds then `p` may also report a short buffer instead. -/
def Over (E : Prop) (R : α → β → Prop) (p : P α) (q : P β) : Prop :=
  ∀ s o, (E ∧ p s o = .err .unexpectedEOF) ∨
    match p s o, q s o with
    | .ok (a, o1), .ok (b, o2) => R a b ∧ o1 = o2
    | .err e, .err e' => e = e'
    | .panic, .panic => True
    | _, _ => False

variable {E : Prop}

theorem Over.refl (p : P α) : Over E Eq p p := by
  intro s o
  right
  cases p s o with
  | ok r => exact ⟨rfl, rfl⟩
  | err e => rfl
  | panic => trivial

theorem Over.pure {R : α → β → Prop} {a : α} {b : β} (h : R a b) : Over E R (pure a : P α) (pure b : P β) :=
  fun _ _ => Or.inr ⟨h, rfl⟩

theorem Over.bind {R : α → β → Prop} {S : γ → δ → Prop} {p : P α} {q : P β} {f : α → P γ} {g : β → P δ}
    (hp : Over E R p q) (hf : ∀ a b, R a b → Over E S (f a) (g b)) : Over E S (p >>= f) (q >>= g) := by
  intro s o
  show (E ∧ P.bind p f s o = _) ∨ match P.bind p f s o, P.bind q g s o with
    | .ok (a, o1), .ok (b, o2) => S a b ∧ o1 = o2
    | .err e, .err e' => e = e'
    | .panic, .panic => True
    | _, _ => False
  unfold P.bind
  rcases hp s o with ⟨he, h⟩ | h
  · left
    rw [h]
    exact ⟨he, rfl⟩
  · cases hr : p s o with
    | ok r =>
      rw [hr] at h
      cases ht : q s o with
      | ok t =>
        rw [ht] at h
        obtain ⟨a, o1⟩ := r
        obtain ⟨b, o2⟩ := t
        obtain ⟨h1, rfl⟩ := h
        exact hf a b h1 s o1
      | err e => rw [ht] at h; exact h.elim
      | panic => rw [ht] at h; exact h.elim
    | err e =>
      rw [hr] at h
      right
      cases ht : q s o with
      | ok t => rw [ht] at h; exact h.elim
      | err e' => rw [ht] at h; exact h
      | panic => rw [ht] at h; exact h.elim
    | panic =>
      rw [hr] at h
      right
      cases ht : q s o with
      | ok t => rw [ht] at h; exact h.elim
      | err e' => rw [ht] at h; exact h.elim
      | panic => trivial

theorem Over.opt {c : Bool} (p : P α) (d d' : α) :
    Over E (fun a b => a = if c then b else d) (P.opt c p d) (P.opt c p d') := by
  unfold P.opt
  cases c
  · exact Over.pure rfl
  · exact Over.refl p

/-- With different readers under the same flag. -/
theorem Over.optBy {R : α → α → Prop} {c : Bool} {p q : P α} {d d' : α} (h : c = true → Over E R p q) :
    Over E (fun a b => (c = true → R a b) ∧ (c = false → a = d)) (P.opt c p d) (P.opt c q d') := by
  unfold P.opt
  cases c
  · exact Over.pure ⟨(fun e => by cases e), fun _ => rfl⟩
  · intro s o
    rcases h rfl s o with h | h
    · exact Or.inl h
    · right
      simp only [if_true]
      cases hr : p s o <;> cases ht : q s o <;> rw [hr, ht] at h <;> simp_all

theorem Over.ite {R : α → β → Prop} {c : Prop} [Decidable c] {p p' : P α} {q q' : P β} (h : c → Over E R p q)
    (h' : ¬ c → Over E R p' q') : Over E R (if c then p else p') (if c then q else q') := by
  split
  · exact h ‹_›
  · exact h' ‹_›

/-- Related by functions of both values. -/
theorem Over.runMap {g : α → γ} {f : β → γ} {p : P α} {q : P β} (h : Over False (fun a b => g a = f b) p q) (s : Slice) :
    (p.run s >>= fun a => .ok (g a)) = q.run s >>= fun b => .ok (f b) := by
  unfold P.run
  rcases h s 0 with ⟨h, _⟩ | h
  · exact h.elim
  · cases hr : p s 0 with
    | ok r =>
      rw [hr] at h
      cases ht : q s 0 with
      | ok t => rw [ht] at h; exact congrArg Res.ok h.1
      | err e => rw [ht] at h; exact h.elim
      | panic => rw [ht] at h; exact h.elim
    | err e =>
      rw [hr] at h
      cases ht : q s 0 with
      | ok t => rw [ht] at h; exact h.elim
      | err e' => rw [ht] at h; exact congrArg Res.err h
      | panic => rw [ht] at h; exact h.elim
    | panic =>
      rw [hr] at h
      cases ht : q s 0 with
      | ok t => rw [ht] at h; exact h.elim
      | err e' => rw [ht] at h; exact h.elim
      | panic => rfl

/-- Related by a function. -/
theorem Over.run {f : β → α} {p : P α} {q : P β} (h : Over False (fun a b => a = f b) p q) (s : Slice) :
    p.run s = q.run s >>= fun b => .ok (f b) := by
  rw [← Over.runMap (g := fun a => a) h s]
  cases p.run s <;> rfl

/-- The same when `p` may also report a short buffer. -/
theorem Over.runOr {f : β → α} {p : P α} {q : P β} (h : Over True (fun a b => a = f b) p q) (s : Slice) :
    p.run s = .err .unexpectedEOF ∨ p.run s = q.run s >>= fun b => .ok (f b) := by
  rcases h s 0 with ⟨_, h⟩ | h
  · left
    unfold P.run
    rw [h]
  · right
    unfold P.run
    cases hr : p s 0 with
    | ok r =>
      rw [hr] at h
      cases ht : q s 0 with
      | ok t => rw [ht] at h; exact congrArg Res.ok h.1
      | err e => rw [ht] at h; exact h.elim
      | panic => rw [ht] at h; exact h.elim
    | err e =>
      rw [hr] at h
      cases ht : q s 0 with
      | ok t => rw [ht] at h; exact h.elim
      | err e' => rw [ht] at h; exact congrArg Res.err h
      | panic => rw [ht] at h; exact h.elim
    | panic =>
      rw [hr] at h
      cases ht : q s 0 with
      | ok t => rw [ht] at h; exact h.elim
      | err e' => rw [ht] at h; exact h.elim
      | panic => rfl

end P

namespace Fields

/-- `copy(old, x)`: the elements of `old` at the positions that `x` has too. -/
def overCopy (old x : Bytes) : Bytes := x.take old.length ++ old.drop x.length

/-- The same with a slice that may be nil. -/
def overCopyIP (old : IP) (x : Bytes) : IP := old.map (overCopy · x)

namespace IP46

/-- `UnmarshalBinary` into the value `old`, /repo/ie/alternative-smf-ip-address.go:93-118 and cp-pfcp-entity-ip-address.go:105-130. -/
def into (old : IP46) : P IP46 := do
  P.minLen 2
  let flags ← P.u8
  let v4 ← P.opt (hasIPv4 flags) (P.ip 4) old.v4
  let v6 ← P.opt (hasIPv6 flags) (P.ip 16) old.v6
  pure ⟨flags, v4, v6⟩

end IP46

namespace FSEID

/-- `UnmarshalBinary` into the value `old`, /repo/ie/f-seid.go:96-124. -/
def into (old : FSEID) : P FSEID := do
  P.minLen 9
  let flags ← P.u8
  let seid ← P.u64
  let v4 ← P.opt (hasIPv4 flags) (P.ip 4) old.v4
  let v6 ← P.opt (hasIPv6 flags) (P.ip 16) old.v6
  pure ⟨flags, seid, v4, v6⟩

end FSEID

namespace MPTCPAddressInformation

/-- `UnmarshalBinary` into the value `old`, /repo/ie/mptcp-address-information.go:126-153. -/
def into (old : MPTCPAddressInformation) : P MPTCPAddressInformation := do
  P.minLen 4
  let flags ← P.u8
  let ptype ← P.u8
  let port ← P.u16
  let v4 ← P.opt (hasIPv4 flags) (P.ip 4) old.v4
  let v6 ← P.opt (hasIPv6 flags) (P.ip 16) old.v6
  pure ⟨flags, ptype, port, v4, v6⟩

end MPTCPAddressInformation

namespace UELinkSpecificIPAddress

/-- `UnmarshalBinary` into the value `old`, /repo/ie/ue-link-specific-ip-address.go:145-186. -/
def into (old : UELinkSpecificIPAddress) : P UELinkSpecificIPAddress := do
  P.minLen 1
  let flags ← P.u8
  let v4 ← P.opt (hasIPv4 flags) (P.ip 4) old.v4
  let v6 ← P.opt (hasIPv6 flags) (P.ip 16) old.v6
  let nv4 ← P.opt (hasNV4 flags) (P.ip 4) old.nv4
  let nv6 ← P.opt (hasNV6 flags) (P.ip 16) old.nv6
  pure ⟨flags, v4, v6, nv4, nv6⟩

end UELinkSpecificIPAddress

namespace SourceIPAddress

/-- `UnmarshalBinary` into the value `old`, /repo/ie/source-ip-address.go:152-185. -/
def into (old : SourceIPAddress) : P SourceIPAddress := do
  P.minLen 2
  let flags ← P.u8
  let v4 ← P.opt (hasIPv4 flags) (P.ip 4) old.v4
  let v6 ← P.opt (hasIPv6 flags) (P.ip 16) old.v6
  let mpl ← P.opt (hasMPL flags) (P.need 0 >>= fun _ => P.u8) old.mpl
  pure ⟨flags, v4, v6, mpl⟩

end SourceIPAddress

namespace RemoteGTPUPeer

/-- `UnmarshalBinary` into the value `old`, /repo/ie/remote-gtp-u-peer.go:153-206. -/
def into (old : RemoteGTPUPeer) : P RemoteGTPUPeer := do
  P.minLen 2
  let flags ← P.u8
  let v4 ← P.opt (has2ndBit flags) (P.ip 4) old.v4
  let v6 ← P.opt (has1stBit flags) (P.ip 16) old.v6
  let di ← P.opt (has3rdBit flags) parseDI (old.diLength, old.di)
  let ni ← P.opt (has4thBit flags) parseNI (old.niLength, old.ni)
  pure ⟨flags, v4, v6, di.1, di.2, ni.1, ni.2⟩

end RemoteGTPUPeer

namespace NumberOfUEIPAddresses

/-- `UnmarshalBinary` into the value `old`, /repo/ie/number-of-ue-ip-addresses.go:96-121. -/
def into (old : NumberOfUEIPAddresses) : P NumberOfUEIPAddresses := do
  P.minLen 1
  let flags ← P.u8
  let v4 ← P.opt (hasNumIPv4 flags) P.f32 old.v4
  let v6 ← P.opt (hasNumIPv6 flags) P.f32 old.v6
  pure ⟨flags, v4, v6⟩

end NumberOfUEIPAddresses

namespace Delays

/-- `UnmarshalBinary` into the value `old`, /repo/ie/packet-delay-thresholds.go:108-141 and qos-monitoring-measurement.go:118-151. -/
def into (old : Delays) : P Delays := do
  P.minLen 1
  let flags ← P.u8
  let dl ← P.opt (hasDL flags) P.f32 old.dl
  let ul ← P.opt (hasUL flags) P.f32 old.ul
  let rp ← P.opt (hasRP flags) P.f32 old.rp
  pure ⟨flags, dl, ul, rp⟩

end Delays

namespace DLFlowLevelMarking

/-- `UnmarshalBinary` into the value `old`, /repo/ie/dl-flow-level-marking.go:116-141. -/
def into (old : DLFlowLevelMarking) : P DLFlowLevelMarking := do
  P.minLen 1
  let flags ← P.u8
  let ttc ← P.opt (has1stBit flags) P.f16 old.ttc
  let sci ← P.opt (has2ndBit flags) P.f16 old.sci
  pure ⟨flags, ttc, sci⟩

end DLFlowLevelMarking

namespace PacketRate

/-- `UnmarshalBinary` into the value `old`, /repo/ie/packet-rate.go:129-156. -/
def into (old : PacketRate) : P PacketRate := do
  P.minLen 2
  let flags ← P.u8
  let ul ← P.opt (has1stBit flags) rateP (old.ulUnit, old.ulRate)
  let dl ← P.opt (has2ndBit flags) rateP (old.dlUnit, old.dlRate)
  pure ⟨flags, ul.1, dl.1, ul.2, dl.2⟩

end PacketRate

namespace Tag

/-- `UnmarshalBinary` into the value `old`, /repo/ie/c-tag.go:142-164 and s-tag.go:142-164. -/
def into (old : Tag) : P Tag := do
  P.minLen 3
  let flags ← P.u8
  let pcp ← P.opt (has1stBit flags) (P.peek 0 >>= fun x => pure (x &&& 0x07)) old.pcp
  let dei ← P.opt (has2ndBit flags) (P.peek 0 >>= fun x => pure ((x >>> 3) &&& 0x01)) old.dei
  let cvid ← P.opt (has3rdBit flags) (P.peekBytes 2 >>= fun x => pure (dec16 x &&& 0xf0ff)) old.cvid
  pure ⟨flags, pcp, dei, cvid⟩

end Tag

namespace MACAddress

/-- `UnmarshalBinary` into the value `old`, /repo/ie/mac-address.go:147-192. -/
def into (old : MACAddress) : P MACAddress := do
  P.minLen 2
  let flags ← P.u8
  let a ← P.opt (hasSOUR flags) (P.ip 6) old.src
  let b ← P.opt (hasDEST flags) (P.ip 6) old.dst
  let c ← P.opt (hasUSOU flags) (P.ip 6) old.usrc
  let d ← P.opt (hasUDES flags) (P.ip 6) old.udst
  pure ⟨flags, a, b, c, d⟩

end MACAddress

namespace SDFFilter

/-- `UnmarshalBinary` into the value `old`, /repo/ie/sdf-filter.go:176-226. -/
def into (old : SDFFilter) : P SDFFilter := do
  P.minLen 3
  let flags ← P.u8
  P.skip 1
  let fd ← P.opt (hasFD flags) parseFD (old.fdLength, old.fd)
  let ttc ← P.opt (hasTTC flags) (parseN 2) old.ttc
  let spi ← P.opt (hasSPI flags) (parseN 4) old.spi
  let fl ← P.opt (hasFL flags) (parseN 3) old.fl
  let bid ← P.opt (hasBID flags) (P.left 4 >>= fun _ => P.u32) old.bid
  pure ⟨flags, fd.1, fd.2, ttc, spi, fl, bid⟩

end SDFFilter

namespace OuterHeaderCreation

/-- `UnmarshalBinary` into the value `old`, /repo/ie/outer-header-creation.go:355-413. -/
def into (old : OuterHeaderCreation) : P OuterHeaderCreation := do
  P.minLen 2
  let (oct5, desc) ← parseDesc
  let teid ← P.opt (hasTEID oct5) P.f32 old.teid
  let v4 ← P.opt (hasIPv4 oct5) (P.ip 4) old.v4
  let v6 ← P.opt (hasIPv6 oct5) (P.ip 16) old.v6
  let port ← P.opt (hasPort oct5) P.f16 old.port
  let ctag ← P.opt (has7thBit (loOctet desc)) parseTag old.ctag
  let stag ← P.opt (has8thBit (loOctet desc)) parseTag old.stag
  pure ⟨desc, teid, v4, v6, port, ctag, stag⟩

end OuterHeaderCreation

namespace UserID

/-- `UnmarshalBinary` into the value `old`, /repo/ie/user-id.go:102-167. -/
def into (old : UserID) : P UserID := do
  P.minLen 1
  let flags ← P.u8
  let i ← P.opt (has1stBit flags) (parseStr digits) (old.imsiLen, old.imsi)
  let e ← P.opt (has2ndBit flags) (parseStr digits) (old.imeiLen, old.imei)
  let m ← P.opt (has3rdBit flags) (parseStr digits) (old.msisdnLen, old.msisdn)
  let n ← P.opt (has4thBit flags) (parseStr id) (old.naiLen, old.nai)
  pure ⟨flags, i.1, i.2, e.1, e.2, m.1, m.2, n.1, n.2⟩

end UserID

namespace Volume

/-- `UnmarshalBinary` into the value `old`, /repo/ie/volume-quota.go:128-161, volume-threshold.go:128-161, subsequent-volume-quota.go:139-172,
subsequent-volume-threshold.go:139-172. -/
def into (old : Volume) : P Volume := do
  P.minLen 2
  let flags ← P.u8
  let t ← P.opt (hasTOVOL flags) P.f64 old.total
  let u ← P.opt (hasULVOL flags) P.f64 old.uplink
  let d ← P.opt (hasDLVOL flags) P.f64 old.downlink
  pure ⟨flags, t, u, d⟩

end Volume

namespace VolumeMeasurement

/-- `UnmarshalBinary` into the value `old`, /repo/ie/volume-measurement.go:164-221. -/
def into (old : VolumeMeasurement) : P VolumeMeasurement := do
  P.minLen 2
  let flags ← P.u8
  let t ← P.opt (hasTOVOL flags) P.f64 old.total
  let u ← P.opt (hasULVOL flags) P.f64 old.uplink
  let d ← P.opt (hasDLVOL flags) P.f64 old.downlink
  let tp ← P.opt (hasTONOP flags) P.f64 old.totalPackets
  let up ← P.opt (hasULNOP flags) P.f64 old.uplinkPackets
  let dp ← P.opt (hasDLNOP flags) P.f64 old.downlinkPackets
  pure ⟨flags, t, u, d, tp, up, dp⟩

end VolumeMeasurement

namespace HeaderEnrichment

/-- `UnmarshalBinary` into the value `old`, /repo/ie/header-enrichment.go:94-122: every field modelled is assigned. -/
def into (_old : HeaderEnrichment) : P HeaderEnrichment := parseP

end HeaderEnrichment

namespace FTEID

/-- `UnmarshalBinary` into the value `old`, /repo/ie/f-teid.go:191-231. -/
def into (old : FTEID) : P FTEID := do
  P.minLen 1
  let flags ← P.u8
  if hasCh flags then do
    let chid ← P.opt (hasChID flags) P.byte old.chid
    pure ⟨flags, old.teid, old.v4, old.v6, chid⟩
  else do
    let teid ← P.f32
    let v4 ← P.opt (hasIPv4 flags) (P.ip 4) old.v4
    let v6 ← P.opt (hasIPv6 flags) (P.ip 16) old.v6
    pure ⟨flags, teid, v4, v6, old.chid⟩

end FTEID

namespace UEIPAddress

/-- `UnmarshalBinary` into the value `old`, /repo/ie/ue-ip-address.go:221-261. -/
def into (old : UEIPAddress) : P UEIPAddress := do
  P.minLen 1
  let flags ← P.u8
  let v4 ← P.opt (hasIPv4 flags) (P.ip 4) old.v4
  let v6 ← P.opt (hasIPv6 flags) (P.ip 16) old.v6
  let v6d ← P.opt (has4thBit flags) P.look old.v6d
  let v6pl ← P.opt (has7thBit flags) P.look old.v6pl
  pure ⟨flags, v4, v6, v6d, v6pl⟩

end UEIPAddress

namespace IPMulticastAddress

/-- `UnmarshalBinary` into the value `old`, /repo/ie/ip-multicast-address.go:183-231. -/
def into (old : IPMulticastAddress) : P IPMulticastAddress := do
  P.minLen 2
  let flags ← P.u8
  if hasAny flags then pure ⟨flags, old.sv4, old.sv6, old.ev4, old.ev6⟩
  else do
    let sv4 ← P.opt (hasIPv4 flags) (P.ip 4) old.sv4
    let sv6 ← P.opt (hasIPv6 flags) (P.ip 16) old.sv6
    let ev4 ← P.opt (hasRange flags && hasIPv4 flags) (P.ip 4) old.ev4
    let ev6 ← P.opt (hasRange flags && hasIPv6 flags) (P.ip 16) old.ev6
    pure ⟨flags, sv4, sv6, ev4, ev6⟩

end IPMulticastAddress

namespace UserPlaneIPResourceInformation

/-- `UnmarshalBinary` into the value `old`, /repo/ie/user-plane-ip-resource-information.go:117-169. -/
def into (old : UserPlaneIPResourceInformation) : P UserPlaneIPResourceInformation := do
  P.minLen 2
  let flags ← P.u8
  let tr ← P.opt (hasTEIDRI flags) P.byte old.teidRange
  let v4 ← P.opt (has1stBit flags) (P.ip 4) old.v4
  let v6 ← P.opt (has2ndBit flags) (P.ip 16) old.v6
  if has6thBit flags then do
    let n ← P.len
    let si ← P.opt (has7thBit flags) (at_ n >>= fun x => pure (x &&& 0x0f)) old.si
    let n := if has7thBit flags then n - 1 else n
    P.need n
    let ni ← upTo n
    pure ⟨flags, tr, v4, v6, ni, si⟩
  else do
    let si ← P.opt (has7thBit flags) (P.u8 >>= fun x => pure (x &&& 0x0f)) old.si
    pure ⟨flags, tr, v4, v6, old.ni, si⟩

end UserPlaneIPResourceInformation

namespace PacketRateStatus

/-- One direction, /repo/ie/packet-rate-status.go:156-170 and :172-186; `add` is the old additional number. -/
def dirInto (apr : Bool) (add : UInt16) : P (UInt16 × UInt16) := do
  let x ← P.f16
  let y ← P.opt apr P.f16 add
  pure (x, y)

/-- `UnmarshalBinary` into the value `old`, /repo/ie/packet-rate-status.go:147-194. -/
def into (old : PacketRateStatus) : P PacketRateStatus := do
  P.minLen 2
  let flags ← P.u8
  let u ← P.opt (hasUL flags) (dirInto (hasAPR flags) old.aul) (old.ul, old.aul)
  let d ← P.opt (hasDL flags) (dirInto (hasAPR flags) old.adl) (old.dl, old.adl)
  let t ← P.f64
  pure ⟨flags, u.1, u.2, d.1, d.2, ofNtp64 t⟩

end PacketRateStatus

namespace PMFAddressInformation

/-- `UnmarshalBinary` into the value `old`, /repo/ie/pmf-address-information.go:135-184. The MAC addresses are copied
into the slices that the value has (which changes the arrays they refer to). -/
def into (old : PMFAddressInformation) : P PMFAddressInformation := do
  P.minLen 1
  let flags ← P.u8
  let v4 ← P.opt (hasIPv4 flags) (P.ip 4) old.v4
  let v6 ← P.opt (hasIPv6 flags) (P.ip 16) old.v6
  let port1 ← P.f16
  let port2 ← P.f16
  let m1 ← P.field 6
  let m2 ← P.field 6
  pure ⟨flags, v4, v6, port1, port2, overCopyIP old.mac1 m1, overCopyIP old.mac2 m2⟩

end PMFAddressInformation

namespace RedirectInformation

/-- `UnmarshalBinary` into the value `old`, /repo/ie/redirect-information.go:111-139. -/
def into (old : RedirectInformation) : P RedirectInformation := do
  P.minLen 3
  let typ ← P.u8
  let n ← P.u16
  P.need n.toNat
  let a ← P.peekBytes n.toNat
  let m ← lenAt1
  let b ← (if m ≠ 0 then do
      P.skip 2
      P.need m.toNat
      P.bytes m.toNat
    else pure old.addr2)
  pure ⟨typ, n, a, m, b⟩

end RedirectInformation

namespace TraceInformation

/-- A length and `copy` of what follows, e.g. /repo/ie/trace-information.go:102-112. -/
def parseCopied : P (UInt8 × Bytes) := do
  let n ← parseOctet
  P.need n.toNat
  let x ← P.bytes n.toNat
  pure (n, x)

/-- `UnmarshalBinary` into the value `old`, /repo/ie/trace-information.go:88-144. The contents are copied into the
slices that the value has. -/
def into (old : TraceInformation) : P TraceInformation := do
  P.minLen 6
  let p ← parsePLMN
  let id ← P.bytes 3
  let n1 ← parseCopied
  let depth ← parseOctet
  let n2 ← parseCopied
  let n3 ← parseCopied
  pure ⟨p.1, p.2, id, n1.1, overCopy old.events n1.2, depth, n2.1, overCopy old.ifs n2.2, n3.1, overCopyIP old.ip n3.2⟩

end TraceInformation

namespace MACAddresses

/-- A tag, /repo/ie/mac-address-detected.go:124-132 and :134-142: the contents are taken from the length octet on. -/
def parseCopied : P (UInt8 × Bytes) := do
  P.need 0
  let n ← P.peek 0
  P.need n.toNat
  let x ← P.peekBytes n.toNat
  pure (n, x)

/-- `UnmarshalBinary` into the value `old`, /repo/ie/mac-address-detected.go:107-145, mac-address-removed.go:96-134. -/
def into (old : MACAddresses) : P MACAddresses := do
  P.minLen 1
  let n ← P.u8
  let macs ← parseMacs (n.toNat + 1)
  let ct ← parseCopied
  let st ← parseCopied
  pure ⟨n, old.macs ++ macs, ct.1, overCopy old.ctag ct.2, st.1, overCopy old.stag st.2⟩

end MACAddresses

namespace PFDContents

/-- A single text, e.g. /repo/ie/pfd-contents.go:251-256, with the old length in the check. -/
def textInto (len : UInt16) : P (UInt16 × Bytes) := do
  let r ← P.rest
  let o ← P.off
  if r.length < o + 2 + len.toNat then P.fail .unexpectedEOF
  else do
    let n ← P.u16
    let t ← P.bytes n.toNat
    pure (n, t)

/-- A list of texts, e.g. :296-316, with the old length in the check and the new texts behind the old. -/
def listInto (len : UInt16) (l : List Bytes) : P (UInt16 × List Bytes) := do
  let r ← P.rest
  if r.length < 2 + len.toNat then P.fail .unexpectedEOF
  else do
    let n ← P.u16
    let x ← parseItems n
    pure (x.1, l ++ x.2)

/-- `UnmarshalBinary` into the value `old`, :241-371. -/
def into (old : PFDContents) : P PFDContents := do
  P.minLen 2
  let fl ← P.peek 0
  P.skip 2
  let a ← P.opt (hasFD fl) (textInto old.fdLen) (old.fdLen, old.fd)
  let b ← P.opt (hasURL fl) (textInto old.urlLen) (old.urlLen, old.url)
  let c ← P.opt (hasDN fl) (textInto old.dnLen) (old.dnLen, old.dn)
  let d ← P.opt (hasCP fl) (textInto old.cpLen) (old.cpLen, old.cp)
  let e ← P.opt (hasDNP fl) (textInto old.dnpLen) (old.dnpLen, old.dnp)
  let f ← P.opt (hasAFD fl) (listInto old.afdLen old.afd) (old.afdLen, old.afd)
  let g ← P.opt (hasAURL fl) (listInto old.aurlLen old.aurl) (old.aurlLen, old.aurl)
  let h ← P.opt (hasADNP fl) (listInto old.adnpLen old.adnp) (old.adnpLen, old.adnp)
  pure ⟨fl, a.1, a.2, b.1, b.2, c.1, c.2, d.1, d.2, e.1, e.2, f.1, f.2, g.1, g.2, h.1, h.2⟩

end PFDContents

/-! ### Statement by statement -/

/-- One direction of a packet rate status. -/
theorem PacketRateStatus.dir_over {c apr : Bool} {x add : UInt16} {E : Prop} :
    P.Over E (fun a b => a = (if c then b.1 else x, if c && apr then b.2 else add))
      (P.opt c (PacketRateStatus.dirInto apr add) (x, add)) (P.opt c (PacketRateStatus.dirP apr) (0, 0)) := by
  cases c
  · exact P.Over.pure rfl
  · exact P.Over.bind (P.Over.refl _) fun _ _ h => P.Over.bind (P.Over.opt _ _ _) fun _ _ h' => P.Over.pure (by
      subst h h'
      rfl)

/-- One statement of both readers. -/
macro "over_step" : tactic => `(tactic| first
  | with_reducible refine P.Over.bind (P.Over.opt _ _ _) (fun _ _ h => ?_) <;> subst h
  | with_reducible refine P.Over.bind PacketRateStatus.dir_over (fun _ _ h => ?_) <;> subst h
  | with_reducible refine P.Over.bind (P.Over.refl _) (fun _ _ h => ?_) <;> subst h
  | with_reducible refine P.Over.ite (fun _ => ?_) (fun _ => ?_)
  | with_reducible refine P.Over.pure ?_)
/-- Both readers statement by statement. -/
macro "over" : tactic => `(tactic| (repeat' over_step) <;> first
  | rfl
  | (simp only [apply_ite Prod.fst, apply_ite Prod.snd] <;> rfl)
  | simp_all [FTEID.hasCh, FTEID.hasChID, FTEID.hasIPv4, FTEID.hasIPv6, IPMulticastAddress.hasAny,
      IPMulticastAddress.hasIPv4, IPMulticastAddress.hasIPv6, IPMulticastAddress.hasRange,
      UserPlaneIPResourceInformation.hasTEIDRI] <;> first | rfl | exact ⟨rfl, rfl⟩)

theorem hi_dec16 (x y : UInt8) : (dec16 [x, y] >>> 8).toUInt8 = x := by
  apply UInt8.toNat_inj.1
  have h : (dec16 [x, y]).toNat = 256 * x.toNat + y.toNat := by
    have := x.toNat_lt
    have := y.toNat_lt
    simp [dec16, beNat]
    omega
  have := x.toNat_lt
  have := y.toNat_lt
  simp only [UInt16.toNat_toUInt8, UInt16.toNat_shiftRight, h]
  simp [Nat.shiftRight_eq_div_pow]
  omega

theorem OuterHeaderCreation.parseDesc_over {E : Prop} :
    P.Over E (fun (a b : UInt8 × UInt16) => a = b ∧ b.1 = (b.2 >>> 8).toUInt8)
      OuterHeaderCreation.parseDesc OuterHeaderCreation.parseDesc := by
  intro s o
  right
  have h : ∀ r, OuterHeaderCreation.parseDesc s o = .ok r → r.1.1 = (r.1.2 >>> 8).toUInt8 := by
    intro r hr
    change P.bind (P.peek 0) (fun x => P.bind (P.bind (P.bytes 2) fun x => P.pure (dec16 x)) fun y => P.pure (x, y)) s o = _
      at hr
    unfold P.bind P.peek P.bytes Slice.idx Slice.sub at hr
    simp only at hr
    cases hx : s.data[o + 0]? with
    | none => rw [hx] at hr; cases hr
    | some x =>
      rw [hx] at hr
      simp only [Res.ok_bind] at hr
      obtain ⟨h0, rfl⟩ := List.getElem?_eq_some_iff.1 hx
      by_cases hb : o ≤ o + 2 ∧ o + 2 ≤ s.cap
      · rw [if_pos hb] at hr
        simp only [Res.ok_bind, P.pure] at hr
        have hl : (s.data ++ s.spare).length = s.cap := by simp [Slice.cap]
        have h1 : o < (s.data ++ s.spare).length := by omega
        have h2 : o + 1 < (s.data ++ s.spare).length := by omega
        have e : ((s.data ++ s.spare).take (o + 2)).drop o = [s.data[o + 0], (s.data ++ s.spare)[o + 1]] := by
          apply List.ext_getElem
          · simp only [List.length_drop, List.length_take, List.length_cons, List.length_nil]; omega
          · intro i hi1 hi2
            simp only [List.length_cons, List.length_nil] at hi2
            have : i = 0 ∨ i = 1 := by omega
            rcases this with rfl | rfl
            · simp only [List.getElem_drop, List.getElem_take, List.getElem_cons_zero]
              exact List.getElem_append_left _
            · simp only [List.getElem_drop, List.getElem_take, List.getElem_cons_succ, List.getElem_cons_zero]
        rw [e] at hr
        cases hr
        exact (hi_dec16 _ _).symm
      · rw [if_neg hb] at hr
        cases hr
  cases hr : OuterHeaderCreation.parseDesc s o with
  | ok r => exact ⟨⟨rfl, h r hr⟩, rfl⟩
  | err e => rfl
  | panic => trivial

/-- A tag is never read: the value stays what it was. -/
theorem OuterHeaderCreation.tag_over {E : Prop} {c : Bool} {d d' : UInt32} :
    P.Over E (fun a b => a = d ∧ b = d') (P.opt c OuterHeaderCreation.parseTag d)
      (P.opt c OuterHeaderCreation.parseTag d') := by
  cases c
  · exact P.Over.pure ⟨rfl, rfl⟩
  · intro s o
    right
    simp only [P.opt, if_true]
    cases hr : OuterHeaderCreation.parseTag s o with
    | err e => rfl
    | panic => trivial
    | ok r =>
      exfalso
      change P.bind (P.need 3) (fun _ => P.bind (P.bytes 3) fun _ => P.boom) s o = _ at hr
      unfold P.bind P.need P.boom at hr
      simp only at hr
      split at hr
      · split at hr <;> cases hr
      · cases hr
      · cases hr

/-- A length with contents that are copied and one with contents that are dropped. -/
theorem TraceInformation.copied_over {E : Prop} :
    P.Over E (fun a b => a.1 = b) TraceInformation.parseCopied TraceInformation.parseDropped :=
  P.Over.bind (P.Over.refl _) fun _ _ h => by
    subst h
    exact P.Over.bind (P.Over.refl _) fun _ _ _ => P.Over.bind (P.Over.refl _) fun _ _ _ => P.Over.pure rfl

theorem MACAddresses.copied_over {E : Prop} :
    P.Over E (fun a b => a.1 = b) MACAddresses.parseCopied MACAddresses.parseTag :=
  P.Over.bind (P.Over.refl _) fun _ _ _ => P.Over.bind (P.Over.refl _) fun _ _ h => by
    subst h
    exact P.Over.bind (P.Over.refl _) fun _ _ _ => P.Over.bind (P.Over.refl _) fun _ _ _ => P.Over.pure rfl

namespace PFDContents

/-- What is in the value after decoding `v` into `old`: parts that the flags announce are those of `v`, lists behind the
old ones; the others stay. -/
def laidOver (old v : PFDContents) : PFDContents :=
  { flags := v.flags
    fdLen := if has1stBit v.flags then v.fdLen else old.fdLen
    fd := if has1stBit v.flags then v.fd else old.fd
    urlLen := if has2ndBit v.flags then v.urlLen else old.urlLen
    url := if has2ndBit v.flags then v.url else old.url
    dnLen := if has3rdBit v.flags then v.dnLen else old.dnLen
    dn := if has3rdBit v.flags then v.dn else old.dn
    cpLen := if has4thBit v.flags then v.cpLen else old.cpLen
    cp := if has4thBit v.flags then v.cp else old.cp
    dnpLen := if has5thBit v.flags then v.dnpLen else old.dnpLen
    dnp := if has5thBit v.flags then v.dnp else old.dnp
    afdLen := if has6thBit v.flags then v.afdLen else old.afdLen
    afd := if has6thBit v.flags then old.afd ++ v.afd else old.afd
    aurlLen := if has7thBit v.flags then v.aurlLen else old.aurlLen
    aurl := if has7thBit v.flags then old.aurl ++ v.aurl else old.aurl
    adnpLen := if has8thBit v.flags then v.adnpLen else old.adnpLen
    adnp := if has8thBit v.flags then old.adnp ++ v.adnp else old.adnp }

/-- A part that the flags `fl` announce has a length in the used value. -/
def Lengths (old : PFDContents) (fl : UInt8) : Prop :=
    (has1stBit fl = true ∧ old.fdLen ≠ 0) ∨
    (has2ndBit fl = true ∧ old.urlLen ≠ 0) ∨
    (has3rdBit fl = true ∧ old.dnLen ≠ 0) ∨
    (has4thBit fl = true ∧ old.cpLen ≠ 0) ∨
    (has5thBit fl = true ∧ old.dnpLen ≠ 0) ∨
    (has6thBit fl = true ∧ old.afdLen ≠ 0) ∨
    (has7thBit fl = true ∧ old.aurlLen ≠ 0) ∨
    (has8thBit fl = true ∧ old.adnpLen ≠ 0)

theorem text_over {E : Prop} {c : Bool} {len : UInt16} {d d' : UInt16 × Bytes} (h : c = true ∧ len ≠ 0 → E) :
    P.Over E (fun a b => a = if c then b else d) (P.opt c (textInto len) d) (P.opt c parseText d') := by
  cases c
  · exact P.Over.pure rfl
  · refine P.Over.bind (P.Over.refl _) fun r _ e => ?_
    subst e
    refine P.Over.bind (P.Over.refl _) fun o _ e => ?_
    subst e
    intro s p
    by_cases h1 : r.length < o + 2 + 0
    · right
      rw [if_pos h1, if_pos (by omega)]
      rfl
    · rw [if_neg h1]
      by_cases h2 : r.length < o + 2 + len.toNat
      · left
        rw [if_pos h2]
        refine ⟨h ⟨rfl, ?_⟩, rfl⟩
        rintro rfl
        exact h1 h2
      · right
        rw [if_neg h2]
        have := P.Over.refl (E := False) (P.u16 >>= fun n => P.bytes n.toNat >>= fun t => (pure (n, t) : P (UInt16 × Bytes))) s p
        rcases this with ⟨f, _⟩ | this
        · exact f.elim
        · exact this

theorem list_over {E : Prop} {c : Bool} {len : UInt16} {l : List Bytes} {d d' : UInt16 × List Bytes}
    (h : c = true ∧ len ≠ 0 → E) :
    P.Over E (fun a b => a = if c then (b.1, l ++ b.2) else d) (P.opt c (listInto len l) d) (P.opt c parseList d') := by
  cases c
  · exact P.Over.pure rfl
  · refine P.Over.bind (P.Over.refl _) fun r _ e => ?_
    subst e
    intro s p
    by_cases h1 : r.length < 2 + 0
    · right
      rw [if_pos h1, if_pos (by omega)]
      rfl
    · rw [if_neg h1]
      by_cases h2 : r.length < 2 + len.toNat
      · left
        rw [if_pos h2]
        refine ⟨h ⟨rfl, ?_⟩, rfl⟩
        rintro rfl
        exact h1 h2
      · right
        rw [if_neg h2]
        have : P.Over False (fun a b : UInt16 × List Bytes => a = if true = true then (b.1, l ++ b.2) else d)
            (P.u16 >>= fun n => parseItems n >>= fun x => (pure (x.1, l ++ x.2) : P (UInt16 × List Bytes)))
            (P.u16 >>= fun n => parseItems n) := by
          refine P.Over.bind (P.Over.refl _) fun n _ e => ?_
          subst e
          intro s p
          right
          have eb : ∀ f : UInt16 × List Bytes → P (UInt16 × List Bytes),
              (parseItems n >>= f) s p = P.bind (parseItems n) f s p := fun _ => rfl
          rw [eb]
          unfold P.bind
          cases parseItems n s p with
          | ok r => exact ⟨rfl, rfl⟩
          | err e => rfl
          | panic => trivial
        rcases this s p with ⟨f, _⟩ | this
        · exact f.elim
        · exact this

theorem into_over {E : Prop} (old : PFDContents) (h : ∀ fl, Lengths old fl → E) :
    P.Over E (fun a b => a = laidOver old b) old.into parseP := by
  unfold into parseP
  refine P.Over.bind (P.Over.refl _) fun _ _ _ => ?_
  refine P.Over.bind (P.Over.refl _) fun fl _ e => ?_
  subst e
  refine P.Over.bind (P.Over.refl _) fun _ _ _ => ?_
  refine P.Over.bind (text_over fun g => h fl (Or.inl g)) fun _ _ e => ?_
  subst e
  refine P.Over.bind (text_over fun g => h fl (Or.inr (Or.inl g))) fun _ _ e => ?_
  subst e
  refine P.Over.bind (text_over fun g => h fl (Or.inr (Or.inr (Or.inl g)))) fun _ _ e => ?_
  subst e
  refine P.Over.bind (text_over fun g => h fl (Or.inr (Or.inr (Or.inr (Or.inl g))))) fun _ _ e => ?_
  subst e
  refine P.Over.bind (text_over fun g => h fl (Or.inr (Or.inr (Or.inr (Or.inr (Or.inl g)))))) fun _ _ e => ?_
  subst e
  refine P.Over.bind (list_over fun g => h fl (Or.inr (Or.inr (Or.inr (Or.inr (Or.inr (Or.inl g))))))) fun _ _ e => ?_
  subst e
  refine P.Over.bind (list_over fun g => h fl (Or.inr (Or.inr (Or.inr (Or.inr (Or.inr (Or.inr (Or.inl g)))))))) fun _ _ e => ?_
  subst e
  refine P.Over.bind (list_over fun g => h fl (Or.inr (Or.inr (Or.inr (Or.inr (Or.inr (Or.inr (Or.inr (g))))))))) fun _ _ e => ?_
  subst e
  refine P.Over.pure ?_
  unfold laidOver
  simp only [apply_ite Prod.fst, apply_ite Prod.snd]
  rfl

end PFDContents

end Fields
end Pfcp
