/- Property theorems C40-C43, C52, C53 for the elements of Misc.lean: HeaderEnrichment, CTAG and STAG, MACAddress,
SDFFilter. -/
import Verif.Fields.Misc

namespace Pfcp
namespace Fields

/-! ### HeaderEnrichment -/

theorem HeaderEnrichment.new_agree {typ : UInt8} {name value : Bytes} (hn : name.length < 256)
    (hv : value.length < 256) : (HeaderEnrichment.new typ name value).Agree := by
  constructor <;> simp only [HeaderEnrichment.new, UInt8.toNat_ofNat'] <;> omega

/-- C52. Type, then name and value, each behind a one-octet length. -/
theorem C52_HeaderEnrichment (typ : UInt8) (name value : Bytes) (hn : name.length < 256) (hv : value.length < 256) :
    HeaderEnrichment.codec.Encodes (HeaderEnrichment.new typ name value)
      ([typ, UInt8.ofNat name.length] ++ name ++ [UInt8.ofNat value.length] ++ value) := by
  unfold Codec.Encodes
  rw [HeaderEnrichment.emits _ (HeaderEnrichment.new_agree hn hv)]
  simp [HeaderEnrichment.enc, HeaderEnrichment.new]

theorem C40_HeaderEnrichment_partial (typ : UInt8) (name value : Bytes) (hn : name.length < 256)
    (hv : value.length < 256) :
    HeaderEnrichment.codec.Yields (HeaderEnrichment.new typ name value)
      ⟨typ, UInt8.ofNat name.length, name, UInt8.ofNat value.length, value⟩ :=
  ⟨_, HeaderEnrichment.emits _ (HeaderEnrichment.new_agree hn hv), fun tail sp =>
    HeaderEnrichment.reads _ (HeaderEnrichment.new_agree hn hv) tail sp⟩

/-- C40 is false for a name of 256 octets: the name comes back empty. -/
theorem C40_HeaderEnrichment_violated : ∃ w,
    HeaderEnrichment.codec.marshal (HeaderEnrichment.new 0 (List.replicate 256 65) [66]) = .ok w ∧
    HeaderEnrichment.codec.parse ⟨w, []⟩ = .ok ⟨0, 0, [], 1, [66]⟩ :=
  ⟨[0, 0, 1, 66] ++ List.replicate 256 0, by decide +kernel, by decide +kernel⟩

theorem C41_HeaderEnrichment : HeaderEnrichment.codec.NoPanic := HeaderEnrichment.good.run.1
theorem C42_HeaderEnrichment : HeaderEnrichment.codec.Local := HeaderEnrichment.good.run.2

/-- C43: it always builds something, also when lengths wrap. -/
theorem C43_HeaderEnrichment (typ : UInt8) (name value : Bytes) :
    HeaderEnrichment.codec.Builds (HeaderEnrichment.new typ name value) := by
  have e : ∀ (n : Nat) (bs : Bytes), n ≤ bs.length → W.Emits (W.copy n bs) (bs.take n) := by
    intro n bs h pre m hm
    have := W.Emits.copy (bs.take n) (n := n) (by rw [List.length_take]; omega) pre m hm
    unfold W.copy Slice.copyAt at this ⊢
    rw [show pre.length + n - pre.length = n by omega] at this ⊢
    rw [List.take_take, Nat.min_self] at this
    exact this
  have h1 : (UInt8.ofNat name.length).toNat ≤ name.length := by rw [UInt8.toNat_ofNat']; exact Nat.mod_le _ _
  have h2 : (UInt8.ofNat value.length).toNat ≤ value.length := by rw [UInt8.toNat_ofNat']; exact Nat.mod_le _ _
  have hw := W.Emits.seq (W.Emits.u8 typ) (W.Emits.seq (W.Emits.u8 (UInt8.ofNat name.length)) (W.Emits.seq (e _ _ h1)
    (W.Emits.seq (W.Emits.u8 (UInt8.ofNat value.length)) (e _ _ h2))))
  have hl : ([typ] ++ ([UInt8.ofNat name.length] ++ (name.take (UInt8.ofNat name.length).toNat ++
      ([UInt8.ofNat value.length] ++ value.take (UInt8.ofNat value.length).toNat)))).length
      ≤ (HeaderEnrichment.new typ name value).marshalLen := by
    simp only [HeaderEnrichment.new, HeaderEnrichment.marshalLen, List.length_append, List.length_cons,
      List.length_nil, List.length_take]
    omega
  have h3 := hw [] _ hl
  have h4 : ∃ r, (HeaderEnrichment.new typ name value).marshalW
      (Slice.make (HeaderEnrichment.new typ name value).marshalLen) 0 = .ok r := by
    unfold HeaderEnrichment.marshalW
    have h5 : ∀ w : W, (W.minLen 2 ;; w) (Slice.make (HeaderEnrichment.new typ name value).marshalLen) 0
        = w (Slice.make (HeaderEnrichment.new typ name value).marshalLen) 0 := by
      intro w
      unfold W.seq W.minLen Slice.make
      simp only [List.length_replicate]
      rw [if_neg (by simp only [HeaderEnrichment.marshalLen]; omega), Res.ok_bind]
    rw [h5]
    exact ⟨_, h3⟩
  obtain ⟨⟨r, o⟩, h4⟩ := h4
  refine ⟨r.data, ?_⟩
  show W.marshal _ _ = _
  unfold W.marshal W.run
  rw [h4]
  rfl

theorem C53_HeaderEnrichment : HeaderEnrichment.codec.Lossless := by
  intro s v h
  obtain ⟨w, post, e, ⟨rfl, hv⟩, _⟩ := HeaderEnrichment.takes s v h
  exact ⟨_, post, HeaderEnrichment.emits v hv, e⟩

example : HeaderEnrichment.codec.parse ⟨[0, 1, 65, 2, 66, 67, 9], []⟩ = .ok ⟨0, 1, [65], 2, [66, 67]⟩ := by decide

/-! ### CTAG, STAG -/

/-- C52. The 12-bit VID is split: its upper four bits are the upper half of the second octet, above DEI and PCP. -/
theorem C52_Tag (flags pcp dei : UInt8) (cvid : UInt16) (hp : pcp.toNat < 8) (hd : dei.toNat < 2)
    (hc : cvid.toNat < 4096) :
    Tag.codec.Encodes (Tag.new flags pcp dei cvid)
      [flags, UInt8.ofNat (16 * (cvid.toNat / 256) + 8 * dei.toNat + pcp.toNat), UInt8.ofNat (cvid.toNat % 256)] := by
  unfold Codec.Encodes
  rw [Tag.emits]
  unfold Tag.enc
  rw [Tag.be_bits _ hp hd hc]
  rfl

/-- C40 for VIDs below 256. -/
theorem C40_Tag_partial (flags pcp dei : UInt8) (cvid : UInt16) (hp : pcp.toNat < 8) (hd : dei.toNat < 2)
    (hc : cvid.toNat < 256) :
    Tag.codec.Yields (Tag.new flags pcp dei cvid)
      ⟨flags, if bit flags 0 then pcp else 0, if bit flags 1 then dei else 0, if bit flags 2 then cvid else 0⟩ := by
  refine ⟨_, Tag.emits _, fun tail sp => ?_⟩
  rw [Tag.reads (Tag.new flags pcp dei cvid) hp hd (by show cvid.toNat < 4096; omega)]
  simp only [has1stBit_eq, has2ndBit_eq, has3rdBit_eq, Tag.new]
  have : UInt16.ofNat (4096 * (cvid.toNat / 256) + cvid.toNat % 256) = cvid := by
    apply UInt16.toNat_inj.1
    rw [UInt16.toNat_ofNat']
    omega
  rw [this]

/-- C40 is false for every other VID of 12 bits: a different one comes back. -/
theorem C40_Tag_violated (flags pcp dei : UInt8) (cvid : UInt16) (hp : pcp.toNat < 8) (hd : dei.toNat < 2)
    (hc : 256 ≤ cvid.toNat) (hc' : cvid.toNat < 4096) (hf : bit flags 2 = true) :
    ∃ w v, Tag.codec.marshal (Tag.new flags pcp dei cvid) = .ok w ∧ Tag.codec.parse ⟨w, []⟩ = .ok v ∧
      v.cvid.toNat = 4096 * (cvid.toNat / 256) + cvid.toNat % 256 ∧ v.cvid ≠ cvid := by
  have r := Tag.reads (Tag.new flags pcp dei cvid) hp hd hc' [] []
  rw [List.append_nil] at r
  have e : (UInt16.ofNat (4096 * (cvid.toNat / 256) + cvid.toNat % 256)).toNat =
      4096 * (cvid.toNat / 256) + cvid.toNat % 256 := by
    rw [UInt16.toNat_ofNat']; omega
  refine ⟨_, _, Tag.emits _, r, ?_, ?_⟩
  · simp only [Tag.new, has3rdBit_eq, hf, if_true]
    exact e
  · simp only [Tag.new, has3rdBit_eq, hf, if_true]
    intro h
    have := congrArg UInt16.toNat h
    rw [e] at this
    omega

theorem C41_Tag : Tag.codec.NoPanic := by
  rintro ⟨d, sp⟩ h
  match d with
  | f :: x :: y :: rest => rw [Tag.parse_eq] at h; cases h
  | [] => rw [Tag.parse_short _ (by simp)] at h; cases h
  | [a] => rw [Tag.parse_short _ (by simp)] at h; cases h
  | [a, b] => rw [Tag.parse_short _ (by simp)] at h; cases h
theorem C42_Tag : Tag.codec.Local := by
  intro d sp sp'
  match d with
  | f :: x :: y :: rest => rw [Tag.parse_eq, Tag.parse_eq]
  | [] => rw [Tag.parse_short _ (by simp), Tag.parse_short _ (by simp)]
  | [a] => rw [Tag.parse_short _ (by simp), Tag.parse_short _ (by simp)]
  | [a, b] => rw [Tag.parse_short _ (by simp), Tag.parse_short _ (by simp)]
theorem C43_Tag (flags pcp dei : UInt8) (cvid : UInt16) : Tag.codec.Builds (Tag.new flags pcp dei cvid) :=
  ⟨_, Tag.emits _⟩

/-- C53 is false: an upper VID half is lost. -/
theorem C53_Tag_violated : Tag.codec.parse ⟨[7, 0x10, 0x01], []⟩ = .ok ⟨7, 0, 0, 0x1001⟩ ∧
    Tag.codec.marshal ⟨7, 0, 0, 0x1001⟩ = .ok [7, 0, 1] := by decide
/-- C53 when the three fields are announced and the VID is below 256. -/
theorem C53_Tag_partial (s : Slice) (v : Tag) (h : Tag.codec.parse s = .ok v)
    (hf : bit v.flags 0 = true ∧ bit v.flags 1 = true ∧ bit v.flags 2 = true) (hc : v.cvid.toNat < 256) :
    ∃ w post, Tag.codec.marshal v = .ok w ∧ s.data = w ++ post := by
  obtain ⟨f, x, y, rest, hd, rfl⟩ := Tag.parse_inv s v h
  simp only [has1stBit_eq, has2ndBit_eq, has3rdBit_eq] at hf hc ⊢
  obtain ⟨h1, h2, h3⟩ := hf
  simp only [h1, h2, h3, if_true] at hc ⊢
  refine ⟨_, rest, Tag.emits _, ?_⟩
  rw [hd]
  have e := Tag.dec_bits x y
  rw [e] at hc
  have hx : ∀ x : UInt8, (x &&& 0xf0).toNat = 0 → (x &&& 0x07).toNat < 8 ∧ ((x >>> 3) &&& 0x01).toNat < 2 ∧
      UInt8.ofNat (8 * ((x >>> 3) &&& 0x01).toNat + (x &&& 0x07).toNat) = x := by
    exact forall_byte (by decide +kernel)
  obtain ⟨k1, k2, k3⟩ := hx x (by omega)
  unfold Tag.enc
  rw [Tag.be_bits _ k1 k2 (by show (dec16 [x, y] &&& 0xf0ff).toNat < 4096; omega)]
  simp only
  rw [e, show (x &&& 0xf0).toNat = 0 by omega]
  have hy := y.toNat_lt
  rw [show 16 * ((256 * 0 + y.toNat) / 256) + 8 * (x >>> 3 &&& 1).toNat + (x &&& 7).toNat
    = 8 * (x >>> 3 &&& 1).toNat + (x &&& 7).toNat by omega, k3,
    show (256 * 0 + y.toNat) % 256 = y.toNat by omega, UInt8.ofNat_toNat]
  rfl

example : Tag.codec.parse ⟨[7, 0x0d, 0x2a, 9], []⟩ = .ok ⟨7, 5, 1, 42⟩ := by decide

/-! ### MACAddress -/

/-- Given addresses are six octets long. -/
def Is6 (m : Option Bytes) : Prop := ∀ a, m = some a → a.length = 6

theorem Is6.long {m : Option Bytes} (h : Is6 m) : MACAddress.Long m := fun a e => by rw [h a e]; exact Nat.le_refl _
theorem Is6.wire {m : Option Bytes} (h : Is6 m) : MACAddress.wire m = m.getD [] := by
  cases m with
  | none => rfl
  | some a => exact List.take_of_length_le (by rw [h a rfl]; exact Nat.le_refl _)
theorem Is6.map {m : Option Bytes} (h : Is6 m) : m.map (·.take 6) = m := by
  cases m with
  | none => rfl
  | some a => exact congrArg some (List.take_of_length_le (by rw [h a rfl]; exact Nat.le_refl _))

theorem MACAddress.new_agree (a b c d : Option Bytes) (ha : MACAddress.Long a) (hb : MACAddress.Long b)
    (hc : MACAddress.Long c) (hd : MACAddress.Long d) : (MACAddress.new a b c d).Agree := by
  obtain ⟨h1, h2, h3, h4⟩ := MACAddress.new_flags a b c d
  exact ⟨⟨h1, ha⟩, ⟨h2, hb⟩, ⟨h3, hc⟩, h4, hd⟩

/-- C52. -/
theorem C52_MACAddress (a b c d : Option Bytes) (ha : Is6 a) (hb : Is6 b) (hc : Is6 c) (hd : Is6 d) :
    MACAddress.codec.Encodes (MACAddress.new a b c d)
      ([(if a.isSome then 1 else 0) + (if b.isSome then 2 else 0) + (if c.isSome then 4 else 0) +
        (if d.isSome then 8 else 0)] ++ a.getD [] ++ b.getD [] ++ c.getD [] ++ d.getD []) := by
  unfold Codec.Encodes
  rw [MACAddress.emits _ (MACAddress.new_agree a b c d ha.long hb.long hc.long hd.long)]
  unfold MACAddress.enc MACAddress.new
  rw [ha.wire, hb.wire, hc.wire, hd.wire]
  cases a <;> cases b <;> cases c <;> cases d <;> simp <;> decide

/-- C40, when an address is given. -/
theorem C40_MACAddress_partial (a b c d : Option Bytes) (ha : Is6 a) (hb : Is6 b) (hc : Is6 c) (hd : Is6 d)
    (h : a.isSome = true ∨ b.isSome = true ∨ c.isSome = true ∨ d.isSome = true) :
    MACAddress.codec.Yields (MACAddress.new a b c d)
      ⟨(if a.isSome then 1 else 0) + (if b.isSome then 2 else 0) + (if c.isSome then 4 else 0) +
        (if d.isSome then 8 else 0), a, b, c, d⟩ := by
  have hag := MACAddress.new_agree a b c d ha.long hb.long hc.long hd.long
  refine ⟨_, MACAddress.emits _ hag, fun tail sp => ?_⟩
  rw [MACAddress.reads _ hag]
  · simp only [MACAddress.new, ha.map, hb.map, hc.map, hd.map]
    cases a <;> cases b <;> cases c <;> cases d <;> simp <;> decide
  · rw [MACAddress.enc_length _ hag]
    unfold MACAddress.marshalLen MACAddress.new
    cases a <;> cases b <;> cases c <;> cases d <;> simp at h ⊢

/-- C40 is false without addresses: the encoding of no address is refused by the decoder. -/
theorem C40_MACAddress_violated : ∃ w, MACAddress.codec.marshal (MACAddress.new none none none none) = .ok w ∧
    MACAddress.codec.parse ⟨w, []⟩ = .err .unexpectedEOF := ⟨[0], by decide, by decide⟩
theorem C41_MACAddress : MACAddress.codec.NoPanic := MACAddress.good.run.1
theorem C42_MACAddress : MACAddress.codec.Local := MACAddress.good.run.2
/-- C43, with addresses of at least six octets. -/
theorem C43_MACAddress_partial (a b c d : Option Bytes) (ha : MACAddress.Long a) (hb : MACAddress.Long b)
    (hc : MACAddress.Long c) (hd : MACAddress.Long d) : MACAddress.codec.Builds (MACAddress.new a b c d) :=
  ⟨_, MACAddress.emits _ (MACAddress.new_agree a b c d ha hb hc hd)⟩
/-- C43 is false for a shorter one: the constructor panics. -/
theorem C43_MACAddress_violated : MACAddress.codec.marshal (MACAddress.new (some [1, 2, 3]) none none none) = .panic := by
  decide
theorem C53_MACAddress : MACAddress.codec.Lossless := by
  intro s v h
  obtain ⟨w, post, e, ⟨rfl, hv⟩, _⟩ := MACAddress.takes s v h
  exact ⟨_, post, MACAddress.emits v hv, e⟩

example : Is6 (some [1, 2, 3, 4, 5, 6]) := by intro a h; cases h; rfl

/-! ### SDFFilter -/

/-- The lengths that the wire format gives to the fields; an empty string means absent. -/
def SDFFilterArgs (fd ttc spi fl : Bytes) : Prop :=
  fd.length < 65536 ∧ (ttc = [] ∨ ttc.length = 2) ∧ (spi = [] ∨ spi.length = 4) ∧ (fl = [] ∨ fl.length = 3)

theorem SDFFilter.new_sized {fd ttc spi fl : Bytes} (h : SDFFilterArgs fd ttc spi fl) (fid : UInt32) :
    (SDFFilter.new fd ttc spi fl fid).Sized := by
  obtain ⟨h1, h2, h3, h4⟩ := h
  obtain ⟨f1, f2, f3, f4, _⟩ := SDFFilter.new_flags fd ttc spi fl fid
  refine ⟨?_, ?_, ?_, ?_⟩
  · rw [f1]
    intro hc
    have hc : fd ≠ [] := of_decide_eq_true hc
    show fd.length = UInt16.toNat (if fd ≠ [] then _ else _)
    rw [if_pos hc, UInt16.toNat_ofNat']
    omega
  · rw [f2]
    intro hc
    exact h2.resolve_left (of_decide_eq_true hc)
  · rw [f3]
    intro hc
    exact h3.resolve_left (of_decide_eq_true hc)
  · rw [f4]
    intro hc
    exact h4.resolve_left (of_decide_eq_true hc)

/-- C52. Flags, a spare zero octet, the flow description behind its length, then the fixed-length fields. -/
theorem C52_SDFFilter (fd ttc spi fl : Bytes) (fid : UInt32) (h : SDFFilterArgs fd ttc spi fl) :
    SDFFilter.codec.Encodes (SDFFilter.new fd ttc spi fl fid)
      ([(if fd = [] then 0 else 1) + (if ttc = [] then 0 else 2) + (if spi = [] then 0 else 4) +
        (if fl = [] then 0 else 8) + (if fid = 0 then 0 else 16), 0] ++
        (if fd = [] then [] else be16 (UInt16.ofNat fd.length) ++ fd) ++ ttc ++ spi ++ fl ++
        (if fid = 0 then [] else be32 fid)) := by
  unfold Codec.Encodes
  rw [SDFFilter.emits _ (SDFFilter.new_sized h fid)]
  obtain ⟨f1, f2, f3, f4, f5⟩ := SDFFilter.new_flags fd ttc spi fl fid
  unfold SDFFilter.enc
  rw [f1, f2, f3, f4, f5]
  unfold SDFFilter.new
  by_cases c1 : fd = [] <;> by_cases c2 : ttc = [] <;> by_cases c3 : spi = [] <;> by_cases c4 : fl = [] <;>
    by_cases c5 : fid = 0 <;> simp [c1, c2, c3, c4, c5] <;> decide

/-- C40, with fields of the lengths that the wire format has, not all absent. -/
theorem C40_SDFFilter_partial (fd ttc spi fl : Bytes) (fid : UInt32) (h : SDFFilterArgs fd ttc spi fl)
    (hn : fd ≠ [] ∨ ttc ≠ [] ∨ spi ≠ [] ∨ fl ≠ [] ∨ fid ≠ 0) :
    SDFFilter.codec.Yields (SDFFilter.new fd ttc spi fl fid)
      ⟨(if fd = [] then 0 else 1) + (if ttc = [] then 0 else 2) + (if spi = [] then 0 else 4) +
        (if fl = [] then 0 else 8) + (if fid = 0 then 0 else 16), UInt16.ofNat fd.length, fd, ttc, spi, fl, fid⟩ := by
  have hs := SDFFilter.new_sized h fid
  obtain ⟨f1, f2, f3, f4, f5⟩ := SDFFilter.new_flags fd ttc spi fl fid
  refine ⟨_, SDFFilter.emits _ hs, fun tail sp => ?_⟩
  rw [SDFFilter.reads _ hs]
  · rw [f1, f2, f3, f4, f5]
    unfold SDFFilter.new
    by_cases c1 : fd = [] <;> by_cases c2 : ttc = [] <;> by_cases c3 : spi = [] <;> by_cases c4 : fl = [] <;>
      by_cases c5 : fid = 0 <;> simp [c1, c2, c3, c4, c5] <;> decide
  · rw [f1]
    exact of_decide_eq_true
  · rw [SDFFilter.enc_length _ hs]
    unfold SDFFilter.marshalLen
    rw [f1, f2, f3, f4, f5]
    rcases hn with hn | hn | hn | hn | hn <;> simp only [hn, ne_eq, not_false_eq_true, decide_true, if_true] <;>
      (repeat' split) <;> omega

/-- C40 is false for an empty filter. -/
theorem C40_SDFFilter_violated : ∃ w, SDFFilter.codec.marshal (SDFFilter.new [] [] [] [] 0) = .ok w ∧
    SDFFilter.codec.parse ⟨w, []⟩ = .err .unexpectedEOF := ⟨[0, 0], by decide, by decide⟩
/-- A three-octet traffic class is cut, a one-octet one padded. -/
theorem C40_SDFFilter_ttc_violated :
    (∃ w, SDFFilter.codec.marshal (SDFFilter.new [] [1, 2, 3] [] [] 0) = .ok w ∧
      SDFFilter.codec.parse ⟨w, []⟩ = .ok ⟨2, 0, [], [1, 2], [], [], 0⟩) ∧
    (∃ w, SDFFilter.codec.marshal (SDFFilter.new [] [1] [] [] 0) = .ok w ∧
      SDFFilter.codec.parse ⟨w, []⟩ = .ok ⟨2, 0, [], [1, 0], [], [], 0⟩) :=
  ⟨⟨[2, 0, 1, 2], by decide, by decide⟩, ⟨[2, 0, 1, 0], by decide, by decide⟩⟩

/-- C43: the constructor always builds something for a flow description that fits. -/
theorem C43_SDFFilter_partial (fd ttc spi fl : Bytes) (fid : UInt32) (h : SDFFilterArgs fd ttc spi fl) :
    SDFFilter.codec.Builds (SDFFilter.new fd ttc spi fl fid) := ⟨_, SDFFilter.emits _ (SDFFilter.new_sized h fid)⟩

/-- C41 is false: a flow description longer than the element, at the end of the buffer. -/
theorem C41_SDFFilter_violated : SDFFilter.codec.parse ⟨[1, 0, 0, 9, 65], []⟩ = .panic := by decide

/-- C42 is false: whenever only a flow description is announced and its length exceeds the element, the decoder takes
the missing octets from the buffer behind the element. -/
theorem C42_SDFFilter_violated (n1 n2 : UInt8) (rest sp : Bytes) (h0 : rest ≠ [])
    (h : (dec16 [n1, n2]).toNat ≤ rest.length + sp.length) :
    SDFFilter.codec.parse ⟨1 :: 0 :: n1 :: n2 :: rest, sp⟩
      = .ok ⟨1, dec16 [n1, n2], (rest ++ sp).take (dec16 [n1, n2]).toNat, [], [], [], 0⟩ := by
  rw [show SDFFilter.codec.parse ⟨1 :: 0 :: n1 :: n2 :: rest, sp⟩ = _ from P.run_minLen_eq (by simp)]
  apply P.run_ok (o := 4 + (dec16 [n1, n2]).toNat)
  have hl : 0 < rest.length := List.length_pos_iff.2 h0
  rw [P.bind_ok (a := 1) (o' := 1) (by rfl), P.bind_ok (a := ()) (o' := 2) (by rfl)]
  rw [show SDFFilter.hasFD 1 = true by decide, show SDFFilter.hasTTC 1 = false by decide,
    show SDFFilter.hasSPI 1 = false by decide, show SDFFilter.hasFL 1 = false by decide,
    show SDFFilter.hasBID 1 = false by decide]
  simp only [P.opt_true, P.opt_false, P.bind_pure']
  rw [P.bind_ok (a := (dec16 [n1, n2], (rest ++ sp).take (dec16 [n1, n2]).toNat))
    (o' := 4 + (dec16 [n1, n2]).toNat)]
  · rfl
  · unfold SDFFilter.parseFD
    rw [P.bind_ok (a := ()) (o' := 2)]
    · rw [P.bind_ok (a := dec16 [n1, n2]) (o' := 4)]
      · rw [P.bind_ok (a := (rest ++ sp).take (dec16 [n1, n2]).toNat) (o' := 4 + (dec16 [n1, n2]).toNat)]
        · rfl
        · unfold P.bytes Slice.sub Slice.cap
          simp only [List.length_cons]
          rw [if_pos (by omega), Res.ok_bind]
          simp only [List.cons_append]
          rw [show 4 + (dec16 [n1, n2]).toNat = (dec16 [n1, n2]).toNat + 1 + 1 + 1 + 1 by omega]
          rfl
      · unfold P.u16
        rw [P.bind_ok (a := [n1, n2]) (o' := 4)]
        · rfl
        · unfold P.bytes
          rw [P.sub_data _ _ _ _ (by omega) (by simp)]
          rfl
    · rw [SDFFilter.left_eq 3 (by simp)]
      unfold P.need
      exact if_neg (by simp; omega)

/-- The flow description, if announced, ends inside the element. -/
def SDFFilterFits (d : Bytes) : Prop :=
  ∀ f x n1 n2 rest, d = f :: x :: n1 :: n2 :: rest → bit f 0 = true → (dec16 [n1, n2]).toNat ≤ rest.length

/-- The decoder behind the flow description. -/
def SDFFilter.parseTail (flags : UInt8) (fd : UInt16 × Bytes) : P SDFFilter := do
  let ttc ← P.opt (hasTTC flags) (parseN 2) []
  let spi ← P.opt (hasSPI flags) (parseN 4) []
  let fl ← P.opt (hasFL flags) (parseN 3) []
  let bid ← P.opt (hasBID flags) (P.left 4 >>= fun _ => P.u32) 0
  pure ⟨flags, fd.1, fd.2, ttc, spi, fl, bid⟩

theorem SDFFilter.good_tail (flags : UInt8) (fd : UInt16 × Bytes) : P.Good 0 (SDFFilter.parseTail flags fd) 0 := by
  have g : ∀ (c : Bool) n, P.Good 0 (P.opt c (SDFFilter.parseN n) []) 0 := fun c n =>
    P.Good.opt (SDFFilter.good_parseN n) (Nat.le_refl _)
  exact P.Good.bind (g _ 2) fun _ => P.Good.bind (g _ 4) fun _ => P.Good.bind (g _ 3) fun _ => P.Good.bind
    (P.Good.opt (P.Good.bind (SDFFilter.good_left 4) fun _ => P.Good.u32) (Nat.le_refl _)) fun _ =>
    P.Good.pure _ (Nat.le_refl _)

/-- Without an overlong flow description the decoder neither panics nor looks behind the element. -/
theorem SDFFilter.parse_fits (d sp : Bytes) (h : SDFFilterFits d) :
    SDFFilter.codec.parse ⟨d, sp⟩ ≠ .panic ∧ ∀ sp', SDFFilter.codec.parse ⟨d, sp⟩ = SDFFilter.codec.parse ⟨d, sp'⟩ := by
  have run_good : ∀ (p : P SDFFilter) (o : Nat) (d : Bytes), P.Good 0 p 0 → o ≤ d.length → ∀ q : P SDFFilter,
      (∀ sp, q ⟨d, sp⟩ 0 = p ⟨d, sp⟩ o) → q.run ⟨d, sp⟩ ≠ .panic ∧ ∀ sp', q.run ⟨d, sp⟩ = q.run ⟨d, sp'⟩ := by
    intro p o d hp ho q hq
    obtain ⟨g1, g2, _⟩ := hp d sp o (by omega)
    unfold P.run
    rw [hq]
    refine ⟨?_, fun sp' => by rw [hq sp', g2 sp']⟩
    intro hr
    cases hx : p ⟨d, sp⟩ o with
    | panic => exact g1 hx
    | err e => rw [hx] at hr; cases hr
    | ok r => rw [hx] at hr; cases hr
  by_cases hl : d.length < 3
  · have e : ∀ sp, SDFFilter.codec.parse ⟨d, sp⟩ = .err .unexpectedEOF := fun sp => P.run_minLen_err hl
    refine ⟨by rw [e]; simp, fun sp' => by rw [e, e]⟩
  · match d, hl, h with
    | [], hl, _ => simp at hl
    | [_], hl, _ => simp at hl
    | [_, _], hl, _ => simp at hl
    | f :: x :: n1 :: r, hl, h =>
      have e0 : ∀ sp, SDFFilter.parseP ⟨f :: x :: n1 :: r, sp⟩ 0 =
          (P.opt (SDFFilter.hasFD f) SDFFilter.parseFD (0, []) >>= SDFFilter.parseTail f) ⟨f :: x :: n1 :: r, sp⟩ 2 := by
        intro sp
        unfold SDFFilter.parseP
        rw [P.bind_ok (a := ()) (o' := 0) (by unfold P.minLen; rw [if_neg (by simp)]),
          P.bind_ok (a := f) (o' := 1) (by rfl), P.bind_ok (a := ()) (o' := 2) (by rfl)]
        rfl
      cases hf : SDFFilter.hasFD f
      · refine run_good _ _ _ (SDFFilter.good_tail f (0, [])) (by simp : 2 ≤ _) SDFFilter.parseP ?_
        intro sp
        rw [e0 sp, hf]
        rfl
      · by_cases h5 : (f :: x :: n1 :: r).length < 5
        · refine run_good _ _ _ (P.Good.fail .unexpectedEOF) (by simp : 2 ≤ _) SDFFilter.parseP ?_
          intro sp
          rw [e0 sp, hf, P.opt_true]
          apply P.bind_err
          apply P.bind_err
          rw [SDFFilter.left_eq 3 (by simp)]
          unfold P.need
          exact if_pos (by simp only; omega)
        · match r, h5, h, e0 with
          | [], h5, _, _ => simp at h5
          | [_], h5, _, _ => simp at h5
          | n2 :: y :: rest, h5, h, e0 =>
            have hb := h f x n1 n2 (y :: rest) rfl (by rw [← has1stBit_eq]; exact hf)
            simp only [List.length_cons] at hb
            refine run_good _ _ _ (SDFFilter.good_tail f (dec16 [n1, n2], (y :: rest).take (dec16 [n1, n2]).toNat))
              (by simp only [List.length_cons]; omega : 4 + (dec16 [n1, n2]).toNat ≤ _) SDFFilter.parseP ?_
            intro sp
            rw [e0 sp, hf, P.opt_true]
            apply P.bind_ok
            unfold SDFFilter.parseFD
            rw [P.bind_ok (a := ()) (o' := 2)]
            · rw [P.bind_ok (a := dec16 [n1, n2]) (o' := 4)]
              · rw [P.bind_ok (a := (y :: rest).take (dec16 [n1, n2]).toNat) (o' := 4 + (dec16 [n1, n2]).toNat)]
                · rfl
                · unfold P.bytes
                  rw [P.sub_data _ _ _ _ (by omega) (by simp only [List.length_cons]; omega), Res.ok_bind,
                    show 4 + (dec16 [n1, n2]).toNat = (dec16 [n1, n2]).toNat + 1 + 1 + 1 + 1 by omega]
                  rfl
              · unfold P.u16
                rw [P.bind_ok (a := [n1, n2]) (o' := 4)]
                · rfl
                · unfold P.bytes
                  rw [P.sub_data _ _ _ _ (by omega) (by simp)]
                  rfl
            · rw [SDFFilter.left_eq 3 (by simp)]
              unfold P.need
              exact if_neg (by simp)

/-- C41 for elements whose flow description ends inside. -/
theorem C41_SDFFilter_partial (s : Slice) (h : SDFFilterFits s.data) : SDFFilter.codec.parse s ≠ .panic :=
  (SDFFilter.parse_fits s.data s.spare h).1
/-- C42 for elements whose flow description ends inside. -/
theorem C42_SDFFilter_partial (d sp sp' : Bytes) (h : SDFFilterFits d) :
    SDFFilter.codec.parse ⟨d, sp⟩ = SDFFilter.codec.parse ⟨d, sp'⟩ := (SDFFilter.parse_fits d sp h).2 sp'

/-- C53 is false: the spare octet is lost. -/
theorem C53_SDFFilter_violated : SDFFilter.codec.parse ⟨[2, 7, 1, 2], []⟩ = .ok ⟨2, 0, [], [1, 2], [], [], 0⟩ ∧
    SDFFilter.codec.marshal ⟨2, 0, [], [1, 2], [], [], 0⟩ = .ok [2, 0, 1, 2] := by decide

example : SDFFilterFits [1, 0, 0, 2, 65, 66] := by
  intro f x n1 n2 rest h _
  cases h
  decide
example : SDFFilterArgs [65] [1, 2] [] [] := by refine ⟨by decide, Or.inr rfl, Or.inl rfl, Or.inl rfl⟩
example : SDFFilter.codec.parse ⟨[0x13, 0, 0, 1, 65, 1, 2, 0, 0, 0, 9], []⟩
    = .ok ⟨0x13, 1, [65], [1, 2], [], [], 9⟩ := by decide

end Fields
end Pfcp
