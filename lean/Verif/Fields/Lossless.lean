/- Property theorems C53, exactly: for the structured elements whose codec loses something, precisely the accepted
octets that come back when what was decoded is encoded again. -/
import Verif.Fields.Props6
import Verif.Fields.Ends
import Verif.Fields.Keep6

namespace Pfcp
namespace Fields

/-! ### DLFlowLevelMarking and PacketRate -/

/-- C53, exactly: something must be announced. -/
theorem C53_DLFlowLevelMarking_exact (s : Slice) (v : DLFlowLevelMarking)
    (h : DLFlowLevelMarking.codec.parse s = .ok v) :
    (∃ w post, DLFlowLevelMarking.codec.marshal v = .ok w ∧ s.data = w ++ post) ↔
      bit v.flags 0 = true ∨ bit v.flags 1 = true := by
  refine ⟨?_, C53_DLFlowLevelMarking_partial s v h⟩
  rintro ⟨w, post, hm, _⟩
  have := C43_DLFlowLevelMarking_exact v
  rw [hm] at this
  revert this
  cases bit v.flags 0 <;> cases bit v.flags 1 <;> simp [Res.ended]

example : DLFlowLevelMarking.codec.parse ⟨[2, 1, 1, 9], []⟩ = .ok ⟨2, 0, 257⟩ := by decide

/-- C53, exactly: something must be announced. -/
theorem C53_PacketRate_exact (s : Slice) (v : PacketRate) (h : PacketRate.codec.parse s = .ok v) :
    (∃ w post, PacketRate.codec.marshal v = .ok w ∧ s.data = w ++ post) ↔
      bit v.flags 0 = true ∨ bit v.flags 1 = true := by
  refine ⟨?_, C53_PacketRate_partial s v h⟩
  rintro ⟨w, post, hm, _⟩
  have := C43_PacketRate_exact v
  rw [hm] at this
  revert this
  cases bit v.flags 0 <;> cases bit v.flags 1 <;> simp [Res.ended]

/-! ### PacketRateStatus -/

theorem ofNtp64_inj {a b : UInt64} (h : PacketRateStatus.ofNtp64 a = PacketRateStatus.ofNtp64 b) : a = b := by
  unfold PacketRateStatus.ofNtp64 at h
  have h1 : (a - 2208988800).toInt64.toInt * 1000000000 = (b - 2208988800).toInt64.toInt * 1000000000 := h
  have h2 : (a - 2208988800).toInt64.toInt = (b - 2208988800).toInt64.toInt := by omega
  have h3 : (a - 2208988800).toBitVec.toInt = (b - 2208988800).toBitVec.toInt := h2
  have h4 := BitVec.eq_of_toInt_eq h3
  have h5 : a - 2208988800 = b - 2208988800 := UInt64.toBitVec_inj.1 h4
  have h6 := congrArg (· + 2208988800) h5
  simpa using h6

/-- C53, exactly: the validity time must be one of the 292 years from 1900 on. -/
theorem C53_PacketRateStatus_exact (s : Slice) (v : PacketRateStatus) (h : PacketRateStatus.codec.parse s = .ok v) :
    (∃ w post, PacketRateStatus.codec.marshal v = .ok w ∧ s.data = w ++ post) ↔
      ∃ t : Int, -2208988800 ≤ t ∧ t ≤ 7014383236 ∧ v.vtime = unix t := by
  rw [← ofNtp64_keeps]
  constructor
  · rintro ⟨w, post, hm, e⟩
    rw [PacketRateStatus.emits v] at hm
    cases hm
    obtain ⟨d, sp⟩ := s
    simp only at e
    subst e
    rw [PacketRateStatus.reads v post sp] at h
    have h' := Res.ok.inj h
    have := congrArg PacketRateStatus.vtime h'
    exact this
  · intro ht
    obtain ⟨w, post, e, ⟨n, _, hv, hw⟩, _⟩ := PacketRateStatus.takes s v h
    refine ⟨_, post, PacketRateStatus.emits v, ?_⟩
    rw [e, hw (ofNtp64_inj (ht.trans hv))]

example : PacketRateStatus.codec.parse ⟨[0, 0, 0, 0, 0, 0, 0, 0, 0], []⟩ =
    .ok ⟨0, 0, 0, 0, 0, unix (-2208988800)⟩ := by decide +kernel

/-! ### PMFAddressInformation -/

/-- C53, exactly: the twelve octets behind the ports, where the MAC addresses are, must be zero. -/
theorem C53_PMFAddressInformation_exact (s : Slice) (v : PMFAddressInformation)
    (h : PMFAddressInformation.codec.parse s = .ok v) :
    (∃ w post, PMFAddressInformation.codec.marshal v = .ok w ∧ s.data = w ++ post) ↔
      (s.data.drop (5 + (if bit v.flags 0 then 4 else 0) + (if bit v.flags 1 then 16 else 0))).take 12
        = List.replicate 12 0 := by
  obtain ⟨macs, post, e, hl, ha, h1, h2⟩ := PMFAddressInformation.takes s v h
  have hm : PMFAddressInformation.codec.marshal v = .ok (([v.flags] ++ (wire4 v.v4 ++ (wire16 v.v6 ++
      (be16 v.port1 ++ be16 v.port2)))) ++ List.replicate 12 0) := by
    rw [PMFAddressInformation.emits v ha]
    unfold PMFAddressInformation.enc
    rw [h1, h2]
    simp [PMFAddressInformation.mac6, IP.val]
  have hlen : ([v.flags] ++ (wire4 v.v4 ++ (wire16 v.v6 ++ (be16 v.port1 ++ be16 v.port2)))).length
      = 5 + (if bit v.flags 0 then 4 else 0) + (if bit v.flags 1 then 16 else 0) := by
    obtain ⟨⟨a1, a2⟩, ⟨b1, b2⟩, _⟩ := ha
    rw [PMFAddressInformation.hasIPv4, has1stBit_eq] at a1
    rw [PMFAddressInformation.hasIPv6, has2ndBit_eq] at b1
    simp only [List.length_append, wire4_length a2, wire16_length b2, be16_length, List.length_cons, List.length_nil,
      a1, b1]
    omega
  rw [← hlen]
  generalize ([v.flags] ++ (wire4 v.v4 ++ (wire16 v.v6 ++ (be16 v.port1 ++ be16 v.port2)))) = front at *
  have ht : (s.data.drop front.length).take 12 = macs := by
    rw [e, List.append_assoc, List.drop_left, ← hl, List.take_left]
  rw [ht]
  constructor
  · rintro ⟨w, q, hw, hs⟩
    rw [hm] at hw
    cases hw
    rw [e, List.append_assoc, List.append_assoc] at hs
    have := List.append_cancel_left hs
    exact (List.append_inj this (by rw [hl, List.length_replicate])).1
  · intro hz
    exact ⟨_, post, hm, by rw [e, hz]⟩

example : PMFAddressInformation.codec.parse ⟨[0, 0, 1, 0, 2, 0, 0, 0, 0, 0, 0, 0, 0, 0, 0, 0, 0], []⟩
    = .ok ⟨0, none, none, 1, 2, none, none⟩ := by decide

/-! ### CTAG and STAG -/

theorem Tag.hi_key0 : ∀ (hi : Fin 16) (p : Fin 8) (d : Fin 2),
    ((((BitVec.ofNat 16 (16 * hi)) <<< 4) |||
      ((UInt8.ofNat d <<< (3 : UInt8) ||| UInt8.ofNat p).toUInt16).toBitVec) &&& 0xff#16).toNat = 8 * d + p := by
  decide +kernel

/-- The two octets that the encoder writes for a VID whose upper octet has an empty lower half. -/
theorem Tag.be_bits0 (f : Tag) (hi : Fin 16) (hp : f.pcp.toNat < 8) (hd : f.dei.toNat < 2)
    (hc : f.cvid.toNat / 256 = 16 * hi) :
    be16 f.bits = [UInt8.ofNat (8 * f.dei.toNat + f.pcp.toNat), UInt8.ofNat (f.cvid.toNat % 256)] := by
  have h1 := congrArg BitVec.toNat (Tag.bits_hi f.cvid.toBitVec (f.dei <<< (3 : UInt8) ||| f.pcp).toUInt16.toBitVec)
  have h2 := congrArg BitVec.toNat (Tag.bits_lo f.cvid.toBitVec (f.dei <<< (3 : UInt8) ||| f.pcp).toUInt16.toBitVec)
  have e : (((f.cvid.toBitVec <<< 4 &&& 0xf000#16) ||| (f.cvid.toBitVec &&& 0xff#16)) |||
      ((f.dei <<< (3 : UInt8) ||| f.pcp).toUInt16.toBitVec <<< 8)).toNat = f.bits.toNat := by
    rfl
  have m : ∀ n, n &&& 255 = n % 256 := fun n => Nat.and_two_pow_sub_one_eq_mod (n := 8) n
  have k := Tag.hi_key0 hi ⟨f.pcp.toNat, hp⟩ ⟨f.dei.toNat, hd⟩
  have ec : f.cvid.toBitVec >>> 8 = BitVec.ofNat 16 (16 * hi) := by
    apply BitVec.eq_of_toNat_eq
    have : (f.cvid.toBitVec >>> 8).toNat = f.cvid.toNat / 256 := by
      rw [BitVec.toNat_ushiftRight, Nat.shiftRight_eq_div_pow]; rfl
    have := hi.isLt
    rw [BitVec.toNat_ofNat]
    omega
  simp only [UInt8.ofNat_toNat] at k
  rw [ec, k, BitVec.toNat_ushiftRight, e, Nat.shiftRight_eq_div_pow] at h1
  rw [BitVec.toNat_and, BitVec.toNat_and, e] at h2
  have h2' : f.bits.toNat % 256 = f.cvid.toNat % 256 := by
    rw [← m, ← m]; exact h2
  have hm : ∀ n : Nat, UInt8.ofNat n = UInt8.ofNat (n % 256) := by
    intro n
    apply UInt8.toNat_inj.1
    simp
  show [UInt8.ofNat (f.bits.toNat / 256 ^ 1), UInt8.ofNat (f.bits.toNat / 256 ^ 0)] = _
  rw [Nat.pow_zero, Nat.div_one, hm f.bits.toNat, h2', Nat.pow_one]
  congr 2

/-- C53, exactly: the upper half of the VID must be zero, and so must every part that is not announced. -/
theorem C53_Tag_exact (f x y : UInt8) (rest sp : Bytes) : ∃ v, Tag.codec.parse ⟨f :: x :: y :: rest, sp⟩ = .ok v ∧
    ((∃ w post, Tag.codec.marshal v = .ok w ∧ f :: x :: y :: rest = w ++ post) ↔
      x &&& 0xf0 = 0 ∧ (bit f 0 = false → x &&& 0x07 = 0) ∧ (bit f 1 = false → x &&& 0x08 = 0) ∧
      (bit f 2 = false → y = 0)) := by
  refine ⟨_, Tag.parse_eq f x y rest sp, ?_⟩
  rw [has1stBit_eq, has2ndBit_eq, has3rdBit_eq]
  have hb : ∀ x : UInt8, (x &&& 0x07).toNat < 8 ∧ ((x >>> 3) &&& 0x01).toNat < 2 ∧
      (x &&& 0xf0).toNat = 16 * ((x &&& 0xf0).toNat / 16) := forall_byte (by decide +kernel)
  obtain ⟨b1, b2, b3⟩ := hb x
  have hx16 : (x &&& 0xf0).toNat / 16 < 16 := by have := (x &&& 0xf0).toNat_lt; omega
  have e := Tag.dec_bits x y
  have hy := y.toNat_lt
  have key : be16 (Tag.bits ⟨f, if bit f 0 then x &&& 0x07 else 0, if bit f 1 then (x >>> 3) &&& 0x01 else 0,
      if bit f 2 then dec16 [x, y] &&& 0xf0ff else 0⟩) =
      [UInt8.ofNat (8 * (if bit f 1 then (x >>> 3) &&& 0x01 else 0).toNat + (if bit f 0 then x &&& 0x07 else 0).toNat),
        if bit f 2 then y else 0] := by
    have hp : (if bit f 0 then x &&& 0x07 else 0).toNat < 8 := by
      cases bit f 0
      · show (0 : UInt8).toNat < 8
        decide
      · exact b1
    have hd : (if bit f 1 then (x >>> 3) &&& 0x01 else 0).toNat < 2 := by
      cases bit f 1
      · show (0 : UInt8).toNat < 2
        decide
      · exact b2
    rw [Tag.be_bits0 _ (if bit f 2 then ⟨(x &&& 0xf0).toNat / 16, hx16⟩ else 0) hp hd]
    · congr 2
      cases bit f 2
      · rfl
      · show UInt8.ofNat ((dec16 [x, y] &&& 0xf0ff).toNat % 256) = y
        rw [e, show (256 * (x &&& 0xf0).toNat + y.toNat) % 256 = y.toNat by omega, UInt8.ofNat_toNat]
    · cases bit f 2
      · simp
      · show (dec16 [x, y] &&& 0xf0ff).toNat / 256 = 16 * ((x &&& 0xf0).toNat / 16)
        omega
  have hk : (UInt8.ofNat (8 * (if bit f 1 then (x >>> 3) &&& 0x01 else 0).toNat +
      (if bit f 0 then x &&& 0x07 else 0).toNat) = x) ↔
      x &&& 0xf0 = 0 ∧ (bit f 0 = false → x &&& 0x07 = 0) ∧ (bit f 1 = false → x &&& 0x08 = 0) := by
    clear b1 b2 b3 hx16 e key
    generalize bit f 0 = p
    generalize bit f 1 = q
    revert x
    cases p <;> cases q <;> exact forall_byte (by decide +kernel)
  have hw := Tag.emits ⟨f, if bit f 0 then x &&& 0x07 else 0, if bit f 1 then (x >>> 3) &&& 0x01 else 0,
      if bit f 2 then dec16 [x, y] &&& 0xf0ff else 0⟩
  unfold Tag.enc at hw
  rw [key] at hw
  have hy2 : (if bit f 2 then y else 0) = y ↔ (bit f 2 = false → y = 0) := by
    cases bit f 2 <;> simp [eq_comm]
  constructor
  · rintro ⟨w, post, hm, hs⟩
    rw [hw] at hm
    cases hm
    simp only [List.cons_append, List.nil_append, List.cons.injEq, true_and] at hs
    obtain ⟨h1, h2, _⟩ := hs
    obtain ⟨k1, k2, k3⟩ := hk.1 h1.symm
    exact ⟨k1, k2, k3, hy2.1 h2.symm⟩
  · rintro ⟨k1, k2, k3, k4⟩
    refine ⟨_, rest, hw, ?_⟩
    simp only [List.cons_append, List.nil_append, List.cons.injEq, true_and, and_true]
    exact ⟨(hk.2 ⟨k1, k2, k3⟩).symm, (hy2.2 k4).symm⟩

/-- Nothing shorter is accepted. -/
theorem C53_Tag_form_exact (s : Slice) (v : Tag) (h : Tag.codec.parse s = .ok v) :
    ∃ f x y rest, s.data = f :: x :: y :: rest := by
  obtain ⟨f, x, y, rest, e, _⟩ := Tag.parse_inv s v h
  exact ⟨f, x, y, rest, e⟩

/-! ### RedirectInformation -/

/-- C53, exactly: the second address is taken from the wrong place, so the octets at the right place must happen to be
the same, behind the same length. -/
theorem C53_RedirectInformation_exact (t : UInt8) (n : UInt16) (r sp : Bytes) (v : RedirectInformation)
    (h : RedirectInformation.codec.parse ⟨t :: (be16 n ++ r), sp⟩ = .ok v) :
    (∃ w post, RedirectInformation.codec.marshal v = .ok w ∧ t :: (be16 n ++ r) = w ++ post) ↔
      (r.drop n.toNat).take (2 + n.toNat) = be16 n ++ (r.drop 2).take n.toNat := by
  rw [RedirectInformation.parse_eq] at h
  by_cases c1 : r.length < n.toNat
  · rw [if_pos c1] at h; cases h
  rw [if_neg c1] at h
  have main : ∀ b : Bytes, b.length = n.toNat →
      ((∃ w post, RedirectInformation.codec.marshal ⟨t, n, r.take n.toNat, n, b⟩ = .ok w ∧
        t :: (be16 n ++ r) = w ++ post) ↔ (r.drop n.toNat).take (2 + n.toNat) = be16 n ++ b) := by
    intro b hb
    have hag : (⟨t, n, r.take n.toNat, n, b⟩ : RedirectInformation).Agree :=
      ⟨by rw [List.length_take]; simp only; omega, hb⟩
    have hr : r = r.take n.toNat ++ r.drop n.toNat := (List.take_append_drop _ _).symm
    have hl : (be16 n ++ b).length = 2 + n.toNat := by rw [List.length_append, be16_length, hb]
    have es : ∀ post, (t :: (be16 n ++ r) = RedirectInformation.enc ⟨t, n, r.take n.toNat, n, b⟩ ++ post) ↔
        r.drop n.toNat = (be16 n ++ b) ++ post := by
      intro post
      unfold RedirectInformation.enc
      simp only [List.cons_append, List.nil_append, List.cons.injEq, true_and, List.append_assoc]
      rw [List.append_cancel_left_eq]
      conv => lhs; lhs; rw [hr]
      rw [List.append_cancel_left_eq]
    constructor
    · rintro ⟨w, post, hm, hs⟩
      rw [RedirectInformation.emits _ hag] at hm
      cases hm
      rw [(es post).1 hs, ← hl, List.take_left]
    · intro hk
      refine ⟨_, (r.drop n.toNat).drop (2 + n.toNat), RedirectInformation.emits _ hag, (es _).2 ?_⟩
      rw [← hk, List.take_append_drop]
  by_cases c2 : n = 0
  · subst c2
    rw [if_pos rfl] at h
    cases h
    exact main [] rfl
  · rw [if_neg c2] at h
    by_cases c3 : r.length < n.toNat + 2
    · rw [if_pos c3] at h; cases h
    · rw [if_neg c3] at h
      cases h
      exact main _ (by rw [List.length_take, List.length_drop]; omega)

example : RedirectInformation.codec.parse ⟨[2, 0, 2, 0, 2, 0, 2, 0, 2], []⟩ = .ok ⟨2, 2, [0, 2], 2, [0, 2]⟩ := by decide

/-! ### UserID -/

/-- The decoder drops the upper half of the last octet. -/
theorem UserID.digits_snoc (r : Bytes) (x : UInt8) : UserID.digits (r ++ [x])
    = Text.hexEncode (Text.swap r) ++ [Text.hexDigit (x &&& 0x0f)] := by
  have hk : ∀ (r : Bytes) (x : UInt8), Text.hexEncode (r ++ [x])
      = Text.hexEncode r ++ [Text.hexDigit (x >>> 4), Text.hexDigit (x &&& 0x0f)] := by
    intro r x
    induction r with
    | nil => rfl
    | cons y r ih => simp only [List.cons_append, Text.hexEncode, ih]
  have hf : ∀ x : UInt8, Text.flip x >>> 4 = x &&& 0x0f := forall_byte (by decide +kernel)
  unfold UserID.digits Text.swappedBytesToStr
  rw [if_neg (by simp)]
  simp only [if_true]
  rw [show Text.swap (r ++ [x]) = Text.swap r ++ [Text.flip x] by simp [Text.swap], hk, hf]
  rw [show Text.hexEncode (Text.swap r) ++ [Text.hexDigit (x &&& 0x0f), Text.hexDigit (Text.flip x &&& 0x0f)]
    = (Text.hexEncode (Text.swap r) ++ [Text.hexDigit (x &&& 0x0f)]) ++ [Text.hexDigit (Text.flip x &&& 0x0f)] by simp]
  exact List.take_left' (by simp)

/-- What decoding and encoding does to a digit string: the filler is put in. -/
theorem UserID.digits_again (b : Bytes) : ∃ b', Text.strToSwappedBytes (UserID.digits b) Text.fillerF = .ok b' ∧
    b'.length = b.length ∧ (b' = b ↔ Filled b) := by
  by_cases h0 : b = []
  · subst h0
    exact ⟨[], rfl, rfl, fun _ => Or.inl rfl, fun _ => rfl⟩
  · obtain ⟨r, x, rfl⟩ : ∃ r x, b = r ++ [x] := ⟨_, _, (List.dropLast_concat_getLast h0).symm⟩
    have h1 : ∀ x : UInt8, (x ||| 0xf0) &&& 0x0f = x &&& 0x0f := forall_byte (by decide +kernel)
    have h2 : ∀ x : UInt8, (x ||| 0xf0) >>> 4 = 15 := forall_byte (by decide +kernel)
    have h3 : ∀ x : UInt8, (x ||| 0xf0) = x ↔ x >>> 4 = 15 := forall_byte (by decide +kernel)
    refine ⟨r ++ [x ||| 0xf0], ?_, by simp, ?_⟩
    · rw [UserID.digits_snoc, ← h1, ← UserID.digits_snoc]
      exact UserID.digits_filled _ (Or.inr ⟨_, by simp, h2 x⟩)
    · rw [List.append_cancel_left_eq]
      simp only [List.cons.injEq, and_true, h3]
      constructor
      · exact fun h => Or.inr ⟨x, by simp, h⟩
      · rintro (h | ⟨y, hy, h⟩)
        · simp at h
        · simp at hy; subst hy; exact h

/-- C53, exactly: every announced digit string must be empty or end in the filler. -/
theorem C53_UserID_exact (s : Slice) (v : UserID) (h : UserID.codec.parse s = .ok v) :
    ∃ i e m n post, s.data = UserID.wire v.flags i e m n ++ post ∧
      ((∃ w post, UserID.codec.marshal v = .ok w ∧ s.data = w ++ post) ↔
        (bit v.flags 0 = true → Filled i) ∧ (bit v.flags 1 = true → Filled e) ∧ (bit v.flags 2 = true → Filled m)) := by
  obtain ⟨f, i, e, m, n, post, hs, li, le, lm, ln, rfl⟩ := UserID.takes s v h
  refine ⟨i, e, m, n, post, hs, ?_⟩
  obtain ⟨i', ei, l1, c1⟩ := UserID.digits_again i
  obtain ⟨e', ee, l2, c2⟩ := UserID.digits_again e
  obtain ⟨m', em, l3, c3⟩ := UserID.digits_again m
  have hm := UserID.emits f i' e' m' n _ _ _ (by omega) (by omega) (by omega) ln (fun _ => ei) (fun _ => ee) (fun _ => em)
  rw [l1, l2, l3] at hm
  have hm' : UserID.codec.marshal (UserID.value f i e m n) = .ok (UserID.wire f i' e' m' n) := hm
  have hl : (UserID.wire f i' e' m' n).length = (UserID.wire f i e m n).length := by
    simp only [UserID.wire, List.length_append, apply_ite List.length, UserID.lv_length, l1, l2, l3]
  have hlv : ∀ (c : Bool) (a b : Bytes), a.length = b.length →
      ((if c then UserID.lv a else []) = (if c then UserID.lv b else []) ↔ (c = true → a = b)) := by
    intro c a b hab
    cases c
    · simp
    · simp [UserID.lv, hab]
  have hw : UserID.wire f i' e' m' n = UserID.wire f i e m n ↔
      (bit f 0 = true → Filled i) ∧ (bit f 1 = true → Filled e) ∧ (bit f 2 = true → Filled m) := by
    rw [← c1, ← c2, ← c3, ← has1stBit_eq, ← has2ndBit_eq, ← has3rdBit_eq, ← hlv _ _ _ l1, ← hlv _ _ _ l2,
      ← hlv _ _ _ l3]
    unfold UserID.wire
    constructor
    · intro h
      have h := List.append_cancel_left h
      have q1 := List.append_inj h (by simp only [apply_ite List.length, UserID.lv_length, l1])
      have q2 := List.append_inj q1.2 (by simp only [apply_ite List.length, UserID.lv_length, l2])
      have q3 := List.append_inj q2.2 (by simp only [apply_ite List.length, UserID.lv_length, l3])
      exact ⟨q1.1, q2.1, q3.1⟩
    · rintro ⟨q1, q2, q3⟩
      rw [q1, q2, q3]
  show (∃ w post, UserID.codec.marshal (UserID.value f i e m n) = .ok w ∧ s.data = w ++ post) ↔
    (bit f 0 = true → Filled i) ∧ (bit f 1 = true → Filled e) ∧ (bit f 2 = true → Filled m)
  rw [← hw]
  constructor
  · rintro ⟨w, p, hx, hd⟩
    rw [hm'] at hx
    cases hx
    rw [hs] at hd
    exact (List.append_inj hd hl.symm).1.symm
  · intro hx
    exact ⟨_, post, hm', by rw [hs, hx]⟩

example : ∃ v, UserID.codec.parse ⟨[4, 2, 0x21, 0xf3], []⟩ = .ok v ∧ v.flags = 4 :=
  ⟨⟨4, 0, [], 0, [], 2, [49, 50, 51], 0, []⟩, by decide, rfl⟩

/-! ### UEIPAddress -/

/-- With both last fields announced, both are the octet behind the addresses. -/
theorem UEIPAddress.takes_both (s : Slice) (v : UEIPAddress) (h : UEIPAddress.codec.parse s = .ok v)
    (hf : (has4thBit v.flags && has7thBit v.flags) = true) :
    v.Agree ∧ v.v6pl = v.v6d ∧ ∃ post, s.data = ([v.flags] ++ (v.v4.val ++ v.v6.val)) ++ (v.v6d :: post) := by
  have he : ∀ fl v4 v6, P.TakesEnd 0 (UEIPAddress.parseEnd fl v4 v6) (fun v w => v.flags = fl ∧ v.v4 = v4 ∧ v.v6 = v6 ∧
      ((has4thBit fl && has7thBit fl) = true → v.v6pl = v.v6d ∧ w = [v.v6d])) := by
    intro fl v4 v6 d sp o v o' ho h
    unfold UEIPAddress.parseEnd at h
    revert h
    cases has4thBit fl <;> cases has7thBit fl <;> intro h
    · obtain ⟨a, o1, _, h⟩ := P.bind_inv h
      obtain ⟨b, o2, _, h⟩ := P.bind_inv h
      cases h
      exact ⟨[], d.drop o, rfl, rfl, rfl, rfl, fun h => by cases h⟩
    · obtain ⟨a, o1, _, h⟩ := P.bind_inv h
      obtain ⟨b, o2, _, h⟩ := P.bind_inv h
      cases h
      exact ⟨[], d.drop o, rfl, rfl, rfl, rfl, fun h => by cases h⟩
    · obtain ⟨a, o1, _, h⟩ := P.bind_inv h
      obtain ⟨b, o2, _, h⟩ := P.bind_inv h
      cases h
      exact ⟨[], d.drop o, rfl, rfl, rfl, rfl, fun h => by cases h⟩
    · simp only [P.opt_true] at h
      obtain ⟨a, o1, hl, h2⟩ := P.bind_inv h
      clear h
      obtain ⟨e1, post, ed⟩ := P.look_ok hl
      subst e1
      obtain ⟨b, o2, hl2, h3⟩ := P.bind_inv h2
      rw [hl] at hl2
      clear h2 hl
      obtain ⟨rfl, rfl⟩ := Prod.mk.inj (Res.ok.inj hl2)
      obtain ⟨rfl, rfl⟩ := Prod.mk.inj (Res.ok.inj h3)
      exact ⟨[a], post, ed, rfl, rfl, rfl, fun _ => ⟨rfl, rfl⟩⟩
  have hk : P.TakesEnd 1 (P.u8 >>= fun flags => P.opt (UEIPAddress.hasIPv4 flags) (P.ip 4) none >>= fun v4 =>
      P.opt (UEIPAddress.hasIPv6 flags) (P.ip 16) none >>= fun v6 => UEIPAddress.parseEnd flags v4 v6)
      (fun v w => (has4thBit v.flags && has7thBit v.flags) = true → v.Agree ∧ v.v6pl = v.v6d ∧
        w = [v.flags] ++ (v.v4.val ++ (v.v6.val ++ [v.v6d]))) := by
    refine P.TakesEnd.weaken (R := _) (P.Takes.bindEnd P.Takes.u8 fun fl => P.Takes.bindEnd P.Takes.raw fun v4 =>
      P.Takes.bindEnd P.Takes.raw fun v6 => he fl v4 v6) ?_
    rintro f w ⟨fl, _, _, rfl, ⟨v4, _, _, ⟨rfl, a1, a2⟩, ⟨v6, _, _, ⟨rfl, b1, b2⟩, ⟨rfl, rfl, rfl, h4⟩, rfl⟩,
      rfl⟩, rfl⟩ hf
    obtain ⟨h5, rfl⟩ := h4 hf
    exact ⟨⟨⟨a1.symm, a2⟩, b1.symm, b2⟩, h5, rfl⟩
  obtain ⟨w, post, e, hw, _⟩ := P.TakesEnd.run (f := fun _ => P.u8 >>= fun flags =>
    P.opt (UEIPAddress.hasIPv4 flags) (P.ip 4) none >>= fun v4 =>
      P.opt (UEIPAddress.hasIPv6 flags) (P.ip 16) none >>= fun v6 => UEIPAddress.parseEnd flags v4 v6) hk s v h
  obtain ⟨h1, h2, rfl⟩ := hw hf
  exact ⟨h1, h2, post, by rw [e]; simp⟩

/-- C53, exactly: with both a delegation size and a prefix length announced, the two octets behind the addresses must
be equal. An address is there when its flag (bit 1 for IPv4, bit 0 for IPv6) is set and the flag asking for a chosen
one (bit 4, bit 5) is not. -/
theorem C53_UEIPAddress_exact (s : Slice) (v : UEIPAddress) (h : UEIPAddress.codec.parse s = .ok v) :
    (∃ w post, UEIPAddress.codec.marshal v = .ok w ∧ s.data = w ++ post) ↔
      (bit v.flags 3 = true → bit v.flags 6 = true →
        s.data[2 + (if bit v.flags 1 && !bit v.flags 4 then 4 else 0) + (if bit v.flags 0 && !bit v.flags 5 then 16 else 0)]?
          = some v.v6d) := by
  by_cases hb : bit v.flags 3 = true ∧ bit v.flags 6 = true
  · obtain ⟨b3, b6⟩ := hb
    obtain ⟨ha, hpl, post, e⟩ := UEIPAddress.takes_both s v h (by rw [has4thBit_eq, has7thBit_eq, b3, b6]; rfl)
    have hm := UEIPAddress.emits v ha
    have henc : v.enc = ([v.flags] ++ (v.v4.val ++ v.v6.val)) ++ [v.v6d, v.v6d] := by
      unfold UEIPAddress.enc
      rw [has4thBit_eq, has7thBit_eq, b3, b6, hpl]
      simp
    have hlen : ([v.flags] ++ (v.v4.val ++ v.v6.val)).length + 1 =
        2 + (if bit v.flags 1 && !bit v.flags 4 then 4 else 0) + (if bit v.flags 0 && !bit v.flags 5 then 16 else 0) := by
      obtain ⟨⟨a1, a2⟩, c1, c2⟩ := ha
      rw [UEIPAddress.hasIPv4, has2ndBit_eq, has5thBit_eq] at a1
      rw [UEIPAddress.hasIPv6, has1stBit_eq, has6thBit_eq] at c1
      simp only [List.length_append, a2.val, c2.val, List.length_cons, List.length_nil, a1, c1]
      omega
    rw [henc] at hm
    rw [← hlen]
    generalize ([v.flags] ++ (v.v4.val ++ v.v6.val)) = front at *
    have hget : s.data[front.length + 1]? = post[0]? := by
      rw [e, List.getElem?_append_right (by omega), show front.length + 1 - front.length = 0 + 1 by omega,
        List.getElem?_cons_succ]
    rw [hget]
    constructor
    · rintro ⟨w, q, hw, hs⟩ _ _
      rw [hm] at hw
      cases hw
      rw [e, List.append_assoc] at hs
      have := List.append_cancel_left hs
      simp only [List.cons_append, List.nil_append, List.cons.injEq, true_and] at this
      rw [this]
      rfl
    · intro hk
      cases post with
      | nil => cases hk b3 b6
      | cons x r =>
        have hx := Option.some.inj (hk b3 b6)
        subst hx
        exact ⟨_, r, hm, by rw [e]; simp⟩
  · refine ⟨fun _ h3 h6 => absurd ⟨h3, h6⟩ hb, fun _ => C53_UEIPAddress_partial s v h hb⟩

example : UEIPAddress.codec.parse ⟨[0x48, 7, 7], []⟩ = .ok ⟨0x48, none, none, 7, 7⟩ := by decide

/-! ### UserPlaneIPResourceInformation -/

/-- C53, exactly: something must be announced, and the octet of the source interface, if there, must have no spare bit
set. A TEID range is there if one of the bits 2, 3, 4 is set. -/
theorem C53_UserPlaneIPResourceInformation_exact (s : Slice) (v : UserPlaneIPResourceInformation)
    (h : UserPlaneIPResourceInformation.codec.parse s = .ok v) :
    (∃ w post, UserPlaneIPResourceInformation.codec.marshal v = .ok w ∧ s.data = w ++ post) ↔
      ((∃ i, i < 5 ∧ bit v.flags i = true) ∨ bit v.flags 6 = true) ∧
      (bit v.flags 6 = true → ∃ x, s.data[1 + (if bit v.flags 2 || bit v.flags 3 || bit v.flags 4 then 1 else 0) +
        (if bit v.flags 0 then 4 else 0) + (if bit v.flags 1 then 16 else 0)]? = some x ∧ x &&& 0xf0 = 0) := by
  obtain ⟨f, rest, _, hfl, h6⟩ := UserPlaneIPResourceInformation.parse_ni s v h
  obtain ⟨w, post, e, hw, _⟩ := UserPlaneIPResourceInformation.takes s v h
  rw [← hfl] at h6
  obtain ⟨x, hsi, rfl, ha⟩ := hw h6
  have hlen := UserPlaneIPResourceInformation.enc_length v ha
  have henc : ∀ y, UserPlaneIPResourceInformation.enc { v with si := y } =
      ([v.flags] ++ ((if UserPlaneIPResourceInformation.hasTEIDRI v.flags then [v.teidRange] else []) ++ (v.v4.val ++
        v.v6.val))) ++ (if has7thBit v.flags then [y] else []) := by
    intro y
    unfold UserPlaneIPResourceInformation.enc
    simp only [h6]
    simp
  have hfront : ([v.flags] ++ ((if UserPlaneIPResourceInformation.hasTEIDRI v.flags then [v.teidRange] else []) ++
      (v.v4.val ++ v.v6.val))).length = 1 + (if bit v.flags 2 || bit v.flags 3 || bit v.flags 4 then 1 else 0) +
        (if bit v.flags 0 then 4 else 0) + (if bit v.flags 1 then 16 else 0) := by
    obtain ⟨⟨a1, a2⟩, b1, b2⟩ := ha
    rw [has1stBit_eq] at a1
    rw [has2ndBit_eq] at b1
    rw [UserPlaneIPResourceInformation.hasTEIDRI_eq]
    simp only [List.length_append, a2.val, b2.val, apply_ite List.length, List.length_cons, List.length_nil, a1, b1,
      Nat.zero_add]
    omega
  have hv : v.enc = UserPlaneIPResourceInformation.enc { v with si := v.si } := rfl
  have hann : (2 ≤ v.enc.length) ↔ ((∃ i, i < 5 ∧ bit v.flags i = true) ∨ bit v.flags 6 = true) := by
    rw [hv, henc, List.length_append, hfront, has7thBit_eq]
    have hex : (∃ i, i < 5 ∧ bit v.flags i = true) ↔ bit v.flags 0 = true ∨ bit v.flags 1 = true ∨
        bit v.flags 2 = true ∨ bit v.flags 3 = true ∨ bit v.flags 4 = true := by
      constructor
      · rintro ⟨i, hi, hb⟩
        have : i = 0 ∨ i = 1 ∨ i = 2 ∨ i = 3 ∨ i = 4 := by omega
        rcases this with rfl | rfl | rfl | rfl | rfl <;> simp [hb]
      · rintro (hb | hb | hb | hb | hb)
        · exact ⟨0, by omega, hb⟩
        · exact ⟨1, by omega, hb⟩
        · exact ⟨2, by omega, hb⟩
        · exact ⟨3, by omega, hb⟩
        · exact ⟨4, by omega, hb⟩
    rw [hex]
    cases bit v.flags 0 <;> cases bit v.flags 1 <;> cases bit v.flags 2 <;> cases bit v.flags 3 <;>
      cases bit v.flags 4 <;> cases bit v.flags 6 <;> simp
  rw [← hann, ← hfront]
  have hx : ∀ x : UInt8, x &&& 0x0f = x ↔ x &&& 0xf0 = 0 := forall_byte (by decide +kernel)
  rw [henc] at e
  have hv' := hv.trans (henc v.si)
  generalize ([v.flags] ++ ((if UserPlaneIPResourceInformation.hasTEIDRI v.flags then [v.teidRange] else []) ++
      (v.v4.val ++ v.v6.val))) = front at *
  have hlong : ∀ w, UserPlaneIPResourceInformation.codec.marshal v = .ok w → 2 ≤ v.enc.length := by
    intro w hm
    by_cases hc : 2 ≤ v.enc.length
    · exact hc
    · exfalso
      have hz : UserPlaneIPResourceInformation.codec.marshal v = .err .unexpectedEOF := by
        show W.marshal _ v.marshalLen = _
        rw [← hlen]
        have h1 : v.enc.length = 0 ∨ v.enc.length = 1 := by omega
        rcases h1 with h1 | h1 <;> rw [h1] <;> rfl
      rw [hz] at hm
      cases hm
  rw [has7thBit_eq] at hsi e hv'
  cases hb : bit v.flags 6
  · rw [hb] at hv' e
    simp only [Bool.false_eq_true, if_false, List.append_nil] at hv' e
    constructor
    · rintro ⟨w, q, hm, _⟩
      exact ⟨hlong w hm, fun h => by cases h⟩
    · rintro ⟨hl, _⟩
      exact ⟨_, post, UserPlaneIPResourceInformation.emits v ha hl, by rw [e, hv']⟩
  · rw [hb] at hv' e hsi
    simp only [if_true] at hv' e hsi
    have hget : s.data[front.length]? = some x := by
      rw [e, List.append_assoc, List.getElem?_append_right (Nat.le_refl _)]
      simp
    rw [hget]
    constructor
    · rintro ⟨w, q, hm, hs⟩
      have hl := hlong w hm
      refine ⟨hl, fun _ => ⟨x, rfl, ?_⟩⟩
      rw [UserPlaneIPResourceInformation.emits v ha hl] at hm
      cases hm
      rw [e, hv', List.append_assoc, List.append_assoc] at hs
      have := List.append_cancel_left hs
      simp only [List.cons_append, List.nil_append, List.cons.injEq] at this
      rw [← hx, ← hsi]
      exact this.1.symm
    · rintro ⟨hl, hk⟩
      obtain ⟨y, hy, hz⟩ := hk rfl
      cases hy
      refine ⟨_, post, UserPlaneIPResourceInformation.emits v ha hl, ?_⟩
      rw [e, hv', hsi, (hx x).2 hz]

example : UserPlaneIPResourceInformation.codec.parse ⟨[0x40, 0x01], []⟩ = .ok ⟨0x40, 0, none, none, [], 1⟩ := by decide

/-! ### OuterHeaderCreation -/

theorem OuterHeaderCreation.takes (s : Slice) (v : OuterHeaderCreation) (h : OuterHeaderCreation.codec.parse s = .ok v) :
    v.Agree ∧ v.ctag = 0 ∧ v.stag = 0 ∧ ∃ post, s.data = v.head ++
      ((if OuterHeaderCreation.hasPort (OuterHeaderCreation.hiOctet v.desc) then be16 v.port else []) ++ post) := by
  obtain ⟨o, d, n, n', hb⟩ := OuterHeaderCreation.parse_body s v h
  obtain ⟨h1, h2, _⟩ := OuterHeaderCreation.body_no_tag _ _ _ _ _ _ hb
  have ht := P.Takes.run' (m := 0) (n := 2) (f := fun _ => OuterHeaderCreation.parseDesc >>= fun x =>
    OuterHeaderCreation.parseBody x.1 x.2) (R := fun v w => v.Agree ∧ w = v.head ++
      (if OuterHeaderCreation.hasPort (OuterHeaderCreation.hiOctet v.desc) then be16 v.port else [])) ?_ s v h
  · obtain ⟨w, post, e, ⟨ha, hw⟩, _⟩ := ht
    exact ⟨ha, h1, h2, post, by rw [e, hw, List.append_assoc]⟩
  · have hb : ∀ x : UInt8 × UInt16, P.Takes 0 (OuterHeaderCreation.parseBody x.1 x.2) 0
        (fun v w => x.1 = OuterHeaderCreation.hiOctet x.2 → v.desc = x.2 ∧ v.Agree ∧
          w = (if OuterHeaderCreation.hasTEID (OuterHeaderCreation.hiOctet v.desc) then be32 v.teid else []) ++
            (v.v4.val ++ (v.v6.val ++
            ((if OuterHeaderCreation.hasPort (OuterHeaderCreation.hiOctet v.desc) then be16 v.port else []) ++ [])))) := by
      intro x
      by_cases hx : x.1 = OuterHeaderCreation.hiOctet x.2
      · rw [hx]
        refine (OuterHeaderCreation.takes_body x.2).weaken ?_
        rintro v w ⟨h1, h2, h3⟩ _
        refine ⟨h1, h3, ?_⟩
        rw [h1]
        exact h2
      · have hl := OuterHeaderCreation.takes_any (k := 0) x.1 x.2
        exact hl.weaken fun v w _ h => absurd h hx
    refine (P.Takes.bind OuterHeaderCreation.takes_desc hb).weaken ?_
    rintro v w ⟨x, w1, w2, ⟨rfl, hx⟩, h2, rfl⟩
    obtain ⟨h3, h4, h5⟩ := h2 hx
    refine ⟨h4, ?_⟩
    rw [h5, ← h3]
    unfold OuterHeaderCreation.head
    simp

/-- The octets of an element in front of port and tags. -/
def OHCFront (d : UInt16) : Nat :=
  2 + (if OHCTeid d then 4 else 0) + (if OHCV4 d then 4 else 0) + (if OHCV6 d then 16 else 0)

/-- C53, exactly: when a tag is announced (bits 14 and 15 of the description), the octets where port and tags are must
be there and be zero. -/
theorem C53_OuterHeaderCreation_exact (s : Slice) (v : OuterHeaderCreation)
    (h : OuterHeaderCreation.codec.parse s = .ok v) :
    (∃ w post, OuterHeaderCreation.codec.marshal v = .ok w ∧ s.data = w ++ post) ↔
      (bit16 v.desc 14 = true ∨ bit16 v.desc 15 = true → ∀ k : Nat, k < (if OHCPort v.desc then 2 else 0) +
        (if bit16 v.desc 14 then 3 else 0) + (if bit16 v.desc 15 then 3 else 0) →
        s.data[OHCFront v.desc + k]? = some 0) := by
  obtain ⟨ha, hc, hs, post, e⟩ := OuterHeaderCreation.takes s v h
  have hm := OuterHeaderCreation.emits v ha
  have hf := OuterHeaderCreation.head_length v ha
  have hl := OuterHeaderCreation.tail_length v
  obtain ⟨e1, e2, e3, e4, e5, e6⟩ := OuterHeaderCreation.has_eq v.desc
  rw [e1, e2, e3] at hf
  rw [e4, e5, e6] at hl
  by_cases ht : bit16 v.desc 14 = true ∨ bit16 v.desc 15 = true
  · have htail : v.tail = List.replicate v.tail.length 0 := by
      unfold OuterHeaderCreation.tail
      rw [hc, hs, e4, e5, e6]
      have z : OuterHeaderCreation.tag24 0 = [0, 0, 0] := by decide
      rw [z]
      revert ht
      cases OHCPort v.desc <;> cases bit16 v.desc 14 <;> cases bit16 v.desc 15 <;> simp
    generalize (if OuterHeaderCreation.hasPort (OuterHeaderCreation.hiOctet v.desc) = true then be16 v.port else []) ++ post
      = r at e
    rw [← hl]
    have hfr : OHCFront v.desc = v.head.length := hf.symm
    have hget : ∀ k, s.data[OHCFront v.desc + k]? = r[k]? := by
      intro k
      rw [e, hfr, List.getElem?_append_right (by omega)]
      congr 1
      omega
    constructor
    · rintro ⟨w, q, hw, hd⟩ _ k hk
      rw [hm] at hw
      cases hw
      rw [e] at hd
      unfold OuterHeaderCreation.enc at hd
      rw [List.append_assoc] at hd
      have hr := List.append_cancel_left hd
      rw [hget, hr, List.getElem?_append_left hk, htail, List.getElem?_replicate, if_pos hk]
    · intro hz
      refine ⟨_, r.drop v.tail.length, hm, ?_⟩
      unfold OuterHeaderCreation.enc
      rw [e, List.append_assoc]
      congr 1
      have hk := hz ht
      simp only [hget] at hk
      have hrl : v.tail.length ≤ r.length := by
        by_cases h0 : v.tail.length = 0
        · omega
        · have := hk (v.tail.length - 1) (by omega)
          obtain ⟨hlt, _⟩ := List.getElem?_eq_some_iff.1 this
          omega
      have ht2 : r.take v.tail.length = v.tail := by
        apply List.ext_getElem?
        intro k
        by_cases hkl : k < v.tail.length
        · rw [List.getElem?_take_of_lt hkl, hk k hkl]
          conv => rhs; rw [htail]
          rw [List.getElem?_replicate, if_pos hkl]
        · rw [List.getElem?_eq_none (by rw [List.length_take]; omega), List.getElem?_eq_none (by omega)]
      conv => lhs; rw [← List.take_append_drop v.tail.length r]
      rw [ht2]
  · have h14 : bit16 v.desc 14 = false := by revert ht; cases bit16 v.desc 14 <;> simp
    have h15 : bit16 v.desc 15 = false := by revert ht; cases bit16 v.desc 15 <;> simp
    exact ⟨fun _ hx => absurd hx ht, fun _ => C53_OuterHeaderCreation_partial s v h h14 h15⟩

example : OuterHeaderCreation.codec.parse ⟨[0x40, 0, 0, 0, 0], []⟩ = .ok ⟨0x4000, 0, none, none, 0, 0, 0⟩ := by decide

/-! ### SDFFilter -/

/-- What a decoder takes from a slice without spare capacity. -/
def P.Takes0 {α : Type} (p : P α) (R : α → Bytes → Prop) : Prop :=
  ∀ d o a o', o ≤ d.length → p ⟨d, []⟩ o = .ok (a, o') →
    ∃ w post, d.drop o = w ++ post ∧ o' = o + w.length ∧ R a w

namespace P.Takes0
variable {α β : Type}

theorem pure (a : α) : P.Takes0 (Pure.pure a : P α) (fun b w => b = a ∧ w = []) := by
  intro d o b o' ho h
  cases h
  exact ⟨[], d.drop o, rfl, rfl, rfl, rfl⟩

theorem bind {p : P α} {f : α → P β} {R : α → Bytes → Prop} {S : α → β → Bytes → Prop} (hp : P.Takes0 p R)
    (hf : ∀ a, P.Takes0 (f a) (S a)) : P.Takes0 (p >>= f) (fun b w => ∃ a w1 w2, R a w1 ∧ S a b w2 ∧ w = w1 ++ w2) := by
  intro d o b o' ho h
  obtain ⟨a, o1, h1, h2⟩ := P.bind_inv h
  obtain ⟨w1, post1, e1, l1, r1⟩ := hp d o a o1 ho h1
  have hle : o1 ≤ d.length := by
    have := congrArg List.length e1
    rw [List.length_drop, List.length_append] at this
    omega
  obtain ⟨w2, post2, e2, l2, r2⟩ := hf a d o1 b o' hle h2
  refine ⟨w1 ++ w2, post2, ?_, by rw [List.length_append]; omega, a, w1, w2, r1, r2, rfl⟩
  have : d.drop o1 = post1 := by
    rw [l1, ← List.drop_drop, e1, List.drop_left]
  rw [e1, ← this, e2, List.append_assoc]

theorem weaken {p : P α} {R S : α → Bytes → Prop} (h : P.Takes0 p R) (hs : ∀ a w, R a w → S a w) : P.Takes0 p S := by
  intro d o a o' ho hh
  obtain ⟨w, post, e, l, r⟩ := h d o a o' ho hh
  exact ⟨w, post, e, l, hs _ _ r⟩

theorem bytes (n : Nat) : P.Takes0 (P.bytes n) (fun x w => w = x ∧ x.length = n) := by
  intro d o x o' ho h
  unfold P.bytes at h
  cases hs : Slice.sub ⟨d, []⟩ o (o + n) with
  | panic => rw [hs] at h; cases h
  | err e => rw [hs] at h; cases h
  | ok y =>
    rw [hs] at h
    cases h
    obtain ⟨_, l, e⟩ := PFDContents.sub_inv hs
    have hl : y.data.length = n := by rw [e]; simp; omega
    refine ⟨y.data, (d.drop o).drop n, ?_, by rw [hl], rfl, hl⟩
    rw [e, List.drop_take, Nat.add_sub_cancel_left, List.take_append_drop]

theorem left (n : Nat) : P.Takes0 (P.left n) (fun _ w => w = []) := by
  intro d o x o' ho h
  rw [SDFFilter.left_eq n ho] at h
  obtain ⟨_, e⟩ := P.need_inv h
  exact ⟨[], d.drop o, rfl, by simp [e], rfl⟩

theorem u16 : P.Takes0 P.u16 (fun n w => w = be16 n) := by
  unfold P.u16
  refine (bind (bytes 2) fun x => pure (dec16 x)).weaken ?_
  rintro n w ⟨x, _, _, ⟨rfl, hx⟩, ⟨rfl, rfl⟩, rfl⟩
  rw [be16_dec16 _ hx, List.append_nil]

theorem u32 : P.Takes0 P.u32 (fun n w => w = be32 n) := by
  unfold P.u32
  refine (bind (bytes 4) fun x => pure (dec32 x)).weaken ?_
  rintro n w ⟨x, _, _, ⟨rfl, hx⟩, ⟨rfl, rfl⟩, rfl⟩
  rw [be32_dec32 _ hx, List.append_nil]

theorem opt {c : Bool} {p : P α} {e : α} {R : α → Bytes → Prop} (h : P.Takes0 p R) :
    P.Takes0 (P.opt c p e) (fun a w => (c = true ∧ R a w) ∨ (c = false ∧ a = e ∧ w = [])) := by
  cases c
  · exact (pure e).weaken fun a w h => Or.inr ⟨rfl, h.1, h.2⟩
  · exact h.weaken fun a w h => Or.inl ⟨rfl, h⟩

end P.Takes0

/-- An accepted element without spare capacity is the coding of what was decoded, but for the second octet. -/
theorem SDFFilter.takes (dt : Bytes) (v : SDFFilter) (h : SDFFilter.codec.parse ⟨dt, []⟩ = .ok v) :
    ∃ x post, dt = v.flags :: x :: post ∧ ∃ r, v.enc = v.flags :: 0 :: r ∧ ∃ q, post = r ++ q := by
  match dt with
  | [] => cases h
  | [_] => cases h
  | [_, _] => cases h
  | f :: x :: y :: rest =>
    have e0 : SDFFilter.codec.parse ⟨f :: x :: y :: rest, []⟩ = _ := P.run_minLen_eq (n := 3) (by simp)
    rw [e0] at h
    obtain ⟨o9, h⟩ := P.run_inv h
    rw [P.bind_ok (a := f) (o' := 1) (by rfl), P.bind_ok (a := ()) (o' := 2) (by rfl)] at h
    have tN : ∀ c n, P.Takes0 (P.opt c (SDFFilter.parseN n) []) (fun a w => w = if c then a else []) := by
      intro c n
      refine (P.Takes0.opt (P.Takes0.bind (P.Takes0.left n) fun _ => P.Takes0.bytes n)).weaken ?_
      rintro a w (⟨rfl, _, _, _, rfl, ⟨rfl, _⟩, rfl⟩ | ⟨rfl, _, rfl⟩) <;> rfl
    have tF : ∀ c, P.Takes0 (P.opt c SDFFilter.parseFD (0, []))
        (fun a w => w = if c then be16 a.1 ++ a.2 else []) := by
      intro c
      refine (P.Takes0.opt (P.Takes0.bind (P.Takes0.left 3) fun _ => P.Takes0.bind P.Takes0.u16 fun n =>
        P.Takes0.bind (P.Takes0.bytes _) fun x => P.Takes0.pure (n, x))).weaken ?_
      rintro a w (⟨rfl, _, _, _, rfl, ⟨n, _, _, rfl, ⟨y, _, _, ⟨rfl, _⟩, ⟨rfl, rfl⟩, rfl⟩, rfl⟩, rfl⟩ | ⟨rfl, _, rfl⟩)
      · simp
      · rfl
    have tB : ∀ c, P.Takes0 (P.opt c (P.left 4 >>= fun _ => P.u32) 0) (fun a w => w = if c then be32 a else []) := by
      intro c
      refine (P.Takes0.opt (P.Takes0.bind (P.Takes0.left 4) fun _ => P.Takes0.u32)).weaken ?_
      rintro a w (⟨rfl, _, _, _, rfl, rfl, rfl⟩ | ⟨rfl, _, rfl⟩) <;> rfl
    obtain ⟨w, post, e, _, hR⟩ := (P.Takes0.bind (tF _) fun _ => P.Takes0.bind (tN _ 2) fun _ => P.Takes0.bind (tN _ 4)
      fun _ => P.Takes0.bind (tN _ 3) fun _ => P.Takes0.bind (tB _) fun _ => P.Takes0.pure _) _ 2 v o9 (by simp) h
    obtain ⟨fd, _, _, rfl, ⟨ttc, _, _, rfl, ⟨spi, _, _, rfl, ⟨fl, _, _, rfl, ⟨bid, _, _, rfl, ⟨rfl, rfl⟩, rfl⟩, rfl⟩,
      rfl⟩, rfl⟩, rfl⟩ := hR
    refine ⟨x, _, rfl, _, rfl, post, ?_⟩
    exact e

/-- C53, exactly, for elements whose flow description ends inside: the spare octet must be zero. -/
theorem C53_SDFFilter_exact (s : Slice) (v : SDFFilter) (hfit : SDFFilterFits s.data)
    (h : SDFFilter.codec.parse s = .ok v) :
    (∃ w post, SDFFilter.codec.marshal v = .ok w ∧ s.data = w ++ post) ↔ s.data[1]? = some 0 := by
  obtain ⟨d, sp⟩ := s
  have h' : SDFFilter.codec.parse ⟨d, []⟩ = .ok v := by rw [← C42_SDFFilter_partial d sp [] hfit]; exact h
  obtain ⟨x, post, e, r, he, q, hq⟩ := SDFFilter.takes d v h'
  have hm := SDFFilter.emits v (SDFFilter.sized_of_parse h').1
  show (∃ w post, SDFFilter.codec.marshal v = .ok w ∧ d = w ++ post) ↔ d[1]? = some 0
  rw [e, hm, he, hq]
  constructor
  · rintro ⟨w, p, hw, hd⟩
    cases hw
    simp only [List.cons_append, List.cons.injEq, true_and] at hd
    rw [hd.1]
    rfl
  · intro hx
    have hx' : x = 0 := by simpa using hx
    exact ⟨_, q, rfl, by rw [hx']; rfl⟩

example : SDFFilterFits [1, 0, 0, 2, 65, 66] := by
  intro f x n1 n2 rest h _
  cases h
  decide
example : SDFFilter.codec.parse ⟨[1, 0, 0, 2, 65, 66], []⟩ = .ok ⟨1, 2, [65, 66], [], [], [], 0⟩ := by decide

end Fields
end Pfcp
