/- Property C80, continued: addresses copied as they are, header enrichment, tags, MAC addresses, filters. -/
import Verif.Fields.Keep1
import Verif.Fields.Props3

namespace Pfcp
namespace Fields

theorem announced_raw {c : Bool} {n : Nat} {ip : IP} : c = ip.isSome ∧ ip.Len n ↔ Announced c n ip := by
  cases ip with
  | none =>
    cases c
    · simp [Announced, IP.Len]
    · simp [Announced]
  | some a =>
    cases c
    · simp [Announced]
    · simp [Announced, IP.Len]

theorem run_minLen_inv {α : Type} {n : Nat} {f : Unit → P α} {s : Slice} {a : α}
    (h : (P.minLen n >>= f).run s = .ok a) : n ≤ s.data.length ∧ ∃ o, f () s 0 = .ok (a, o) := by
  have hl := run_minLen_ok h
  rw [P.run_minLen_eq hl] at h
  exact ⟨hl, P.run_inv h⟩

/-! ### UEIPAddress -/

theorem UEIPAddress.agree_of_parse {s : Slice} {v : UEIPAddress} (h : UEIPAddress.codec.parse s = .ok v) :
    v.Agree := by
  obtain ⟨d, sp⟩ := s
  obtain ⟨hl, o, h⟩ := run_minLen_inv h
  obtain ⟨f, o1, h1, h⟩ := P.bind_inv h
  obtain ⟨_, rfl⟩ := P.u8_inv h1
  obtain ⟨v4, o2, h2, h⟩ := P.bind_inv h
  obtain ⟨_, _, _, _, ⟨_, a1, a2⟩, hl2⟩ := P.Takes.raw (k := 0) d sp _ v4 o2 hl h2
  obtain ⟨v6, o3, h3, h⟩ := P.bind_inv h
  obtain ⟨_, _, _, _, ⟨_, b1, b2⟩, _⟩ := P.Takes.raw (k := 0) d sp _ v6 o3 hl2 h3
  obtain ⟨_, _, _, h⟩ := P.bind_inv h
  obtain ⟨_, _, _, h⟩ := P.bind_inv h
  cases h
  exact ⟨⟨a1.symm, a2⟩, b1.symm, b2⟩

/-- C80. Both trailing octets are read from the place of the first, so with both announced they must be equal. -/
theorem C80_UEIPAddress (v : UEIPAddress) : UEIPAddress.codec.Keeps v ↔
    Announced (bit v.flags 1 && !bit v.flags 4) 4 v.v4 ∧ Announced (bit v.flags 0 && !bit v.flags 5) 16 v.v6 ∧
    (bit v.flags 3 = false → v.v6d = 0) ∧ (bit v.flags 6 = false → v.v6pl = 0) ∧
    (bit v.flags 3 = true → bit v.flags 6 = true → v.v6pl = v.v6d) := by
  rw [keeps_iff (R := v.Agree) (e := v.enc) (v' := _)]
  rotate_left
  · exact fun w _ hp => UEIPAddress.agree_of_parse hp
  · exact fun h => ⟨UEIPAddress.emits v h, fun sp => by have := UEIPAddress.reads v h [] sp; rwa [List.append_nil] at this⟩
  · rw [← announced_raw, ← announced_raw]
    obtain ⟨f, a, b, c, d⟩ := v
    simp only [UEIPAddress.Agree, UEIPAddress.hasIPv4, UEIPAddress.hasIPv6, has1stBit_eq, has2ndBit_eq, has4thBit_eq,
      has5thBit_eq, has6thBit_eq, has7thBit_eq, UEIPAddress.mk.injEq, true_and, and_assoc]
    refine and_congr Iff.rfl (and_congr Iff.rfl (and_congr Iff.rfl (and_congr Iff.rfl ?_)))
    cases bit f 3 <;> cases bit f 6 <;> simp [eq_comm]

/-! ### IPMulticastAddress -/

/-- C80. A value that means "any address" never comes back. -/
theorem C80_IPMulticastAddress (v : IPMulticastAddress) : IPMulticastAddress.codec.Keeps v ↔
    bit v.flags 3 = false ∧ (bit v.flags 0 = true ∨ bit v.flags 1 = true) ∧
    Announced (bit v.flags 1) 4 v.sv4 ∧ Announced (bit v.flags 0) 16 v.sv6 ∧
    Announced (bit v.flags 2 && bit v.flags 1) 4 v.ev4 ∧ Announced (bit v.flags 2 && bit v.flags 0) 16 v.ev6 := by
  rw [keeps_iff (R := (v.Valid ∧ v.Agree) ∧ 2 ≤ v.enc.length) (e := v.enc)
    (v' := ⟨v.flags, v.sv4.as4, v.sv6.as16, v.ev4.as4, v.ev6.as16⟩)]
  · rw [← announced4, ← announced16, ← announced4, ← announced16]
    obtain ⟨f, a, b, c, d⟩ := v
    simp only [IPMulticastAddress.Valid, IPMulticastAddress.Agree, IPMulticastAddress.hasIPv4,
      IPMulticastAddress.hasIPv6, IPMulticastAddress.hasAny, IPMulticastAddress.hasRange, IPMulticastAddress.enc,
      has1stBit_eq, has2ndBit_eq, has3rdBit_eq, has4thBit_eq, IPMulticastAddress.mk.injEq, true_and]
    constructor
    · rintro ⟨⟨⟨⟨h1, h2, h3, h4⟩, hg⟩, hl⟩, e1, e2, e3, e4⟩
      rw [List.length_append, List.length_append, List.length_append, List.length_append, List.length_append,
        wire4_length h1, wire16_length h2, wire4_length h3, wire16_length h4] at hl
      cases hb : bit f 3
      · rw [hb] at hg
        obtain ⟨g1, g2, g3, g4⟩ := hg
        refine ⟨rfl, ?_, ⟨⟨g1, h1⟩, e1⟩, ⟨⟨g2, h2⟩, e2⟩, ⟨⟨g3, h3⟩, e3⟩, ⟨g4, h4⟩, e4⟩
        rw [← g1, ← g2, ← g3, ← g4] at hl
        revert hl
        cases bit f 0 <;> cases bit f 1 <;> simp
      · rw [hb] at hg
        obtain ⟨rfl, rfl, rfl, rfl⟩ := hg
        simp at hl
    · rintro ⟨hb, h, ⟨⟨g1, h1⟩, e1⟩, ⟨⟨g2, h2⟩, e2⟩, ⟨⟨g3, h3⟩, e3⟩, ⟨g4, h4⟩, e4⟩
      refine ⟨⟨⟨⟨h1, h2, h3, h4⟩, ?_⟩, ?_⟩, e1, e2, e3, e4⟩
      · rw [hb]
        exact ⟨g1, g2, g3, g4⟩
      · rw [List.length_append, List.length_append, List.length_append, List.length_append, List.length_append,
          wire4_length h1, wire16_length h2, wire4_length h3, wire16_length h4, ← g1, ← g2, ← g3, ← g4]
        revert h
        cases bit f 0 <;> cases bit f 1 <;> simp <;> omega
  · intro w hm hp
    obtain ⟨_, _, _, ⟨_, h1, h2⟩, hl⟩ := IPMulticastAddress.takes _ _ hp
    refine ⟨⟨h1, h2⟩, ?_⟩
    rw [IPMulticastAddress.emits v h1 h2] at hm
    cases hm
    exact hl
  · rintro ⟨⟨h1, h2⟩, hl⟩
    refine ⟨IPMulticastAddress.emits v h1 h2, fun sp => ?_⟩
    have := IPMulticastAddress.reads v h1 h2 [] sp (by rwa [List.append_nil])
    rwa [List.append_nil] at this

/-! ### UserPlaneIPResourceInformation -/

theorem and15_eq : ∀ x : UInt8, (x &&& 0x0f = x) ↔ x.toNat < 16 := forall_byte (by decide +kernel)

/-- C80. A value with a network instance never comes back. -/
theorem C80_UserPlaneIPResourceInformation (v : UserPlaneIPResourceInformation) :
    UserPlaneIPResourceInformation.codec.Keeps v ↔
    bit v.flags 5 = false ∧
    (bit v.flags 0 = true ∨ bit v.flags 1 = true ∨ bit v.flags 2 = true ∨ bit v.flags 3 = true ∨ bit v.flags 4 = true ∨
      bit v.flags 6 = true) ∧
    Announced (bit v.flags 0) 4 v.v4 ∧ Announced (bit v.flags 1) 16 v.v6 ∧
    ((bit v.flags 2 || bit v.flags 3 || bit v.flags 4) = false → v.teidRange = 0) ∧ v.ni = [] ∧
    v.si.toNat < 16 ∧ (bit v.flags 6 = false → v.si = 0) := by
  have tr : ∀ f : UInt8, UserPlaneIPResourceInformation.hasTEIDRI f = (bit f 2 || bit f 3 || bit f 4) :=
    forall_byte (by decide +kernel)
  rw [keeps_iff (R := (has6thBit v.flags = false ∧ v.Agree) ∧ 2 ≤ v.enc.length) (e := v.enc)
    (v' := ⟨v.flags, if UserPlaneIPResourceInformation.hasTEIDRI v.flags then v.teidRange else 0, v.v4, v.v6, [],
      if has7thBit v.flags then v.si &&& 0x0f else 0⟩)]
  · rw [← announced_raw, ← announced_raw]
    obtain ⟨f, t, a, b, n, s⟩ := v
    simp only [UserPlaneIPResourceInformation.Agree, UserPlaneIPResourceInformation.enc, tr, has1stBit_eq, has2ndBit_eq,
      has6thBit_eq, has7thBit_eq, UserPlaneIPResourceInformation.mk.injEq, true_and, ite_self_iff]
    constructor
    · rintro ⟨⟨⟨h5, ⟨h1, h2⟩, h3, h4⟩, hl⟩, e1, e2, e3⟩
      refine ⟨h5, ?_, ⟨h1, h2⟩, ⟨h3, h4⟩, e1, e2.symm, ?_⟩
      · rw [List.length_append, List.length_append, List.length_append, List.length_append, List.length_append,
          h2.val, h4.val, ← h1, ← h3, h5] at hl
        revert hl
        cases bit f 0 <;> cases bit f 1 <;> cases bit f 2 <;> cases bit f 3 <;> cases bit f 4 <;> cases bit f 6 <;> simp
      · revert e3
        cases bit f 6
        · simp only [Bool.false_eq_true, if_false, forall_const]
          rintro rfl
          exact ⟨by decide, rfl⟩
        · simp only [if_true, Bool.true_eq_false, false_implies, and_true]
          exact (and15_eq s).1
    · rintro ⟨h5, h, ⟨h1, h2⟩, ⟨h3, h4⟩, e1, e2, e3, e4⟩
      refine ⟨⟨⟨h5, ⟨h1, h2⟩, h3, h4⟩, ?_⟩, e1, e2.symm, ?_⟩
      · rw [List.length_append, List.length_append, List.length_append, List.length_append, List.length_append,
          h2.val, h4.val, ← h1, ← h3, h5]
        revert h
        cases bit f 0 <;> cases bit f 1 <;> cases bit f 2 <;> cases bit f 3 <;> cases bit f 4 <;> cases bit f 6 <;> simp
      · revert e4
        cases bit f 6
        · simp [eq_comm]
        · intro _
          exact (and15_eq s).2 e3
  · intro w hm hp
    obtain ⟨f, rest, _, hf, h6⟩ := UserPlaneIPResourceInformation.parse_ni _ _ hp
    rw [← hf] at h6
    obtain ⟨_, _, _, hx, hl⟩ := UserPlaneIPResourceInformation.takes _ _ hp
    obtain ⟨_, _, _, hag⟩ := hx h6
    have hlen := UserPlaneIPResourceInformation.enc_length v hag
    have hm2 : 2 ≤ v.enc.length := by
      rw [hlen]
      exact marshal_minLen_ok hm
    exact ⟨⟨h6, hag⟩, hm2⟩
  · rintro ⟨⟨h6, hag⟩, hl⟩
    exact ⟨UserPlaneIPResourceInformation.emits v hag hl,
      fun sp => by have := UserPlaneIPResourceInformation.reads v hag hl h6 [] sp; rwa [List.append_nil] at this⟩

/-! ### HeaderEnrichment -/

theorem C80_HeaderEnrichment (v : HeaderEnrichment) : HeaderEnrichment.codec.Keeps v ↔
    v.name.length = v.nameLength.toNat ∧ v.value.length = v.valueLength.toNat := by
  rw [keeps_iff (R := v.Agree) (e := v.enc) (v' := v)]
  · exact and_iff_left rfl
  · intro w _ hp
    obtain ⟨_, _, _, ⟨_, h⟩, _⟩ := HeaderEnrichment.takes _ _ hp
    exact h
  · exact fun h => ⟨HeaderEnrichment.emits v h,
      fun sp => by have := HeaderEnrichment.reads v h [] sp; rwa [List.append_nil] at this⟩

/-! ### CTAG and STAG -/

theorem Tag.hi_all : ∀ (hi : Fin 256) (p : Fin 8) (d : Fin 2),
    ((((BitVec.ofNat 16 hi) <<< 4) ||| ((UInt8.ofNat d <<< (3 : UInt8) ||| UInt8.ofNat p).toUInt16).toBitVec) &&&
      0xff#16).toNat = 16 * (hi % 16) + 8 * d + p := by decide +kernel

/-- The two octets behind the flags for any VID. -/
theorem Tag.be_all (f : Tag) (hp : f.pcp.toNat < 8) (hd : f.dei.toNat < 2) :
    be16 f.bits = [UInt8.ofNat (16 * (f.cvid.toNat / 256 % 16) + 8 * f.dei.toNat + f.pcp.toNat),
      UInt8.ofNat (f.cvid.toNat % 256)] := by
  have h1 := congrArg BitVec.toNat (bits_hi f.cvid.toBitVec (f.dei <<< (3 : UInt8) ||| f.pcp).toUInt16.toBitVec)
  have h2 := congrArg BitVec.toNat (bits_lo f.cvid.toBitVec (f.dei <<< (3 : UInt8) ||| f.pcp).toUInt16.toBitVec)
  have e : (((f.cvid.toBitVec <<< 4 &&& 0xf000#16) ||| (f.cvid.toBitVec &&& 0xff#16)) |||
      ((f.dei <<< (3 : UInt8) ||| f.pcp).toUInt16.toBitVec <<< 8)).toNat = f.bits.toNat := by
    rfl
  have m : ∀ n, n &&& 255 = n % 256 := fun n => Nat.and_two_pow_sub_one_eq_mod (n := 8) n
  have hcl := f.cvid.toNat_lt
  have k := hi_all ⟨f.cvid.toNat / 256, by omega⟩ ⟨f.pcp.toNat, hp⟩ ⟨f.dei.toNat, hd⟩
  have ec : f.cvid.toBitVec >>> 8 = BitVec.ofNat 16 (f.cvid.toNat / 256) := by
    apply BitVec.eq_of_toNat_eq
    have : (f.cvid.toBitVec >>> 8).toNat = f.cvid.toNat / 256 := by
      rw [BitVec.toNat_ushiftRight, Nat.shiftRight_eq_div_pow]; rfl
    rw [this, BitVec.toNat_ofNat]
    omega
  simp only [UInt8.ofNat_toNat] at k
  rw [ec, k, BitVec.toNat_ushiftRight, e, Nat.shiftRight_eq_div_pow] at h1
  rw [BitVec.toNat_and, BitVec.toNat_and, e] at h2
  have h2' : f.bits.toNat % 256 = f.cvid.toNat % 256 := by
    rw [← m, ← m]; exact h2
  have hm : ∀ n : Nat, UInt8.ofNat n = UInt8.ofNat (n % 256) := by
    intro n
    apply UInt8.toNat_inj.1
    simp
  show [UInt8.ofNat (f.bits.toNat / 256 ^ 1), UInt8.ofNat (f.bits.toNat / 256 ^ 0)] = _
  rw [Nat.pow_zero, Nat.div_one, hm f.bits.toNat, h2', Nat.pow_one]
  congr 2

theorem Tag.reads_all (f : Tag) (hp : f.pcp.toNat < 8) (hd : f.dei.toNat < 2) (sp : Bytes) :
    codec.parse ⟨f.enc, sp⟩ = .ok ⟨f.flags, if has1stBit f.flags then f.pcp else 0,
      if has2ndBit f.flags then f.dei else 0,
      if has3rdBit f.flags then UInt16.ofNat (4096 * (f.cvid.toNat / 256 % 16) + f.cvid.toNat % 256) else 0⟩ := by
  unfold enc
  rw [be_all f hp hd]
  obtain ⟨k1, k2, k3⟩ := octet_key ⟨f.cvid.toNat / 256 % 16, by omega⟩ ⟨f.pcp.toNat, hp⟩ ⟨f.dei.toNat, hd⟩
  simp only at k1 k2 k3
  show codec.parse ⟨f.flags :: _ :: _ :: [], sp⟩ = _
  rw [parse_eq]
  have e1 : UInt8.ofNat (16 * (f.cvid.toNat / 256 % 16) + 8 * f.dei.toNat + f.pcp.toNat) &&& 0x07 = f.pcp :=
    UInt8.toNat_inj.1 k1
  have e2 : (UInt8.ofNat (16 * (f.cvid.toNat / 256 % 16) + 8 * f.dei.toNat + f.pcp.toNat) >>> 3) &&& 0x01 = f.dei :=
    UInt8.toNat_inj.1 k2
  have e3 : dec16 [UInt8.ofNat (16 * (f.cvid.toNat / 256 % 16) + 8 * f.dei.toNat + f.pcp.toNat),
      UInt8.ofNat (f.cvid.toNat % 256)] &&& 0xf0ff
      = UInt16.ofNat (4096 * (f.cvid.toNat / 256 % 16) + f.cvid.toNat % 256) := by
    apply UInt16.toNat_inj.1
    rw [dec_bits, k3]
    simp only [UInt16.toNat_ofNat', UInt8.toNat_ofNat']
    omega
  rw [e1, e2, e3]

/-- C80. A VID comes back only if it is below 256. -/
theorem C80_Tag (v : Tag) : Tag.codec.Keeps v ↔
    v.pcp.toNat < 8 ∧ v.dei.toNat < 2 ∧ v.cvid.toNat < 256 ∧
    (bit v.flags 0 = false → v.pcp = 0) ∧ (bit v.flags 1 = false → v.dei = 0) ∧
    (bit v.flags 2 = false → v.cvid = 0) := by
  have k7 : ∀ x : UInt8, (x &&& 0x07).toNat < 8 ∧ ((x >>> 3) &&& 0x01).toNat < 2 := forall_byte (by decide +kernel)
  rw [keeps_iff (R := v.pcp.toNat < 8 ∧ v.dei.toNat < 2) (e := v.enc) (v' := _)]
  rotate_left
  · intro w _ hp
    obtain ⟨f, x, y, rest, _, rfl⟩ := Tag.parse_inv _ _ hp
    constructor
    · show UInt8.toNat (if _ then _ else _) < 8
      split
      · exact (k7 x).1
      · decide
    · show UInt8.toNat (if _ then _ else _) < 2
      split
      · exact (k7 x).2
      · decide
  · exact fun h => ⟨Tag.emits v, fun sp => Tag.reads_all v h.1 h.2 sp⟩
  · obtain ⟨f, p, d, c⟩ := v
    simp only [has1stBit_eq, has2ndBit_eq, has3rdBit_eq, Tag.mk.injEq, true_and, ite_self_iff, and_assoc]
    refine and_congr Iff.rfl (and_congr Iff.rfl ?_)
    have hc := c.toNat_lt
    have key : UInt16.ofNat (4096 * (c.toNat / 256 % 16) + c.toNat % 256) = c ↔ c.toNat < 256 := by
      constructor
      · intro h
        have := congrArg UInt16.toNat h
        rw [UInt16.toNat_ofNat'] at this
        omega
      · intro h
        apply UInt16.toNat_inj.1
        rw [UInt16.toNat_ofNat']
        omega
    cases bit f 2
    · simp only [Bool.false_eq_true, if_false, forall_const]
      constructor
      · rintro ⟨h1, h2, rfl⟩
        exact ⟨by decide, h1, h2, rfl⟩
      · rintro ⟨_, h1, h2, rfl⟩
        exact ⟨h1, h2, rfl⟩
    · simp only [if_true, Bool.true_eq_false, false_implies, and_true, key]
      constructor
      · rintro ⟨h1, h2, h3⟩
        exact ⟨h3, h1, h2⟩
      · rintro ⟨h3, h1, h2⟩
        exact ⟨h1, h2, h3⟩

/-- C80 is false: a VLAN tag with every field announced and in its range does not come back. -/
theorem C80_violated : ¬ ∀ v : Tag, v.pcp.toNat < 8 → v.dei.toNat < 2 → v.cvid.toNat < 4096 → bit v.flags 0 = true →
    bit v.flags 1 = true → bit v.flags 2 = true → Tag.codec.Keeps v := fun h => by
  have := (C80_Tag _).1 (h ⟨7, 1, 0, 256⟩ (by decide) (by decide) (by decide) (by decide) (by decide) (by decide))
  revert this
  decide

/-! ### MACAddress -/

theorem announced6 {c : Bool} {m : Option Bytes} :
    (c = m.isSome ∧ MACAddress.Long m) ∧ m.map (·.take 6) = m ↔ Announced c 6 m := by
  cases m with
  | none =>
    cases c
    · simp [Announced, MACAddress.Long]
    · simp [Announced]
  | some a =>
    cases c
    · simp [Announced]
    · simp only [Announced, if_true, Option.isSome_some, true_and, MACAddress.Long, Option.map_some, Option.some.injEq,
        exists_eq_left', forall_eq']
      constructor
      · rintro ⟨h1, h2⟩
        have := congrArg List.length h2
        rw [List.length_take] at this
        omega
      · intro h
        exact ⟨by omega, List.take_of_length_le (by omega)⟩

theorem C80_MACAddress (v : MACAddress) : MACAddress.codec.Keeps v ↔
    (bit v.flags 0 = true ∨ bit v.flags 1 = true ∨ bit v.flags 2 = true ∨ bit v.flags 3 = true) ∧
    Announced (bit v.flags 0) 6 v.src ∧ Announced (bit v.flags 1) 6 v.dst ∧ Announced (bit v.flags 2) 6 v.usrc ∧
    Announced (bit v.flags 3) 6 v.udst := by
  rw [keeps_iff (R := v.Agree ∧ 2 ≤ v.enc.length) (e := v.enc)
    (v' := ⟨v.flags, v.src.map (·.take 6), v.dst.map (·.take 6), v.usrc.map (·.take 6), v.udst.map (·.take 6)⟩)]
  · rw [← announced6, ← announced6, ← announced6, ← announced6]
    obtain ⟨f, a, b, c, d⟩ := v
    simp only [MACAddress.Agree, MACAddress.enc, MACAddress.hasSOUR, MACAddress.hasDEST, MACAddress.hasUSOU,
      MACAddress.hasUDES, has1stBit_eq, has2ndBit_eq, has3rdBit_eq, has4thBit_eq, MACAddress.mk.injEq, true_and]
    constructor
    · rintro ⟨⟨⟨h1, h2, h3, h4⟩, hl⟩, e1, e2, e3, e4⟩
      refine ⟨?_, ⟨h1, e1⟩, ⟨h2, e2⟩, ⟨h3, e3⟩, h4, e4⟩
      rw [List.length_append, List.length_append, List.length_append, List.length_append, List.length_append,
        MACAddress.wire_length h1.2, MACAddress.wire_length h2.2, MACAddress.wire_length h3.2,
        MACAddress.wire_length h4.2, ← h1.1, ← h2.1, ← h3.1, ← h4.1] at hl
      revert hl
      cases bit f 0 <;> cases bit f 1 <;> cases bit f 2 <;> cases bit f 3 <;> simp
    · rintro ⟨h, ⟨h1, e1⟩, ⟨h2, e2⟩, ⟨h3, e3⟩, h4, e4⟩
      refine ⟨⟨⟨h1, h2, h3, h4⟩, ?_⟩, e1, e2, e3, e4⟩
      rw [List.length_append, List.length_append, List.length_append, List.length_append, List.length_append,
        MACAddress.wire_length h1.2, MACAddress.wire_length h2.2, MACAddress.wire_length h3.2,
        MACAddress.wire_length h4.2, ← h1.1, ← h2.1, ← h3.1, ← h4.1]
      revert h
      cases bit f 0 <;> cases bit f 1 <;> cases bit f 2 <;> cases bit f 3 <;> simp
  · intro w hm hp
    obtain ⟨_, _, _, ⟨_, h1⟩, hl⟩ := MACAddress.takes _ _ hp
    refine ⟨h1, ?_⟩
    rw [MACAddress.emits v h1] at hm
    cases hm
    exact hl
  · rintro ⟨h1, hl⟩
    exact ⟨MACAddress.emits v h1,
      fun sp => by have := MACAddress.reads v h1 hl [] sp; rwa [List.append_nil] at this⟩

/-! ### Values that survive and values that do not -/

example : UEIPAddress.codec.Keeps ⟨0x02, some [10, 0, 0, 1], none, 0, 0⟩ :=
  (C80_UEIPAddress _).2 ⟨⟨_, rfl, rfl⟩, rfl, by decide, by decide, by decide⟩
/-- Different prefix delegation bits and prefix length. -/
example : ¬ UEIPAddress.codec.Keeps ⟨0x48, none, none, 64, 56⟩ := fun h => by
  have := ((C80_UEIPAddress _).1 h).2.2.2.2 (by decide) (by decide)
  revert this
  decide
example : IPMulticastAddress.codec.Keeps ⟨0x02, some [239, 0, 0, 1], none, none, none⟩ :=
  (C80_IPMulticastAddress _).2 ⟨by decide, by decide, ⟨_, rfl, rfl⟩, rfl, rfl, rfl⟩
example : ¬ IPMulticastAddress.codec.Keeps ⟨0x08, none, none, none, none⟩ := fun h => by
  have := ((C80_IPMulticastAddress _).1 h).1
  revert this
  decide
example : UserPlaneIPResourceInformation.codec.Keeps ⟨0x41, 0, some [10, 0, 0, 1], none, [], 1⟩ :=
  (C80_UserPlaneIPResourceInformation _).2
    ⟨by decide, by decide, ⟨_, rfl, rfl⟩, rfl, by decide, rfl, by decide, by decide⟩
example : ¬ UserPlaneIPResourceInformation.codec.Keeps ⟨0x21, 0, some [10, 0, 0, 1], none, [1, 2], 0⟩ := fun h => by
  have := ((C80_UserPlaneIPResourceInformation _).1 h).1
  revert this
  decide
example : HeaderEnrichment.codec.Keeps ⟨0, 1, [65], 2, [66, 67]⟩ := (C80_HeaderEnrichment _).2 ⟨rfl, rfl⟩
example : ¬ HeaderEnrichment.codec.Keeps ⟨0, 1, [65, 65], 2, [66, 67]⟩ := fun h => by
  have := ((C80_HeaderEnrichment _).1 h).1
  revert this
  decide
example : Tag.codec.Keeps ⟨7, 7, 1, 255⟩ := (C80_Tag _).2 (by decide)
example : ¬ Tag.codec.Keeps ⟨7, 7, 1, 256⟩ := fun h => by
  have := (C80_Tag _).1 h
  revert this
  decide
example : MACAddress.codec.Keeps ⟨1, some [1, 2, 3, 4, 5, 6], none, none, none⟩ :=
  (C80_MACAddress _).2 ⟨by decide, ⟨_, rfl, rfl⟩, rfl, rfl, rfl⟩
example : ¬ MACAddress.codec.Keeps ⟨1, some [1, 2, 3, 4, 5, 6, 7, 8], none, none, none⟩ := fun h => by
  obtain ⟨x, h1, h2⟩ := ((C80_MACAddress _).1 h).2.1
  cases h1
  revert h2
  decide

end Fields
end Pfcp
