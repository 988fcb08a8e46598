/- Property theorems about the PFCP header: C14-C17, and C34 (24/40-bit integers). -/
import Verif.Message.HeaderLemmas

namespace Pfcp

/-! ### C34 24-bit and 40-bit integers -/

/-- C34 (a). Packing then unpacking keeps exactly the low 24 bits. -/
theorem C34_uint24 (n : UInt32) : (uint24To32 (uint32To24 n)).toNat = n.toNat % 2 ^ 24 := by
  rw [uint24To32_eq _ rfl, uint32To24_eq, beNat_beBytes, UInt32.toNat_ofNat']
  omega

/-- C34 (b). Values below 2^24 are unchanged. -/
theorem C34_uint24_id (n : UInt32) (h : n.toNat < 2 ^ 24) : uint24To32 (uint32To24 n) = n := by
  apply UInt32.toNat.inj
  rw [C34_uint24, Nat.mod_eq_of_lt h]

/-- C34 (c). Unpacking then packing three bytes is the identity; other lengths unpack to 0. -/
theorem C34_uint24_bytes (b : Bytes) :
    (b.length = 3 → uint32To24 (uint24To32 b) = b) ∧ (b.length ≠ 3 → uint24To32 b = 0) := by
  constructor
  · intro h
    have hlt := beNat_lt b
    have hb := beBytes_beNat b
    rw [h] at hlt hb
    rw [uint24To32_eq _ h, uint32To24_eq, UInt32.toNat_ofNat', Nat.mod_eq_of_lt (by omega), hb]
  · intro h
    unfold uint24To32
    split
    · simp at h
    · rfl

/-- C34 (d). The same for 40 bits. -/
theorem C34_uint40 (n : UInt64) : (uint40To64 (uint64To40 n)).toNat = n.toNat % 2 ^ 40 := by
  rw [uint40To64_eq _ rfl, uint64To40_eq, beNat_beBytes, UInt64.toNat_ofNat']
  omega

theorem C34_uint40_id (n : UInt64) (h : n.toNat < 2 ^ 40) : uint40To64 (uint64To40 n) = n := by
  apply UInt64.toNat.inj
  rw [C34_uint40, Nat.mod_eq_of_lt h]

theorem C34_uint40_bytes (b : Bytes) :
    (b.length = 5 → uint64To40 (uint40To64 b) = b) ∧ (b.length ≠ 5 → uint40To64 b = 0) := by
  constructor
  · intro h
    have hlt := beNat_lt b
    have hb := beBytes_beNat b
    rw [h] at hlt hb
    rw [uint40To64_eq _ h, uint64To40_eq, UInt64.toNat_ofNat', Nat.mod_eq_of_lt (by omega), hb]
  · intro h
    unfold uint40To64
    split
    · simp at h
    · rfl

example : uint32To24 0x123456 = [0x12, 0x34, 0x56] ∧ (0x123456 : UInt32).toNat < 2 ^ 24 := by decide

namespace Header

/-! ### C14 round trip -/

/-- The values a header can carry on the wire. -/
def WF (h : Header) : Prop :=
  h.seq.toNat < 2 ^ 24 ∧ (has1stBit h.flags = false → h.seid = 0)

theorem parse_enc (h : Header) (hw : h.WF) : parse h.enc = .ok h := by
  obtain ⟨f, t, len, seid, seq, pri, payload⟩ := h
  obtain ⟨hs, he⟩ := hw
  simp only at hs he
  obtain ⟨x, y, hxy⟩ : ∃ x y, be16 len = [x, y] := ⟨_, _, rfl⟩
  have hd : dec16 [x, y] = len := by rw [← hxy, dec16_be16]
  obtain ⟨p, q, r, hpqr⟩ : ∃ p q r, beBytes 3 seq.toNat = [p, q, r] := ⟨_, _, _, rfl⟩
  have hsq : UInt32.ofNat (beNat [p, q, r]) = seq := by
    rw [← hpqr, beNat_beBytes]
    apply UInt32.toNat.inj
    rw [UInt32.toNat_ofNat']
    omega
  rw [parse_eq]
  by_cases hf : has1stBit f = true
  · obtain ⟨a0, a1, a2, a3, a4, a5, a6, a7, h8⟩ :
        ∃ a0 a1 a2 a3 a4 a5 a6 a7, be64 seid = [a0, a1, a2, a3, a4, a5, a6, a7] :=
      ⟨_, _, _, _, _, _, _, _, rfl⟩
    have hd8 : dec64 [a0, a1, a2, a3, a4, a5, a6, a7] = seid := by rw [← h8, dec64_be64]
    simp [enc, hf, hxy, hpqr, h8, hd, hd8, hsq]
  · have hf' : has1stBit f = false := by simpa using hf
    simp [enc, hf', hxy, hpqr, hd, hsq, he hf']

/-- C14. A header with a 24-bit sequence number (and no session id unless flagged) survives encoding
and decoding, whatever its length field says. -/
theorem C14_header_roundtrip (h : Header) (hw : h.WF) :
    ∃ b, h.marshal = .ok b ∧ b.length = h.marshalLen ∧ parse b = .ok h :=
  ⟨h.enc, marshal_eq h, (marshalLen_eq h).symm, parse_enc h hw⟩

example : (Header.new 1 1 1 1 50 0x1122334455667788 0x123456 0x50 [1, 2, 3]).WF := by
  unfold WF; decide

/-- Without the 24-bit bound the high octet of the sequence number is dropped. -/
theorem C14_sequence_truncated :
    (Header.new 1 0 0 0 1 0 0x01000000 0 []).marshal >>= parse
      = .ok (Header.new 1 0 0 0 1 0 0 0 []) := by decide

/-! ### C15 decoding is total and lossless -/

theorem parse_sound (b : Bytes) (h : Header) (hp : parse b = .ok h) : h.enc = b ∧ h.WF := by
  rw [parse_eq] at hp
  match b, hp with
  | f :: t :: b2 :: b3 :: rest, hp =>
    simp only at hp
    by_cases hf : has1stBit f = true
    · simp only [hf, if_true] at hp
      by_cases h12 : rest.length < 12
      · simp [h12] at hp
      · rw [if_neg h12] at hp
        match rest, h12, hp with
        | a0 :: a1 :: a2 :: a3 :: a4 :: a5 :: a6 :: a7 :: p :: q :: r :: m :: rest, _, hp =>
          cases hp
          have e1 : be16 (dec16 [b2, b3]) = [b2, b3] := be16_dec16 _ rfl
          have e2 := be64_dec64 [a0, a1, a2, a3, a4, a5, a6, a7] rfl
          have hlt := beNat_lt [p, q, r]
          have hb := beBytes_beNat [p, q, r]
          simp only [List.length_cons, List.length_nil] at hlt hb
          have e3 : beBytes 3 (UInt32.ofNat (beNat [p, q, r])).toNat = [p, q, r] := by
            rw [UInt32.toNat_ofNat', Nat.mod_eq_of_lt (by omega)]; exact hb
          refine ⟨?_, ?_, ?_⟩
          · have e3' := e3
            rw [UInt32.toNat_ofNat'] at e3'
            simp only [enc, hf, if_true, e1]
            simp [e2]
            exact (congrArg (· ++ m :: rest) e3')
          · simp; omega
          · simp [hf]
        | [], h, _ => simp at h
        | [_], h, _ => simp at h
        | [_, _], h, _ => simp at h
        | [_, _, _], h, _ => simp at h
        | [_, _, _, _], h, _ => simp at h
        | [_, _, _, _, _], h, _ => simp at h
        | [_, _, _, _, _, _], h, _ => simp at h
        | [_, _, _, _, _, _, _], h, _ => simp at h
        | [_, _, _, _, _, _, _, _], h, _ => simp at h
        | [_, _, _, _, _, _, _, _, _], h, _ => simp at h
        | [_, _, _, _, _, _, _, _, _, _], h, _ => simp at h
        | [_, _, _, _, _, _, _, _, _, _, _], h, _ => simp at h
    · have hf' : has1stBit f = false := by simpa using hf
      simp only [hf', Bool.false_eq_true, if_false] at hp
      by_cases h4 : rest.length < 4
      · simp [h4] at hp
      · rw [if_neg h4] at hp
        match rest, h4, hp with
        | p :: q :: r :: m :: rest, _, hp =>
          cases hp
          have e1 : be16 (dec16 [b2, b3]) = [b2, b3] := be16_dec16 _ rfl
          have hlt := beNat_lt [p, q, r]
          have hb := beBytes_beNat [p, q, r]
          simp only [List.length_cons, List.length_nil] at hlt hb
          have e3 : beBytes 3 (UInt32.ofNat (beNat [p, q, r])).toNat = [p, q, r] := by
            rw [UInt32.toNat_ofNat', Nat.mod_eq_of_lt (by omega)]; exact hb
          refine ⟨?_, ?_, ?_⟩
          · have e3' := e3
            rw [UInt32.toNat_ofNat'] at e3'
            simp only [enc, hf', e1]
            simp
            exact (congrArg (· ++ m :: rest) e3')
          · simp; omega
          · simp
        | [], h, _ => simp at h
        | [_], h, _ => simp at h
        | [_, _], h, _ => simp at h
        | [_, _, _], h, _ => simp at h
  | [], hp => simp at hp
  | [_], hp => simp at hp
  | [_, _], hp => simp at hp
  | [_, _, _], hp => simp at hp

/-- C15. Header decoding never panics, and an accepted input is reproduced exactly by encoding. -/
theorem C15_header_total_lossless (b : Bytes) :
    parse b ≠ .panic ∧ ∀ h, parse b = .ok h → h.marshal = .ok b := by
  constructor
  · rw [parse_eq]
    repeat' split
    all_goals simp
  · intro h hp
    rw [marshal_eq, (parse_sound b h hp).1]

/-- C15 (b). It accepts exactly the inputs long enough for the fixed part announced by the S flag. -/
theorem C15_header_accepts (b : Bytes) :
    (∃ h, parse b = .ok h) ↔ ∃ f rest, b = f :: rest ∧ fixedLen f ≤ b.length := by
  rw [parse_eq]
  unfold fixedLen
  match b with
  | f :: t :: b2 :: b3 :: rest =>
    simp only
    by_cases hf : has1stBit f = true
    · simp only [hf, if_true]
      by_cases h12 : rest.length < 12
      · simp [h12, hf]; try omega
      · simp [h12, hf]; try omega
    · simp only [hf]
      by_cases h12 : rest.length < 4
      · simp [h12, hf]; try omega
      · simp [h12, hf]; try omega
  | [] => simp
  | [x] => simp; split <;> omega
  | [x, _] => simp; split <;> omega
  | [x, _, _] => simp; split <;> omega

example : ∃ h, parse [0x21, 50, 0, 12, 0, 0, 0, 0, 0, 0, 0, 7, 0, 0, 1, 0] = .ok h ∧ h.seid = 7 :=
  ⟨_, rfl, by decide⟩

/-! ### C16 setters -/

theorem or1 : ∀ f : UInt8, has1stBit (f ||| 0x01) = true ∧ has2ndBit (f ||| 0x01) = has2ndBit f ∧
    has3rdBit (f ||| 0x01) = has3rdBit f ∧ (f ||| 0x01) >>> 1 = f >>> 1 := by
  apply forall_byte; decide +kernel

/-- C16 (a). `SetSEID` makes the session id visible, keeps every other flag and field, and the id
survives encoding and decoding. -/
theorem C16_setSEID (h : Header) (s : UInt64) (hseq : h.seq.toNat < 2 ^ 24) :
    let h' := h.setSEID s
    h'.hasSEID = true ∧ h'.seidVal = s ∧ h'.flags >>> 1 = h.flags >>> 1 ∧
    h'.hasFO = h.hasFO ∧ h'.hasMP = h.hasMP ∧ h'.typ = h.typ ∧ h'.seq = h.seq ∧ h'.pri = h.pri ∧
    h'.payload = h.payload ∧ (h'.marshal >>= parse) = .ok h' := by
  have := or1 h.flags
  refine ⟨this.1, ?_, this.2.2.2, this.2.2.1, this.2.1, rfl, rfl, rfl, rfl, ?_⟩
  · have hb : (h.setSEID s).hasSEID = true := this.1
    simp [seidVal, hb]
    rfl
  · rw [marshal_eq, Res.ok_bind]
    apply parse_enc
    refine ⟨hseq, ?_⟩
    intro hf
    have : has1stBit (h.setSEID s).flags = true := this.1
    rw [this] at hf; cases hf

/-- C16 (b). `SetSequenceNumber` changes nothing but the sequence number, which survives encoding
when below 2^24. -/
theorem C16_setSequenceNumber (h : Header) (hw : h.WF) (n : UInt32) (hn : n.toNat < 2 ^ 24) :
    h.setSequenceNumber n = { h with seq := n } ∧
    ((h.setSequenceNumber n).marshal >>= parse) = .ok { h with seq := n } := by
  refine ⟨rfl, ?_⟩
  rw [marshal_eq, Res.ok_bind]
  exact parse_enc _ ⟨hn, hw.2⟩

/-- C16 (c), violated: `SetMP` is documented to set the MP flag; it sets the FO flag instead and
leaves MP unset, for every header on which MP was unset. -/
theorem C16_setMP_violated (h : Header) (mp : UInt8) :
    (h.setMP mp).hasMP = h.hasMP ∧ (h.setMP mp).hasFO = true := by
  have key : ∀ f : UInt8, has2ndBit (f ||| ((1 : UInt8) <<< 2)) = has2ndBit f ∧
      has3rdBit (f ||| ((1 : UInt8) <<< 2)) = true := by
    apply forall_byte; decide +kernel
  exact key h.flags

/-- C16 (c), partial: `SetMP` does make the four-bit priority readable through `MP`. -/
theorem C16_setMP_partial (h : Header) (mp : UInt8) : (h.setMP mp).mp = mp &&& 0x0f := by
  have key : ∀ m : UInt8, (((m <<< 4) &&& 0xf0) &&& 0xf0) >>> 4 = m &&& 0x0f := by
    apply forall_byte; decide +kernel
  exact key mp

/-- C16 (d), violated: the priority given to the constructor is not what `MP` returns; the argument
is stored unshifted. -/
theorem C16_constructor_priority_violated :
    (Header.new 1 0 1 1 50 1 1 5 []).hasMP = true ∧ (Header.new 1 0 1 1 50 1 1 5 []).mp = 0 := by
  decide

/-- C16 (d), partial: it is, when the caller passes the priority already shifted left by four. -/
theorem C16_constructor_priority_partial (ver fo mp s t : UInt8) (seid : UInt64) (seq : UInt32)
    (p : UInt8) (hp : p.toNat < 16) (payload : Bytes) :
    (Header.new ver fo mp s t seid seq (p <<< 4) payload).mp = p := by
  have key : ∀ p : UInt8, p.toNat < 16 → ((p <<< 4) &&& 0xf0) >>> 4 = p := by
    apply forall_byte; decide +kernel
  exact key p hp

/-- C16 (e). The constructor's one-bit flags are what the accessors report. -/
theorem C16_constructor_flags (ver t : UInt8) (fo mp s : Bool) (seid : UInt64) (seq : UInt32)
    (pri : UInt8) (payload : Bytes) :
    let h := Header.new ver (if fo then 1 else 0) (if mp then 1 else 0) (if s then 1 else 0) t seid
      seq pri payload
    h.hasFO = fo ∧ h.hasMP = mp ∧ h.hasSEID = s ∧ h.flags >>> 5 = ver &&& 7 := by
  have key : ∀ v : UInt8, ∀ fo mp s : Bool,
      let f := ((v &&& 0x7) <<< 5) ||| ((if fo then (1 : UInt8) else 0) <<< 2) |||
        ((if mp then (1 : UInt8) else 0) <<< 1) ||| (if s then (1 : UInt8) else 0)
      has3rdBit f = fo ∧ has2ndBit f = mp ∧ has1stBit f = s ∧ f >>> 5 = v &&& 7 := by
    apply forall_byte; decide +kernel
  exact key ver fo mp s

/-! ### C17 the length field -/

/-- C17 is false: decoding ignores the length field altogether. Two inputs that differ only in the
length field decode to headers that differ only there, and the payload is always the rest of the
input. -/
theorem C17_length_ignored (f t x y x' y' : UInt8) (rest : Bytes) (h : Header)
    (hp : parse (f :: t :: x :: y :: rest) = .ok h) :
    parse (f :: t :: x' :: y' :: rest) = .ok { h with length := dec16 [x', y'] } ∧
    h.payload = (f :: t :: x :: y :: rest).drop (fixedLen f) := by
  rw [parse_eq] at hp ⊢
  simp only at hp ⊢
  unfold fixedLen
  by_cases hf : has1stBit f = true
  · simp only [hf, if_true] at hp ⊢
    split at hp
    · cases hp
    · rename_i h12
      cases hp
      rw [if_neg h12]
      simp
  · simp only [hf] at hp ⊢
    split at hp
    · rename_i h; cases h
    · split at hp
      · cases hp
      · rename_i h4
        cases hp
        simp [h4]

/-- C17, concrete: a header announcing 4 bytes (no body) in front of a 5-byte body is accepted with
the body, and one announcing 0xffff bytes is accepted as well. -/
theorem C17_length_violated :
    parse [0x20, 1, 0, 4, 0, 0, 1, 0, 0, 96, 0, 1, 7]
      = .ok ⟨0x20, 1, 4, 0, 1, 0, [0, 96, 0, 1, 7]⟩ ∧
    parse [0x20, 1, 0xff, 0xff, 0, 0, 1, 0] = .ok ⟨0x20, 1, 0xffff, 0, 1, 0, []⟩ := by decide

/-- C17, partial: when the length field is right, the payload is exactly what it announces. -/
theorem C17_length_partial (b : Bytes) (h : Header) (hp : parse b = .ok h)
    (hl : h.length.toNat + 4 = b.length) :
    h.payload = (b.take (4 + h.length.toNat)).drop (fixedLen h.flags) := by
  obtain ⟨he, _⟩ := parse_sound b h hp
  rw [List.take_of_length_le (by omega), ← he]
  have : (enc h) = ([h.flags, h.typ] ++ be16 h.length ++
    (if has1stBit h.flags then be64 h.seid else []) ++ beBytes 3 h.seq.toNat ++ [h.pri]) ++ h.payload := rfl
  rw [this, List.drop_left']
  unfold fixedLen
  split <;> simp

end Header
end Pfcp
