/- Helper lemmas about the header codec. Property theorems are in `Verif/Message/HeaderProps.lean`. -/
import Verif.Message.Header
import Verif.IE.Lemmas

namespace Pfcp

namespace Header

/-- Wire format of a header (TS 29.244 7.2.2): flags, type, length, optional session id, sequence
number, priority octet; then the payload. -/
def enc (h : Header) : Bytes :=
  [h.flags, h.typ] ++ be16 h.length ++ (if has1stBit h.flags then be64 h.seid else []) ++
    beBytes 3 h.seq.toNat ++ [h.pri] ++ h.payload

/-- Size of the fixed part. -/
def fixedLen (flags : UInt8) : Nat := if has1stBit flags then 16 else 8

theorem enc_length (h : Header) : h.enc.length = fixedLen h.flags + h.payload.length := by
  unfold enc fixedLen; split <;> simp <;> omega

theorem marshalLen_eq (h : Header) : h.marshalLen = h.enc.length := by
  rw [enc_length]; unfold marshalLen hasSEID fixedLen; split <;> simp <;> omega

end Header

theorem Slice.set_inside (s : Slice) (i : Nat) (v : UInt8) (h : i < s.data.length) :
    s.set i v = .ok ⟨s.data.take i ++ [v] ++ s.data.drop (i + 1), s.spare⟩ := by
  unfold Slice.set
  rw [if_pos h, List.set_eq_take_append_cons_drop, if_pos h]
  simp

/-- A chunk written right behind what has already been written. -/
theorem Slice.putAt_next (A D : Bytes) (sp bs : Bytes) (lo hi : Nat) (hlo : A.length = lo)
    (hhi : hi = lo + bs.length) (hD : bs.length ≤ D.length) :
    Slice.putAt ⟨A ++ D, sp⟩ lo hi bs = .ok ⟨(A ++ bs) ++ D.drop bs.length, sp⟩ := by
  rw [Slice.putAt_inside _ _ _ _ (by omega) (by simp; omega) (by omega)]
  simp only
  rw [List.take_left' hlo, hhi, splice_drop A D lo bs.length hlo]

theorem Slice.copyAt_next (A D : Bytes) (sp bs : Bytes) (lo hi : Nat) (hlo : A.length = lo)
    (hhi : hi = lo + bs.length) (hD : bs.length ≤ D.length) :
    Slice.copyAt ⟨A ++ D, sp⟩ lo hi bs = .ok ⟨(A ++ bs) ++ D.drop bs.length, sp⟩ := by
  rw [Slice.copyAt_inside _ _ _ _ (by omega) (by simp; omega) (by omega)]
  simp only
  rw [List.take_left' hlo, hhi, splice_drop A D lo bs.length hlo]

theorem Slice.set_next (A D : Bytes) (sp : Bytes) (v : UInt8) (i : Nat) (hlo : A.length = i)
    (hD : 1 ≤ D.length) :
    Slice.set ⟨A ++ D, sp⟩ i v = .ok ⟨(A ++ [v]) ++ D.drop 1, sp⟩ := by
  rw [Slice.set_inside _ _ _ (by simp; omega)]
  simp only
  rw [List.take_left' hlo, splice_drop A D i 1 hlo]

namespace Header

theorem marshalTo_eq (h : Header) (b : Slice) (hb : h.enc.length ≤ b.data.length) :
    h.marshalTo b = .ok ⟨h.enc ++ b.data.drop h.enc.length, b.spare⟩ := by
  have hl := enc_length h
  have hml := marshalLen_eq h
  obtain ⟨d, sp⟩ := b
  simp only at hb ⊢
  unfold marshalTo
  have h8 : 8 ≤ fixedLen h.flags := by unfold fixedLen; split <;> omega
  rw [show d = [] ++ d from rfl, Slice.set_next [] d sp h.flags 0 rfl (by omega)]
  simp only [Res.ok_bind]
  rw [Slice.set_next _ _ _ _ 1 rfl (by simp; omega)]
  simp only [Res.ok_bind]
  rw [Slice.putAt_next _ _ _ _ 2 4 rfl (by simp) (by simp; omega)]
  simp only [Res.ok_bind]
  by_cases hs : h.hasSEID = true
  · have hs' : has1stBit h.flags = true := hs
    have hf : fixedLen h.flags = 16 := by simp [fixedLen, hs']
    rw [if_pos hs]
    rw [Slice.putAt_next _ _ _ _ 4 (4 + 8) (by simp) (by simp) (by simp; omega)]
    simp only [Res.ok_bind, Res.pure_eq]
    rw [Slice.copyAt_next _ _ _ _ (4 + 8) (4 + 8 + 3) (by simp) (by simp) (by simp; omega)]
    simp only [Res.ok_bind]
    rw [Slice.set_next _ _ _ _ _ (by simp) (by simp; omega)]
    simp only [Res.ok_bind]
    rw [Slice.copyAt_next _ _ _ _ _ _ (by simp) (by rw [hml, hl, hf]) (by simp; omega)]
    simp [enc, hs', uint32To24_eq, List.drop_drop, Nat.add_assoc, Nat.add_comm, Nat.add_left_comm]
  · have hs' : has1stBit h.flags = false := by simpa [hasSEID] using hs
    have hf : fixedLen h.flags = 8 := by simp [fixedLen, hs']
    rw [if_neg hs]
    simp only [Res.ok_bind, Res.pure_eq]
    rw [Slice.copyAt_next _ _ _ _ 4 (4 + 3) (by simp) (by simp) (by simp; omega)]
    simp only [Res.ok_bind]
    rw [Slice.set_next _ _ _ _ _ (by simp) (by simp; omega)]
    simp only [Res.ok_bind]
    rw [Slice.copyAt_next _ _ _ _ _ _ (by simp) (by rw [hml, hl, hf]) (by simp; omega)]
    simp [enc, hs', uint32To24_eq, List.drop_drop, Nat.add_assoc, Nat.add_comm, Nat.add_left_comm]

theorem marshal_eq (h : Header) : h.marshal = .ok h.enc := by
  unfold marshal
  rw [marshalTo_eq h _ (by simp [Slice.make, marshalLen_eq])]
  simp [Slice.make, marshalLen_eq]

/-- Normal form of the decoder: the payload is always the whole rest of the input. -/
theorem parse_eq (b : Bytes) :
    parse b =
      match b with
      | f :: t :: b2 :: b3 :: rest =>
        if has1stBit f then
          if rest.length < 12 then .err .unexpectedEOF
          else .ok ⟨f, t, dec16 [b2, b3], dec64 (rest.take 8),
            UInt32.ofNat (beNat ((rest.drop 8).take 3)), (rest.drop 11).headD 0, rest.drop 12⟩
        else
          if rest.length < 4 then .err .unexpectedEOF
          else .ok ⟨f, t, dec16 [b2, b3], 0,
            UInt32.ofNat (beNat (rest.take 3)), (rest.drop 3).headD 0, rest.drop 4⟩
      | _ => .err .unexpectedEOF := by
  match b with
  | [] => rfl
  | [_] => rfl
  | [_, _] => rfl
  | [_, _, _] => rfl
  | f :: t :: b2 :: b3 :: rest =>
    unfold parse
    simp only
    by_cases h8 : (f :: t :: b2 :: b3 :: rest).length < 8
    · have h4 : rest.length < 4 := by simp at h8; omega
      rw [if_pos h8]
      split
      · rw [if_pos (by omega)]
      · rfl
    · have h4 : 4 ≤ rest.length := by simp at h8; omega
      have hL : (f :: t :: b2 :: b3 :: rest).length = rest.length + 4 := by simp
      rw [if_neg h8]
      rw [slice_ok _ 2 4 (by omega) (by simp)]
      simp only [index, List.getElem?_cons_zero, Res.ok_bind, List.getElem?_cons_succ,
        List.take_succ_cons, List.take_zero, List.drop_succ_cons, List.drop_zero, hL]
      by_cases hs : has1stBit f = true
      · simp only [hs, if_true]
        by_cases h12 : rest.length < 12
        · rw [if_pos h12]
          by_cases h12' : rest.length + 4 < 4 + 8
          · rw [if_pos h12']; rfl
          · rw [if_neg h12', slice_ok _ _ _ (by omega) (by simp; omega)]
            simp only [Res.ok_bind, Res.pure_eq]
            rw [if_pos (by omega)]
        · rw [if_neg h12, if_neg (by omega), slice_ok _ _ _ (by omega) (by simp; omega)]
          simp only [Res.ok_bind, Res.pure_eq]
          rw [if_neg (by omega), slice_ok _ _ _ (by omega) (by simp; omega)]
          have e1 : (rest.drop 11)[0]? = rest[11]? := by simp
          have e2 : rest[11]? = some ((rest.drop 11).headD 0) := by
            rw [← e1, List.headD_eq_head?_getD, List.head?_eq_getElem?, e1,
              List.getElem?_eq_getElem (by omega)]
            rfl
          simp only [Res.ok_bind, List.getElem?_cons_succ, e2]
          have e3 : List.drop (4 + 8) (List.take (4 + 8 + 3) (f :: t :: b2 :: b3 :: rest))
              = (rest.drop 8).take 3 := by
            simp [List.drop_take]
          have e4 : List.drop 4 (List.take (4 + 8) (f :: t :: b2 :: b3 :: rest)) = rest.take 8 := by
            simp
          rw [e3, e4, uint24To32_eq _ (by simp; omega)]
          split
          · rw [slice_ok _ _ _ (by omega) (by simp)]
            simp [List.take_of_length_le]
          · rename_i hne
            rw [if_neg (by omega), slice_ok _ _ _ (by omega) (by simp; omega)]
            simp only [Res.ok_bind]
            rw [List.take_of_length_le (l := f :: t :: b2 :: b3 :: rest) (by rw [hL]; omega)]
            simp
      · simp only [hs]
        simp only [Bool.false_eq_true, if_false, Res.pure_eq, Res.ok_bind]
        rw [if_neg (by omega), if_neg (by omega), slice_ok _ _ _ (by omega) (by simp; omega)]
        have e1 : (rest.drop 3)[0]? = rest[3]? := by simp
        have e2 : rest[3]? = some ((rest.drop 3).headD 0) := by
          rw [← e1, List.headD_eq_head?_getD, List.head?_eq_getElem?, e1,
            List.getElem?_eq_getElem (by omega)]
          rfl
        simp only [Res.ok_bind, List.getElem?_cons_succ, e2]
        have e3 : List.drop 4 (List.take (4 + 3) (f :: t :: b2 :: b3 :: rest)) = rest.take 3 := by
          simp
        rw [e3, uint24To32_eq _ (by simp; omega)]
        split
        · rw [slice_ok _ _ _ (by omega) (by simp)]
          simp [List.take_of_length_le]
        · rename_i hne
          rw [if_neg (by omega), slice_ok _ _ _ (by omega) (by simp; omega)]
          simp only [Res.ok_bind]
          rw [List.take_of_length_le (l := f :: t :: b2 :: b3 :: rest) (by rw [hL]; omega)]
          simp

end Header
end Pfcp
