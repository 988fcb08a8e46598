/-
C75: what a failed decode leaves behind.

A program that decodes into a message, header or element which it keeps relies on the value being untouched, or at least
usable, when `UnmarshalBinary` reports an error.
-/
import Verif.Message.FailedLemmas

namespace Pfcp

variable (g : IEType → Bool)

/-! ### Elements -/

/-- C75 the assignments are those of the decode into a used element. -/
theorem C75_element_outcome (old : IE) (b : Bytes) : St.outcome (IE.unmarshalSt g b old) = unmarshalInto g old b := by
  rw [IE.unmarshalSt_eq]
  unfold unmarshalInto IE.unmarshalEnd
  by_cases h4 : b.length < 4
  · simp only [h4, if_true]; rfl
  · simp only [h4, if_false]
    rw [slice_ok b 0 2 (by omega) (by omega), slice_ok b 2 4 (by omega) (by omega)]
    simp only [Res.ok_bind]
    generalize dec16 (List.drop 0 (List.take 2 b)) = t
    generalize dec16 (List.drop 2 (List.take 4 b)) = len
    by_cases hv : isVendor t = true
    · simp only [hv, if_true]
      by_cases h6 : b.length < 6
      · simp only [h6, if_true]; rfl
      · simp only [h6, if_false]
        by_cases h2 : len.toNat < 2
        · simp only [h2, if_true]; rfl
        · simp only [h2, if_false]
          rw [slice_ok b 4 6 (by omega) (by omega)]
          simp only [Res.ok_bind, Res.pure_eq]
          by_cases h7 : b.length ≤ 4 + 2
          · simp only [h7, if_true]; rfl
          · by_cases h8 : b.length < 4 + 2 + (len.toNat - 2)
            · simp only [h7, h8, if_true, if_false]; rfl
            · simp only [h7, h8, if_false]
              rw [slice_ok b _ _ (by omega) (by omega)]
              simp only [Res.ok_bind]
              by_cases hg : g t = true
              · simp only [hg, if_true]
                cases parseMulti g _ <;> rfl
              · simp only [hg]; rfl
    · simp only [hv, Bool.false_eq_true, if_false, Res.pure_eq, Res.ok_bind]
      by_cases h7 : b.length ≤ 4
      · simp only [h7, if_true]; rfl
      · by_cases h8 : b.length < 4 + len.toNat
        · simp only [h7, h8, if_true, if_false]; rfl
        · simp only [h7, h8, if_false]
          rw [slice_ok b _ _ (by omega) (by omega)]
          simp only [Res.ok_bind]
          by_cases hg : g t = true
          · simp only [hg, if_true]
            cases parseMulti g _ <;> rfl
          · simp only [hg]; rfl

/-- C75 elements, exact: a failed decode of fewer than four octets leaves the element; any other leaves the type and length of
the octets, the enterprise number if it got that far, and either the payload and children from before (the octets end inside
the element, or the length of a vendor specific one is too small) or the payload of the octets and no children (the octets
of a grouped element are all there, and its payload is damaged). -/
theorem C75_element_exact (old i : IE) (b : Bytes) (e : GoErr) (h : IE.unmarshalSt g b old = (.err e, i)) :
    (b.length < 4 ∧ i = old) ∨
    (4 ≤ b.length ∧ i.typ = dec16 (b.take 2) ∧ i.length = dec16 ((b.drop 2).take 2) ∧
      i.eid = (if isVendor i.typ = true ∧ 6 ≤ b.length ∧ 2 ≤ i.length.toNat then dec16 ((b.drop 4).take 2) else old.eid) ∧
      ((i.payload = old.payload ∧ i.children = old.children ∧
        ((isVendor i.typ = true ∧ b.length < 6 ∧ e = .unexpectedEOF) ∨
         (isVendor i.typ = true ∧ 6 ≤ b.length ∧ i.length.toNat < 2 ∧ e = .invalidLength) ∨
         (hdrLen i.typ < b.length ∧ b.length < 4 + i.length.toNat ∧ e = .unexpectedEOF))) ∨
       (4 + i.length.toNat ≤ b.length ∧ g i.typ = true ∧ i.children = [] ∧ parseMulti g i.payload = .err e ∧
        i.payload = (b.drop (hdrLen i.typ)).take (i.length.toNat + 4 - hdrLen i.typ)))) := by
  rw [IE.unmarshalSt_eq] at h
  split at h
  · rename_i h4
    left
    simp only [Prod.mk.injEq] at h
    exact ⟨h4, h.2.symm⟩
  · rename_i h4
    right
    have e1 : (b.take 2).drop 0 = b.take 2 := rfl
    have e2 : (b.take 4).drop 2 = (b.drop 2).take 2 := by rw [List.drop_take]
    have e3 : (b.take 6).drop 4 = (b.drop 4).take 2 := by rw [List.drop_take]
    rw [e1, e2, e3] at h
    generalize dec16 (List.take 2 b) = t at h ⊢
    generalize dec16 (List.take 2 (List.drop 2 b)) = len at h ⊢
    dsimp only at h
    refine ⟨by omega, ?_⟩
    by_cases hv : isVendor t = true
    · rw [if_pos hv] at h
      split at h
      · rename_i h6
        obtain ⟨h1, rfl⟩ := Prod.mk.injEq .. ▸ h
        cases h1
        exact ⟨rfl, rfl, by rw [if_neg]; omega, .inl ⟨rfl, rfl, .inl ⟨hv, h6, rfl⟩⟩⟩
      · split at h
        · rename_i h6 h2
          obtain ⟨h1, rfl⟩ := Prod.mk.injEq .. ▸ h
          cases h1
          exact ⟨rfl, rfl, by rw [if_neg]; rintro ⟨_, _, h⟩; exact absurd h (by show ¬ 2 ≤ len.toNat; omega),
            .inl ⟨rfl, rfl, .inr (.inl ⟨hv, by omega, h2, rfl⟩)⟩⟩
        · rename_i h6 h2
          unfold IE.unmarshalEnd at h
          have hh : isVendor t = true ∧ 6 ≤ b.length ∧ 2 ≤ len.toNat := ⟨hv, by omega, by omega⟩
          have hd : hdrLen t = 4 + 2 := by simp [hdrLen, hv]
          split at h
          · cases h
          · rename_i h7
            split at h
            · rename_i h8
              obtain ⟨h1, rfl⟩ := Prod.mk.injEq .. ▸ h
              cases h1
              exact ⟨rfl, rfl, (if_pos hh).symm, .inl ⟨rfl, rfl, .inr (.inr
                ⟨by show hdrLen t < _; omega, by show _ < 4 + len.toNat; omega, rfl⟩)⟩⟩
            · rename_i h8
              split at h
              · rename_i hg
                split at h
                · cases h
                · rename_i x hx
                  obtain ⟨h1, rfl⟩ := Prod.mk.injEq .. ▸ h
                  cases h1
                  refine ⟨rfl, rfl, (if_pos hh).symm, .inr ⟨by show 4 + len.toNat ≤ _; omega, hg, rfl, hx, ?_⟩⟩
                  show _ = (b.drop (hdrLen t)).take (len.toNat + 4 - hdrLen t)
                  simp only [hdrLen, hv, if_true]
                  rw [List.drop_take]
                  congr 1
                  omega
                · cases h
              · cases h
    · rw [if_neg hv] at h
      have hh : ¬ (isVendor t = true ∧ 6 ≤ b.length ∧ 2 ≤ len.toNat) := fun h => hv h.1
      unfold IE.unmarshalEnd at h
      have hd : hdrLen t = 4 := by simp [hdrLen, hv]
      split at h
      · cases h
      · rename_i h7
        split at h
        · rename_i h8
          obtain ⟨h1, rfl⟩ := Prod.mk.injEq .. ▸ h
          cases h1
          exact ⟨rfl, rfl, (if_neg hh).symm, .inl ⟨rfl, rfl, .inr (.inr
            ⟨by show hdrLen t < _; omega, by show _ < 4 + len.toNat; omega, rfl⟩)⟩⟩
        · rename_i h8
          split at h
          · rename_i hg
            split at h
            · cases h
            · rename_i x hx
              obtain ⟨h1, rfl⟩ := Prod.mk.injEq .. ▸ h
              cases h1
              refine ⟨rfl, rfl, (if_neg hh).symm, .inr ⟨by show 4 + len.toNat ≤ _; omega, hg, rfl, hx, ?_⟩⟩
              show _ = (b.drop (hdrLen t)).take (len.toNat + 4 - hdrLen t)
              simp only [hdrLen, hv, Bool.false_eq_true, if_false]
              rw [List.drop_take]
              congr 1
              omega
            · cases h
          · cases h

/-- C75 is false for elements: a Cause into which five octets of a longer Source Interface were decoded is a Source Interface
whose length field announces nine octets and whose value is that of the Cause; its encoding is refused by the decoder. -/
theorem C75_element_violated :
    let g : IEType → Bool := fun _ => false
    ∃ (old i : IE) (w : Bytes), parse g [0, 19, 0, 1, 1] = .ok old ∧
      IE.unmarshalSt g [0, 20, 0, 9, 7] old = (.err .unexpectedEOF, i) ∧ i ≠ old ∧
      i.marshal g = .ok w ∧ parse g w = .err .unexpectedEOF := by
  refine ⟨⟨19, 1, 0, [1], []⟩, ⟨20, 9, 0, [1], []⟩, [0, 20, 0, 9, 1], ?_, ?_, ?_, ?_, ?_⟩ <;> decide +kernel

/-- C75 is false for grouped elements: the children are gone. -/
theorem C75_group_violated :
    let g : IEType → Bool := fun t => t == 2
    ∃ (old i : IE), parse g [0, 2, 0, 5, 0, 20, 0, 1, 3] = .ok old ∧ old.children ≠ [] ∧
      IE.unmarshalSt g [0, 2, 0, 1, 9] old = (.err .unexpectedEOF, i) ∧ i.children = [] := by
  refine ⟨⟨2, 5, 0, [0, 20, 0, 1, 3], [⟨20, 1, 0, [3], []⟩]⟩, ⟨2, 1, 0, [9], []⟩, ?_, ?_, ?_, rfl⟩ <;> decide +kernel

/-! ### Headers -/

/-- C75 the assignments into a new header are those of `ParseHeader`. -/
theorem C75_header_outcome (b : Bytes) : St.outcome (Header.unmarshalSt b ⟨0, 0, 0, 0, 0, 0, []⟩) = Header.parse b := by
  have idx : ∀ n, n < b.length → index b n = .ok ((b.drop n).headD 0) := by
    intro n hn
    unfold index
    rw [List.headD_eq_head?_getD, List.head?_drop, List.getElem?_eq_getElem hn]
    rfl
  have tail : ∀ (off : Nat) (n : UInt16) (f : Bytes → Header), off + 4 ≤ b.length →
      (if n.toNat + (off + 4) ≠ b.length then (do
          let x ← slice b (off + 4) b.length
          pure (f x) : Res Header)
        else if b.length < off + 4 + n.toNat then .err .unexpectedEOF
        else do
          let x ← slice b (off + 4) (off + 4 + n.toNat)
          pure (f x)) = .ok (f (b.drop (off + 4))) := by
    intro off n f ho
    by_cases hn : n.toNat + (off + 4) ≠ b.length
    · rw [if_pos hn, slice_ok b _ _ (by omega) (by omega), List.take_length]
      rfl
    · rw [if_neg hn, if_neg (by omega), slice_ok b _ _ (by omega) (by omega), List.take_of_length_le (by omega)]
      rfl
  rw [Header.unmarshalSt_eq]
  unfold Header.unmarshalEnd Header.parse
  by_cases h8 : b.length < 8
  · simp only [h8, if_true]; rfl
  · simp only [h8, if_false]
    rw [idx 0 (by omega), idx 1 (by omega), slice_ok b 2 4 (by omega) (by omega)]
    simp only [Res.ok_bind, List.drop_zero]
    by_cases hs : has1stBit (b.headD 0) = true
    · simp only [hs, if_true]
      by_cases h12 : b.length < 12
      · simp only [h12, if_true]; rfl
      · simp only [h12, if_false]
        rw [slice_ok b 4 (4 + 8) (by omega) (by omega)]
        simp only [Res.ok_bind, Res.pure_eq]
        by_cases h16 : b.length < 16
        · simp only [if_pos (show b.length < 4 + 8 + 4 by omega)]; rfl
        · simp only [if_neg (show ¬ b.length < 4 + 8 + 4 by omega)]
          rw [slice_ok b _ _ (by omega) (by omega), idx _ (by omega)]
          simp only [Res.ok_bind]
          exact (tail (4 + 8) (dec16 ((b.take 4).drop 2)) (fun x => ⟨_, _, _, _, _, _, x⟩) (by omega)).symm
    · simp only [hs, Bool.false_eq_true, if_false, Res.pure_eq, Res.ok_bind]
      simp only [if_neg (show ¬ b.length < 4 + 4 by omega)]
      rw [slice_ok b _ _ (by omega) (by omega), idx _ (by omega)]
      simp only [Res.ok_bind]
      exact (tail 4 (dec16 ((b.take 4).drop 2)) (fun x => ⟨_, _, _, _, _, _, x⟩) (by omega)).symm

/-- C75 headers, exact: a decode fails only for want of octets; with fewer than eight the header is left, otherwise it has the
flags, type and length of the octets, the session identifier if there are enough octets for it, and the rest from before. -/
theorem C75_header_exact (old h : Header) (b : Bytes) (e : GoErr) (hf : Header.unmarshalSt b old = (.err e, h)) :
    e = .unexpectedEOF ∧
    ((b.length < 8 ∧ h = old) ∨
     (8 ≤ b.length ∧ b.length < 16 ∧ (∃ f, b[0]? = some f ∧ has1stBit f = true ∧ h.flags = f) ∧ b[1]? = some h.typ ∧
      h.length = dec16 ((b.drop 2).take 2) ∧
      h.seid = (if b.length < 12 then old.seid else dec64 ((b.drop 4).take 8)) ∧
      h.seq = old.seq ∧ h.pri = old.pri ∧ h.payload = old.payload)) := by
  rw [Header.unmarshalSt_eq] at hf
  unfold Header.unmarshalEnd at hf
  by_cases h8 : b.length < 8
  · rw [if_pos h8] at hf
    cases hf
    exact ⟨rfl, .inl ⟨h8, rfl⟩⟩
  · rw [if_neg h8] at hf
    dsimp only at hf
    have hl : 8 ≤ b.length := by omega
    have e0 : b[0]? = some (b.headD 0) := by
      cases b with
      | nil => simp at hl
      | cons x xs => rfl
    have e1 : b[1]? = some ((b.drop 1).headD 0) := by
      rw [List.headD_eq_head?_getD, List.head?_drop, List.getElem?_eq_getElem (by omega)]
      rfl
    have e2 : (b.take 4).drop 2 = (b.drop 2).take 2 := by rw [List.drop_take]
    have e3 : (b.take 12).drop 4 = (b.drop 4).take 8 := by rw [List.drop_take]
    rw [e2, e3] at hf
    by_cases hs : has1stBit (b.headD 0) = true
    · rw [if_pos hs] at hf
      by_cases h12 : b.length < 12
      · rw [if_pos h12] at hf
        cases hf
        exact ⟨rfl, .inr ⟨hl, by omega, ⟨_, e0, hs, rfl⟩, e1, rfl, (if_pos h12).symm, rfl, rfl, rfl⟩⟩
      · rw [if_neg h12] at hf
        split at hf
        · cases hf
          exact ⟨rfl, .inr ⟨hl, by omega, ⟨_, e0, hs, rfl⟩, e1, rfl, (if_neg h12).symm, rfl, rfl, rfl⟩⟩
        · cases hf
    · rw [if_neg hs, if_neg (by omega)] at hf
      cases hf

/-- C75 a decode into a used header gives what `ParseHeader` gives, except that without the S flag the session identifier
stays as it was. -/
theorem C75_header_used (old : Header) (b : Bytes) :
    St.outcome (Header.unmarshalSt b old) = Header.parse b >>= fun h =>
      .ok (if has1stBit h.flags then h else { h with seid := old.seid }) := by
  rw [← C75_header_outcome, Header.unmarshalSt_eq, Header.unmarshalSt_eq]
  unfold Header.unmarshalEnd
  by_cases h8 : b.length < 8
  · simp only [h8, if_true]; rfl
  · simp only [h8, if_false]
    by_cases hs : has1stBit (b.headD 0) = true
    · simp only [hs, if_true]
      by_cases h12 : b.length < 12
      · simp only [h12, if_true]; rfl
      · simp only [h12, if_false]
        by_cases h16 : b.length < 12 + 4
        · simp only [h16, if_true]; rfl
        · simp only [h16, if_false, St.outcome, Res.ok_bind, hs, if_true]
    · simp only [hs, Bool.false_eq_true, if_false]
      simp only [St.outcome, Res.ok_bind, hs, Bool.false_eq_true, if_false]

/-- C75 is false for headers: a header into which too few octets were decoded has their type, flags and length. -/
theorem C75_header_violated : ∃ (old h : Header), old = Header.new 1 0 0 0 1 0 7 0 [] ∧
    Header.unmarshalSt [0x21, 54, 0, 12, 0, 0, 0, 0, 0] old = (.err .unexpectedEOF, h) ∧
    h.typ ≠ old.typ ∧ h.hasSEID ≠ old.hasSEID ∧ h.length ≠ old.length :=
  ⟨_, ⟨0x21, 54, 12, 0, 7, 0, []⟩, rfl, by decide +kernel, by decide +kernel, by decide +kernel, by decide +kernel⟩

/-! ### Messages -/

namespace MsgP

/-- C75 the assignments are those of the decode into a used message. -/
theorem C75_message_outcome (m : Msg) (b : Bytes) :
    St.outcome (unmarshalSt g b m.ptr) = Msg.unmarshal g m b >>= fun m' => .ok m'.ptr := by
  obtain ⟨k, hd, fs, ies⟩ := m
  unfold unmarshalSt Msg.unmarshal Msg.ptr
  cases Header.parse b with
  | err e => rfl
  | panic => rfl
  | ok h =>
    simp only [Res.ok_bind, St.bind_assign]
    by_cases hl : h.payload.length < 2
    · simp only [hl, if_true]; rfl
    · simp only [hl, if_false, St.bind_read]
      cases parseMulti g h.payload with
      | err e => cases k <;> rfl
      | panic => cases k <;> rfl
      | ok xs =>
        cases k <;> first
          | rfl
          | (simp only [Res.ok_bind]
             cases Msg.fileAll _ _ xs <;> rfl)

/-- C75 a decode into a message never panics, whatever the message has been through. -/
theorem C75_total (m : MsgP) (hm : m.fields.map (fun p => (p.1, p.2.card)) = m.kind.tab.fields) (b : Bytes) :
    (unmarshalSt g b m).1 ≠ .panic := by
  rw [unmarshalSt_eq]
  cases hp : Header.parse b with
  | err e => simp
  | panic => exact absurd hp (Header.C15_header_total_lossless b).1
  | ok h =>
    dsimp only
    split
    · simp
    · cases hq : parseMulti g h.payload with
      | err e => simp
      | panic => exact absurd hq ((Pfcp.parse_sound g _).2 h.payload (Nat.le_refl _)).1
      | ok xs =>
        dsimp only
        split
        · simp
        · rw [Msg.fileAll_eq _ _ ?_]
          · simp
          · intro c hc
            have h1 : c.2 ∈ m.kind.tab.parseSwitch.map (·.2) := List.mem_map.2 ⟨c, hc, rfl⟩
            rw [Kind.switch_names, ← hm] at h1
            simpa using h1

/-- C75 messages, exact: a failed decode leaves every field and the kind. Either the header is damaged, and then the message
has none; or the elements are, and then it has the header of the octets. `IEs` stays, except that a message of unknown type
loses it in the second case. -/
theorem C75_message_exact (m r : MsgP) (b : Bytes) (e : GoErr) (h : unmarshalSt g b m = (.err e, r)) :
    r.kind = m.kind ∧ r.fields = m.fields ∧
    ((Header.parse b = .err e ∧ r.header = none ∧ r.ies = m.ies) ∨
     ∃ hd, Header.parse b = .ok hd ∧ 2 ≤ hd.payload.length ∧ parseMulti g hd.payload = .err e ∧ r.header = some hd ∧
      r.ies = if m.kind = .generic then [] else m.ies) := by
  rw [unmarshalSt_eq] at h
  cases hp : Header.parse b with
  | err e' =>
    rw [hp] at h
    cases h
    exact ⟨rfl, rfl, .inl ⟨rfl, rfl, rfl⟩⟩
  | panic => rw [hp] at h; cases h
  | ok hd =>
    rw [hp] at h
    dsimp only at h
    split at h
    · cases h
    · rename_i hl
      split at h
      · rename_i x hx
        cases h
        exact ⟨rfl, rfl, .inr ⟨hd, rfl, by omega, hx, rfl, rfl⟩⟩
      · cases h
      · split at h
        · cases h
        · split at h
          · cases h
          · rename_i x hx
            exact absurd hx (file_no_err _ _ _ _)
          · cases h

/-- C75 when the header is lost: if there are fewer than eight octets, or fewer than sixteen and the S flag. -/
theorem C75_headerless (m r : MsgP) (b : Bytes) (e : GoErr) (h : unmarshalSt g b m = (.err e, r)) :
    r.header = none ↔ b.length < 8 ∨ ∃ f, b[0]? = some f ∧ has1stBit f = true ∧ b.length < 16 := by
  have hi := C75_message_exact g m r b e h
  have key : (∃ x, Header.parse b = .err x) ↔ b.length < 8 ∨ ∃ f, b[0]? = some f ∧ has1stBit f = true ∧ b.length < 16 := by
    rw [Header.parse_eq]
    match b with
    | [] => simp
    | [_] => simp
    | [_, _] => simp
    | [_, _, _] => simp
    | f :: t :: b2 :: b3 :: rest =>
      simp only [List.length_cons, List.getElem?_cons_zero, Option.some.injEq, exists_eq_left']
      by_cases hs : has1stBit f = true
      · simp only [hs, if_true, true_and]
        by_cases hr : rest.length < 12
        · simp only [hr, if_true, Res.err.injEq, exists_eq', true_iff]; omega
        · simp only [hr, if_false, reduceCtorEq, exists_false, false_iff]; omega
      · simp only [hs, if_false, Bool.false_eq_true, false_and, or_false]
        by_cases hr : rest.length < 4
        · simp only [hr, if_true, Res.err.injEq, exists_eq', true_iff]; omega
        · simp only [hr, if_false, reduceCtorEq, exists_false, false_iff]; omega
  rw [← key]
  obtain ⟨_, _, ⟨h1, h2, _⟩ | ⟨hd, h1, _, _, h2, _⟩⟩ := hi
  · exact ⟨fun _ => ⟨_, h1⟩, fun _ => h2⟩
  · refine ⟨fun h => ?_, fun ⟨x, h⟩ => ?_⟩
    · rw [h2] at h; cases h
    · rw [h1] at h; cases h

/-- C75 is false for messages: whatever the message was, after a datagram of fewer than eight octets it cannot be encoded or
read any more; every attempt panics. -/
theorem C75_unusable_violated (m : MsgP) (b : Bytes) (hb : b.length < 8) :
    ∃ r, unmarshalSt g b m = (.err .unexpectedEOF, r) ∧ r.marshal g = .panic ∧ r.marshalLen g = .panic ∧
      (∀ s, r.marshalTo g s = .panic) ∧ r.seid = .panic ∧ r.sequence = .panic ∧ r.messageType = .panic := by
  have hp : Header.parse b = .err .unexpectedEOF := by
    rw [← C75_header_outcome, Header.unmarshalSt_eq, if_pos hb]
    rfl
  refine ⟨{ m with header := none }, ?_, rfl, rfl, fun _ => rfl, rfl, rfl, rfl⟩
  rw [unmarshalSt_eq, hp]

/-- C75 a Heartbeat Request that has been given a damaged Association Setup Request is encoded as an Association Setup Request
with the elements of the Heartbeat Request. -/
theorem C75_mixed_violated :
    let g : IEType → Bool := fun _ => false
    ∃ (m : Msg) (r : MsgP) (w : Bytes), Msg.parse g [0x20, 1, 0, 12, 0, 0, 1, 0, 0, 96, 0, 4, 1, 2, 3, 4] = .ok m ∧
      m.kind = .heartbeatRequest ∧ unmarshalSt g [0x20, 5, 0, 6, 0, 0, 2, 0, 0, 60] m.ptr = (.err .unexpectedEOF, r) ∧
      r.marshal g = .ok w ∧ w = [0x20, 5, 0, 12, 0, 0, 2, 0, 0, 96, 0, 4, 1, 2, 3, 4] := by
  refine ⟨⟨.heartbeatRequest, ⟨0x20, 1, 12, 0, 1, 0, [0, 96, 0, 4, 1, 2, 3, 4]⟩,
      [(.RecoveryTimeStamp, .one (some ⟨96, 4, 0, [1, 2, 3, 4], []⟩)), (.SourceIPAddress, .one none)], []⟩,
    ⟨.heartbeatRequest, some ⟨0x20, 5, 6, 0, 2, 0, [0, 60]⟩,
      [(.RecoveryTimeStamp, .one (some ⟨96, 4, 0, [1, 2, 3, 4], []⟩)), (.SourceIPAddress, .one none)], []⟩,
    _, ?_, rfl, ?_, ?_, rfl⟩ <;> decide +kernel

/-- C75 a failed decode does not show in the next one: for every kind of message but the unknown ones, decoding the next
datagram gives the same outcome and the same message as if the failed decode had not been tried. -/
theorem C75_retry (m r : MsgP) (b b' : Bytes) (e : GoErr) (hk : m.kind ≠ .generic)
    (h : unmarshalSt g b m = (.err e, r)) : unmarshalSt g b' r = unmarshalSt g b' m := by
  have hp : Header.parse b' ≠ .panic := by
    rw [Header.parse_eq]
    split
    · split <;> split <;> simp
    · simp
  obtain ⟨h1, h2, h3⟩ := C75_message_exact g m r b e h
  have hi : r.ies = m.ies := by
    rcases h3 with ⟨_, _, h⟩ | ⟨_, _, _, _, _, h⟩
    · exact h
    · rw [h, if_neg hk]
  obtain ⟨k, hd, fs, ies⟩ := r
  dsimp only at h1 h2 hi
  subst h1 h2 hi
  exact header_irrelevant g m b' hd hp

/-- C75 for messages of unknown type: the same outcome, and the same message unless the next datagram has no elements. -/
theorem C75_retry_generic (m r : MsgP) (b b' : Bytes) (e : GoErr) (hk : m.kind = .generic)
    (h : unmarshalSt g b m = (.err e, r)) :
    (unmarshalSt g b' r).1 = (unmarshalSt g b' m).1 ∧
    ∀ hd, Header.parse b' = .ok hd → 2 ≤ hd.payload.length →
      unmarshalSt g b' r = unmarshalSt g b' m := by
  obtain ⟨h1, h2, _⟩ := C75_message_exact g m r b e h
  obtain ⟨k, hd, fs, ies⟩ := r
  obtain ⟨k', hd', fs', ies'⟩ := m
  dsimp only at h1 h2 hk
  subst h1 h2 hk
  rw [unmarshalSt_eq, unmarshalSt_eq]
  constructor
  · cases Header.parse b' with
    | err e => rfl
    | panic => rfl
    | ok h =>
      dsimp only
      split
      · rfl
      · cases parseMulti g h.payload <;> rfl
  · intro x hx hl
    rw [hx]
    dsimp only
    simp only [if_neg (show ¬ x.payload.length < 2 by omega)]
    cases hq : parseMulti g x.payload with
    | panic => exact absurd hq ((Pfcp.parse_sound g _).2 x.payload (Nat.le_refl _)).1
    | ok xs => rfl
    | err e => rfl

/-- The failed decode shows in a message of unknown type when the next datagram has no elements. -/
theorem C75_retry_generic_violated :
    let g : IEType → Bool := fun _ => false
    ∃ (m : Msg) (r : MsgP), Msg.parse g [0x20, 99, 0, 9, 0, 0, 1, 0, 0, 19, 0, 1, 1] = .ok m ∧ m.kind = .generic ∧
      unmarshalSt g [0x20, 99, 0, 6, 0, 0, 2, 0, 0, 60] m.ptr = (.err .unexpectedEOF, r) ∧
      unmarshalSt g [0x20, 99, 0, 4, 0, 0, 3, 0] r ≠ unmarshalSt g [0x20, 99, 0, 4, 0, 0, 3, 0] m.ptr := by
  refine ⟨⟨.generic, ⟨0x20, 99, 9, 0, 1, 0, [0, 19, 0, 1, 1]⟩, [], [some ⟨19, 1, 0, [1], []⟩]⟩,
    ⟨.generic, some ⟨0x20, 99, 6, 0, 2, 0, [0, 60]⟩, [], []⟩, ?_, rfl, ?_, ?_⟩ <;> decide +kernel

/-! ### The hypotheses can be met -/

example : IE.unmarshalSt (fun _ => false) [0, 20, 0, 9, 7] ⟨19, 1, 0, [1], []⟩ =
    (.err .unexpectedEOF, ⟨20, 9, 0, [1], []⟩) := by decide +kernel
example : Header.unmarshalSt [0x21, 54, 0, 12, 0, 0, 0, 0, 0] ⟨0x20, 1, 4, 0, 7, 0, []⟩ =
    (.err .unexpectedEOF, ⟨0x21, 54, 12, 0, 7, 0, []⟩) := by decide +kernel
example : ∃ (m r : MsgP) (b : Bytes) (e : GoErr), m.kind ≠ .generic ∧ unmarshalSt (fun _ => false) b m = (.err e, r) ∧ r ≠ m :=
  ⟨(Msg.zero .heartbeatRequest).ptr, { (Msg.zero .heartbeatRequest).ptr with header := none }, [1], .unexpectedEOF,
    by decide, by decide +kernel, by decide +kernel⟩
example : ∃ (m r : MsgP) (b : Bytes) (e : GoErr), m.kind = .generic ∧ unmarshalSt (fun _ => false) b m = (.err e, r) :=
  ⟨(Msg.zero .generic).ptr, { (Msg.zero .generic).ptr with header := none }, [1], .unexpectedEOF, rfl, by decide +kernel⟩
example (k : Kind) : (Msg.zero k).ptr.fields.map (fun p => (p.1, p.2.card)) = (Msg.zero k).ptr.kind.tab.fields :=
  Msg.zero_typed k

end MsgP

end Pfcp
