/- C72: `MarshalTo` of headers and messages into the caller's buffer. -/
import Verif.Message.Buffer
import Verif.Message.Props

namespace Pfcp

/-- C72, exact for headers (/repo/message/header.go:75-91). The call never returns an error. It panics if
the slice does not hold the fixed part or the backing array does not hold everything; in all other cases
the encoding is in memory from the beginning of the buffer on, the rest of memory is as it was, and the
call reports success — also if the slice is too short, with the rest written behind it. -/
theorem C72_header_exact (h : Header) (buf : Slice) :
    ∃ e, h.marshal = .ok e ∧ e.length = h.marshalLen ∧
      (h.marshalTo buf = .panic ↔
        buf.len < h.marshalLen - h.payload.length ∨ buf.cap < h.marshalLen) ∧
      (∀ x, h.marshalTo buf ≠ .err x) ∧
      ∀ r, h.marshalTo buf = .ok r → r.len = buf.len ∧ r.cap = buf.cap ∧
        r.data ++ r.spare = e ++ (buf.data ++ buf.spare).drop e.length := by
  have hl := Header.enc_length h
  have hm := Header.marshalLen_eq h
  refine ⟨h.enc, Header.marshal_eq h, hm.symm, ?_⟩
  rw [Header.marshalTo_total, hm, hl, show Header.fixedLen h.flags + h.payload.length - h.payload.length
    = Header.fixedLen h.flags by omega, ← hl]
  unfold Slice.len
  split
  · rename_i c
    exact ⟨⟨fun _ => c, fun _ => rfl⟩, by intro x; simp, by intro r h; cases h⟩
  · rename_i c
    refine ⟨⟨(fun h => by cases h), fun h => absurd h c⟩, by intro x; simp, ?_⟩
    intro r hr
    cases hr
    have hb : 0 + h.enc.length ≤ buf.cap := by omega
    refine ⟨W.overwrite_dataLen buf 0 _ hb, W.overwrite_cap buf 0 _ hb, ?_⟩
    have := W.overwrite_all buf 0 h.enc
    simpa using this

example : ∃ r, Header.marshalTo ⟨0x20, 1, 4, 0, 5, 0, [7, 8]⟩ ⟨List.replicate 9 0, [1, 1]⟩ = .ok r ∧
    r = ⟨[0x20, 1, 0, 4, 0, 0, 5, 0, 7], [8, 1]⟩ := ⟨_, rfl, by decide⟩

/-- C72, a header in a buffer that holds it: the encoding, and nothing else changed. -/
theorem C72_header_fits (h : Header) (buf : Slice) (hb : h.marshalLen ≤ buf.len) :
    ∃ e, h.marshal = .ok e ∧ e.length = h.marshalLen ∧
      h.marshalTo buf = .ok ⟨e ++ buf.data.drop e.length, buf.spare⟩ := by
  have hm := Header.marshalLen_eq h
  exact ⟨h.enc, Header.marshal_eq h, hm.symm, Header.marshalTo_eq h buf (by rw [← hm]; exact hb)⟩

namespace Msg

variable (g : IEType → Bool)

/-- The size of the header alone: eight octets, sixteen with a session. -/
def headerLen (m : Msg) : Nat := m.header.marshalLen - m.header.payload.length

theorem headerLen_eq (m : Msg) : m.headerLen = Header.fixedLen m.header.flags := by
  unfold headerLen
  rw [Header.marshalLen_eq, Header.enc_length]; omega

/-- C72, exact for messages of all kinds: as for headers, a slice that holds no more than the header is
enough if there is capacity behind it. -/
theorem C72_message_exact (m : Msg) (hs : m.Shaped) (hn : m.NoNil) (buf : Slice) :
    ∃ e n, marshal g m = .ok e ∧ marshalLen g m = .ok n ∧ e.length = n ∧
      (marshalTo g m buf = .panic ↔ buf.len < m.headerLen ∨ buf.cap < n) ∧
      (∀ x, marshalTo g m buf ≠ .err x) ∧
      ∀ m' r, marshalTo g m buf = .ok (m', r) → r.len = buf.len ∧ r.cap = buf.cap ∧
        r.data ++ r.spare = e ++ (buf.data ++ buf.spare).drop e.length := by
  refine ⟨m.wire g, _, marshal_ok g m hs hn, marshalLen_ok g m hs hn, wire_length g m, ?_⟩
  rw [marshalTo_total g m hs hn, headerLen_eq, ← wire_length g m]
  unfold Slice.len
  split
  · rename_i c
    exact ⟨⟨fun _ => c, fun _ => rfl⟩, by intro x; simp, by intro m' r h; cases h⟩
  · rename_i c
    refine ⟨⟨(fun h => by cases h), fun h => absurd h c⟩, by intro x; simp, ?_⟩
    intro m' r hr
    cases hr
    have hb : 0 + (m.wire g).length ≤ buf.cap := by omega
    refine ⟨W.overwrite_dataLen buf 0 _ hb, W.overwrite_cap buf 0 _ hb, ?_⟩
    have := W.overwrite_all buf 0 (m.wire g)
    simpa using this

/-- C72, a message in a buffer that holds it. -/
theorem C72_message_fits (m : Msg) (hs : m.Shaped) (hn : m.NoNil) (buf : Slice) (n : Nat)
    (hl : marshalLen g m = .ok n) (hb : n ≤ buf.len) :
    ∃ e m', marshal g m = .ok e ∧ e.length = n ∧
      marshalTo g m buf = .ok (m', ⟨e ++ buf.data.drop e.length, buf.spare⟩) := by
  rw [marshalLen_ok g m hs hn] at hl
  cases hl
  exact ⟨m.wire g, _, marshal_ok g m hs hn, wire_length g m,
    marshalTo_ok g m hs hn buf (by rw [wire_length]; exact hb)⟩

/-- Not C72: for every message that carries anything at all there is a buffer that is too short for it
where `MarshalTo` reports success having changed memory behind the slice, -/
theorem C72_overrun_violated (m : Msg) (hs : m.Shaped) (hn : m.NoNil) (n : Nat)
    (hl : marshalLen g m = .ok n) (hb : m.headerLen < n) :
    ∃ buf m' r, buf.len < n ∧ marshalTo g m buf = .ok (m', r) ∧ r.spare ≠ buf.spare := by
  rw [marshalLen_ok g m hs hn, ← wire_length] at hl
  cases hl
  rw [headerLen_eq] at hb
  have hw := wire_length g m
  refine ⟨⟨List.replicate (Header.fixedLen m.header.flags) 0, (m.body g).map (· + 1)⟩,
    { m with header := m.wireHeader g },
    Slice.overwrite ⟨List.replicate (Header.fixedLen m.header.flags) 0, (m.body g).map (· + 1)⟩ 0 (m.wire g),
    ?_, ?_, ?_⟩
  · simpa [Slice.len] using hb
  · rw [marshalTo_total g m hs hn, if_neg (by simp [Slice.cap, hw])]
  · have e : m.wire g = (m.wireHeader g).fixedPart ++ m.body g := rfl
    have hf : (m.wireHeader g).fixedPart.length = Header.fixedLen m.header.flags :=
      Header.fixedPart_length (m.wireHeader g)
    unfold Slice.overwrite
    simp only [List.take_zero, List.nil_append, Nat.zero_add, List.length_replicate]
    have hz : List.drop (m.wire g).length
        (List.replicate (Header.fixedLen m.header.flags) 0 ++ (m.body g).map (· + 1)) = [] :=
      List.drop_of_length_le (by simp [hw])
    rw [hz, List.append_nil, e, List.drop_left' hf]
    intro h
    have hne : m.body g ≠ [] := by
      intro h0; rw [h0] at hw; simp at hw; omega
    cases hbd : m.body g with
    | nil => exact hne hbd
    | cons x xs =>
      rw [hbd] at h
      simp only [List.map_cons, List.cons.injEq] at h
      have h1 := congrArg UInt8.toNat h.1
      rw [UInt8.toNat_add] at h1
      have := x.toNat_lt
      have h2 : (1 : UInt8).toNat = 1 := rfl
      omega

/-- and every message crashes on a buffer without that room. -/
theorem C72_crash_violated (m : Msg) (hs : m.Shaped) (hn : m.NoNil) (n : Nat)
    (hl : marshalLen g m = .ok n) (buf : Slice) (hb : buf.cap < n) : marshalTo g m buf = .panic := by
  obtain ⟨e, n', _, h2, _, h4, _⟩ := C72_message_exact g m hs hn buf
  rw [hl] at h2
  cases h2
  exact h4.2 (.inr hb)

/-- A heartbeat request written into eight octets of a longer buffer. -/
example : ∃ m', marshalTo (fun _ => false)
      (filed .heartbeatRequest ⟨0x20, 1, 0, 0, 9, 0, []⟩ [IE.mk 96 4 0 [1, 2, 3, 4] []])
      ⟨List.replicate 8 0, List.replicate 9 0xff⟩
    = .ok (m', ⟨[0x20, 1, 0, 12, 0, 0, 9, 0], [0, 96, 0, 4, 1, 2, 3, 4, 0xff]⟩) := ⟨_, rfl⟩

end Msg
end Pfcp
