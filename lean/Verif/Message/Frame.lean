/-
C82: an edit of a message changes only its own octets of the encoding.
-/
import Verif.Message.Props
import Verif.Message.HeaderExact

namespace Pfcp
namespace Msg

variable (g : IEType → Bool)

/-- Where the sequence number begins: behind flags, type, length and, if there is one, the session id (TS 29.244 7.2.2). -/
def seqAt (f : UInt8) : Nat := if f.toNat.testBit 0 then 12 else 4

theorem bit0 (f : UInt8) : has1stBit f = f.toNat.testBit 0 := (Header.bits f).1

theorem wire_eq (m : Msg) : m.wire g = [m.header.flags, m.header.typ] ++
    be16 (UInt16.ofNat (Header.fixedLen m.header.flags + (m.body g).length - 4)) ++
    (if has1stBit m.header.flags then be64 m.header.seid else []) ++ beBytes 3 m.header.seq.toNat ++ [m.header.pri] ++ m.body g := rfl

theorem body_header (m : Msg) (h : Header) : ({ m with header := h } : Msg).body g = m.body g := rfl

/-- C82 sequence number: `SetSequenceNumber` replaces the three octets of the sequence number by the lower 24 bits of its
argument. -/
theorem C82_sequence (m : Msg) (hs : m.Shaped) (hn : m.NoNil) (b : Bytes) (hb : marshal g m = .ok b) (n : UInt32) :
    marshal g { m with header := m.header.setSequenceNumber n } =
      .ok (b.take (seqAt m.header.flags) ++ beBytes 3 n.toNat ++ b.drop (seqAt m.header.flags + 3)) := by
  rw [marshal_ok g m hs hn] at hb
  cases hb
  rw [marshal_ok g _ (by exact hs) (by exact hn), wire_eq, wire_eq, body_header]
  unfold seqAt Header.setSequenceNumber
  rw [← bit0]
  congr 1
  cases h1 : has1stBit m.header.flags <;>
    simp [List.take_append, List.drop_append, List.take_of_length_le, List.drop_of_length_le, be16, be64]

/-- C82 session id: on a message with a session id `SetSEID` replaces its eight octets. -/
theorem C82_seid (m : Msg) (hs : m.Shaped) (hn : m.NoNil) (b : Bytes) (hb : marshal g m = .ok b) (s : UInt64)
    (hS : m.header.flags.toNat.testBit 0 = true) :
    marshal g { m with header := m.header.setSEID s } = .ok (b.take 4 ++ be64 s ++ b.drop 12) := by
  rw [marshal_ok g m hs hn] at hb
  cases hb
  rw [marshal_ok g _ (by exact hs) (by exact hn), wire_eq, wire_eq, body_header]
  have hf : m.header.flags ||| 1 = m.header.flags := by
    have key : ∀ f : UInt8, f.toNat.testBit 0 = true → f ||| 1 = f := by apply forall_byte; decide +kernel
    exact key _ hS
  unfold Header.setSEID
  dsimp only
  rw [hf]
  rw [← bit0] at hS
  congr 1
  simp [List.drop_append, be16, be64, hS]

/-- C82 session id: on a message without one, `SetSEID` sets the flag, inserts the eight octets and counts them. -/
theorem C82_seid_new (m : Msg) (hs : m.Shaped) (hn : m.NoNil) (b : Bytes) (hb : marshal g m = .ok b) (s : UInt64)
    (hS : m.header.flags.toNat.testBit 0 = false) :
    marshal g { m with header := m.header.setSEID s } =
      .ok ([m.header.flags ||| 1] ++ (b.take 2).drop 1 ++ be16 (UInt16.ofNat (b.length + 4)) ++ be64 s ++ b.drop 4) := by
  rw [marshal_ok g m hs hn] at hb
  cases hb
  rw [marshal_ok g _ (by exact hs) (by exact hn), wire_length, wire_eq, wire_eq, body_header]
  have hf : has1stBit (m.header.flags ||| 1) = true := by
    have key : ∀ f : UInt8, has1stBit (f ||| 1) = true := by apply forall_byte; decide +kernel
    exact key _
  unfold Header.setSEID
  dsimp only
  rw [← bit0] at hS
  unfold Header.fixedLen
  rw [hf, hS]
  congr 1
  simp [List.take_append, be16, be64]
  congr 2
  omega

/-- C82 priority: `SetMP` changes the flags octet and the last octet of the header. -/
theorem C82_priority (m : Msg) (hs : m.Shaped) (hn : m.NoNil) (b : Bytes) (hb : marshal g m = .ok b) (p : UInt8) :
    marshal g { m with header := m.header.setMP p } =
      .ok ([UInt8.ofNat (m.header.flags.toNat ||| 4)] ++ (b.take (seqAt m.header.flags + 3)).drop 1 ++
        [UInt8.ofNat (p.toNat % 16 * 16)] ++ b.drop (seqAt m.header.flags + 4)) := by
  rw [marshal_ok g m hs hn] at hb
  cases hb
  rw [marshal_ok g _ (by exact hs) (by exact hn), wire_eq, wire_eq, body_header, Header.C16_setMP_exact]
  have hf : has1stBit (UInt8.ofNat (m.header.flags.toNat ||| 4)) = has1stBit m.header.flags := by
    have key : ∀ f : UInt8, has1stBit (UInt8.ofNat (f.toNat ||| 4)) = has1stBit f := by apply forall_byte; decide +kernel
    exact key _
  unfold seqAt Header.fixedLen
  dsimp only
  rw [hf, ← bit0]
  congr 1
  cases h1 : has1stBit m.header.flags <;>
    simp [List.take_append, List.drop_append, List.take_of_length_le, List.drop_of_length_le, be16, be64]

/-- C82 leftovers: what the header held as payload and length from before has no effect. -/
theorem C82_leftovers (m : Msg) (hs : m.Shaped) (hn : m.NoNil) (p : Bytes) (l : UInt16) :
    marshal g { m with header := { m.header with payload := p, length := l } } = marshal g m := by
  rw [marshal_ok g m hs hn, marshal_ok g _ (by exact hs) (by exact hn)]
  rfl

/-- What comes between the length octets and the first element. -/
def middle (h : Header) : Bytes := (if has1stBit h.flags then be64 h.seid else []) ++ beBytes 3 h.seq.toNat ++ [h.pri]

theorem wire_parts (m : Msg) : (m.wire g).take 2 = [m.header.flags, m.header.typ] ∧
    (m.wire g).drop 4 = middle m.header ++ m.body g := by
  rw [wire_eq]
  unfold middle
  constructor <;> simp [be16]

/-- C82 fields: assigning to a field replaces the octets of the elements it held by those of the elements it holds now. All
other octets stay what they were, except the two of the length. -/
theorem C82_field (m : Msg) (hs : m.Shaped) (hn : m.NoNil) (pre post : List (FieldName × Slot)) (n : FieldName) (s s' : Slot)
    (hf : m.fields = pre ++ (n, s) :: post) (hc : s'.card = s.card) (hn' : s'.NoNil) :
    ∃ b b' A Z, marshal g m = .ok b ∧ marshal g { m with fields := pre ++ (n, s') :: post } = .ok b' ∧
      b.take 2 = b'.take 2 ∧ b.drop 4 = A ++ encList g s.elems ++ Z ∧ b'.drop 4 = A ++ encList g s'.elems ++ Z := by
  have hs' : ({ m with fields := pre ++ (n, s') :: post } : Msg).Shaped := by
    unfold Shaped at hs ⊢
    rw [← hs, hf]
    simp [hc]
  have hnn : ({ m with fields := pre ++ (n, s') :: post } : Msg).NoNil := by
    intro p hp
    have hp : p ∈ pre ++ (n, s') :: post := hp
    rw [List.mem_append, List.mem_cons] at hp
    rcases hp with h | rfl | h
    · exact hn p (by rw [hf]; simp [h])
    · exact hn'
    · exact hn p (by rw [hf]; simp [h])
  refine ⟨_, _, middle m.header ++ encList g (pre.flatMap fun p => p.2.elems),
    encList g (post.flatMap fun p => p.2.elems) ++ encList g (m.ies.filterMap id),
    marshal_ok g m hs hn, marshal_ok g _ hs' hnn, ?_, ?_, ?_⟩
  · rw [(wire_parts g _).1, (wire_parts g _).1]
  · rw [(wire_parts g _).2]
    unfold body elements
    rw [hf]
    simp [encList_append]
  · rw [(wire_parts g _).2]
    unfold body elements
    simp [encList_append]

/-- C82 extra elements: what is put into `IEs` between the others comes out between their octets; at the end, it comes out
at the end. -/
theorem C82_extra (m : Msg) (hs : m.Shaped) (hn : m.NoNil) (xs ys zs : List (Option IE)) (hi : m.ies = xs ++ zs) :
    ∃ b b' A Z, marshal g m = .ok b ∧ marshal g { m with ies := xs ++ ys ++ zs } = .ok b' ∧
      b.take 2 = b'.take 2 ∧ b.drop 4 = A ++ Z ∧ b'.drop 4 = A ++ encList g (ys.filterMap id) ++ Z ∧
      Z = encList g (zs.filterMap id) := by
  refine ⟨_, _, middle m.header ++ encList g (m.fields.flatMap fun p => p.2.elems) ++ encList g (xs.filterMap id),
    encList g (zs.filterMap id), marshal_ok g m hs hn, marshal_ok g _ (by exact hs) (by exact hn), ?_, ?_, ?_, rfl⟩
  · rw [(wire_parts g _).1, (wire_parts g _).1]
  · rw [(wire_parts g _).2]
    unfold body elements
    rw [hi]
    simp [encList_append]
  · rw [(wire_parts g _).2]
    unfold body elements
    simp [encList_append]

/-- C82 length: after any edit the two length octets count the octets behind them. -/
theorem C82_length (m : Msg) (hs : m.Shaped) (hn : m.NoNil) (b : Bytes) (hb : marshal g m = .ok b) :
    (b.drop 2).take 2 = be16 (UInt16.ofNat (b.length - 4)) := by
  rw [marshal_ok g m hs hn] at hb
  cases hb
  rw [wire_length, wire_eq]
  simp [be16]

/-- A message whose sequence number and node id are edited. -/
example :
    let h : Header := ⟨0x20, 1, 0, 0, 7, 0, []⟩
    let m : Msg := ⟨.heartbeatRequest, h, [(.RecoveryTimeStamp, .one (some ⟨96, 4, 0, [1, 2, 3, 4], []⟩)), (.SourceIPAddress, .one none)], []⟩
    let m' : Msg := { m with header := h.setSequenceNumber 8 }
    m.Shaped ∧ m.NoNil ∧ marshal (fun _ => false) m = .ok [0x20, 1, 0, 12, 0, 0, 7, 0, 0, 96, 0, 4, 1, 2, 3, 4] ∧
    marshal (fun _ => false) m' = .ok [0x20, 1, 0, 12, 0, 0, 8, 0, 0, 96, 0, 4, 1, 2, 3, 4] := by
  refine ⟨rfl, ?_, by decide +kernel, by decide +kernel⟩
  intro p hp
  simp only [List.mem_cons, List.not_mem_nil, or_false] at hp
  rcases hp with rfl | rfl <;> exact trivial

end Msg
end Pfcp
