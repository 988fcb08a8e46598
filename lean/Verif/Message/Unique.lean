/- Property C87: the encoding is unambiguous, that is different values have different encodings. -/
import Verif.Message.Props
import Verif.IE.Props

namespace Pfcp

variable (g : IEType → Bool)

/-- What follows the header of an element on the wire: the children of a grouped element, otherwise the payload. -/
def IE.content (i : IE) : Bytes := if g i.typ then encList g i.children else i.payload

theorem be16_inj {a b : UInt16} (h : be16 a = be16 b) : a = b := by
  rw [← dec16_be16 a, h, dec16_be16]

/-- C87. Of two elements whatsoever (the length field right or wrong), `Marshal` returns the same octets exactly if type, length field
and contents are the same, and the enterprise id where it is sent. -/
theorem C87_element (i j : IE) : i.marshal g = j.marshal g ↔
    i.typ = j.typ ∧ i.length = j.length ∧ (isVendor i.typ → i.eid = j.eid) ∧ i.content g = j.content g := by
  rw [marshal_eq, marshal_eq]
  obtain ⟨t, len, eid, p, cs⟩ := i
  obtain ⟨t', len', eid', p', cs'⟩ := j
  simp only [IE.content]
  show Res.ok _ = Res.ok _ ↔ _
  rw [Res.ok.injEq, IE.enc, IE.enc]
  generalize (if g t then encList g cs else p) = c
  generalize (if g t' then encList g cs' else p') = c'
  obtain ⟨a1, a2, a3⟩ := encHdr_append t len eid c
  obtain ⟨b1, b2, b3⟩ := encHdr_append t' len' eid' c'
  constructor
  · intro h
    rw [h] at a1 a2 a3
    have ht : t = t' := be16_inj (a1.symm.trans b1)
    subst ht
    have hl : len = len' := be16_inj (a2.symm.trans b2)
    subst hl
    refine ⟨rfl, rfl, fun hv => be16_inj ((a3 hv).symm.trans (b3 hv)), ?_⟩
    have := congrArg (List.drop (hdrLen t)) h
    rwa [List.drop_left' (encHdr_length _ _ _), List.drop_left' (encHdr_length _ _ _)] at this
  · rintro ⟨h1, h2, h3, h4⟩
    subst h1 h2 h4
    have : encHdr t len eid = encHdr t len eid' := by
      unfold encHdr
      cases hv : isVendor t
      · rfl
      · rw [h3 hv]
    rw [this]

/-- C87. Well-formed elements: no two have the same encoding, and none the beginning of the encoding of another, so that where an
element ends does not depend on what follows. -/
theorem C87_prefix_free (i j : IE) (hi : i.WF g) (hj : j.WF g) (bi bj r s : Bytes)
    (mi : i.marshal g = .ok bi) (mj : j.marshal g = .ok bj) (h : bi ++ r = bj ++ s) : i = j ∧ r = s := by
  rw [marshal_eq] at mi mj
  cases mi
  cases mj
  have h1 := parse_enc g i hi r
  rw [h, parse_enc g j hj s] at h1
  cases h1
  exact ⟨rfl, List.append_cancel_left h⟩

/-- C87. Sequences of well-formed elements. -/
theorem C87_sequence (is js : List IE) (hi : WFList g is) (hj : WFList g js) : encList g is = encList g js ↔ is = js := by
  constructor
  · intro h
    have h1 := parseMulti_enc g is hi
    rw [h, parseMulti_enc g js hj] at h1
    cases h1
    rfl
  · rintro rfl; rfl

/-- C87 without the length field being right is false: a sequence of one element has the encoding of a sequence of two. -/
theorem C87_violated : ∃ is js : List IE, is ≠ js ∧ is.length ≠ js.length ∧ encList (fun _ => false) is = encList (fun _ => false) js :=
  ⟨[⟨1, 0, 0, [0, 2, 0, 0], []⟩], [⟨1, 0, 0, [], []⟩, ⟨2, 0, 0, [], []⟩], by decide, by decide, by decide⟩

namespace Msg

/-- C87. Of two well-formed messages, `Marshal` returns the same octets exactly if they are of the same kind, with the same flags,
type, session id, sequence number and priority octet in the header, the same elements in every field, and the same extra elements
(nil ones aside). What the header holds as length and payload has no influence. -/
theorem C87_message (m m' : Msg) (h : m.WF g) (h' : m'.WF g) : marshal g m = marshal g m' ↔
    m.kind = m'.kind ∧ m.header.flags = m'.header.flags ∧ m.header.typ = m'.header.typ ∧ m.header.seid = m'.header.seid ∧
    m.header.seq = m'.header.seq ∧ m.header.pri = m'.header.pri ∧ m.fields = m'.fields ∧
    m.ies.filterMap id = m'.ies.filterMap id := by
  constructor
  · intro he
    obtain ⟨b, hb, hp⟩ := C20_message_roundtrip g m h
    obtain ⟨b', hb', hp'⟩ := C20_message_roundtrip g m' h'
    rw [he, hb'] at hb
    cases hb
    rw [hp'] at hp
    injection hp with hp
    have hk := congrArg Msg.kind hp
    have hh := congrArg Msg.header hp
    have hf := congrArg Msg.fields hp
    have hi := congrArg Msg.ies hp
    have inj : ∀ xs ys : List IE, xs.map some = ys.map some → xs = ys := by
      intro xs ys hxy
      have := congrArg (List.filterMap id) hxy
      simpa using this
    exact ⟨hk.symm, (congrArg Header.flags hh).symm, (congrArg Header.typ hh).symm, (congrArg Header.seid hh).symm,
      (congrArg Header.seq hh).symm, (congrArg Header.pri hh).symm, hf.symm, (inj _ _ hi).symm⟩
  · rintro ⟨_, h2, h3, h4, h5, h6, h7, h8⟩
    rw [marshal_ok g m h.shaped h.noNil, marshal_ok g m' h'.shaped h'.noNil]
    have hb : m.body g = m'.body g := by
      unfold body elements
      rw [h7, h8]
    unfold wire wireHeader
    rw [hb, h2]
    unfold Header.enc
    simp only [h2, h3, h4, h5, h6]

end Msg

example : (⟨60, 5, 0, [0, 127, 0, 0, 1], []⟩ : IE).WF (fun _ => false) ∧ (⟨0x8001, 3, 10, [42], []⟩ : IE).WF (fun _ => false) := by
  simp [IE.WF]
  decide

end Pfcp
