/- Properties C85 and C86: what the parsers of the single message kinds and the kind of a message do not check. -/
import Verif.Message.Props
import Verif.Message.HeaderProps
import Verif.IE.Props

namespace Pfcp
namespace Msg

variable (g : IEType → Bool)

/-- `ParseHeartbeatRequest`, `ParseSessionEstablishmentRequest` and so on, one per kind,
/repo/message/heartbeat-request.go:82-88, /repo/message/session-establishment-request.go:272-278,
/repo/message/generic.go:82-88: decoding into a new message of the kind. The 24 functions differ in nothing else. -/
def parseAs (k : Kind) (b : Bytes) : Res Msg := unmarshal g (zero k) b

/-- The type octet belongs to the kind: it is the one assigned to it, or for Generic one assigned to no kind. -/
def Own (t : UInt8) (k : Kind) : Prop :=
  (t, k) ∈ assignedKinds ∨ (t ∉ assignedKinds.map (·.1) ∧ k = .generic)

theorem parseAs_normal (k : Kind) (b : Bytes) :
    parseAs g k b = (Header.parse b >>= fun h =>
      if h.payload.length < 2 then .ok (filed k h [])
      else (parseMulti g h.payload >>= fun xs => .ok (filed k h xs))) := by
  unfold parseAs unmarshal
  cases hp : Header.parse b with
  | err e => rfl
  | panic => rfl
  | ok h =>
    simp only [Res.ok_bind]
    by_cases h2 : h.payload.length < 2
    · rw [if_pos h2, if_pos h2, filed_nil]
    · rw [if_neg h2, if_neg h2]
      cases hm : parseMulti g h.payload with
      | err e => rfl
      | panic => rfl
      | ok xs =>
        simp only [Res.ok_bind]
        have hk : (zero k).kind = k := rfl
        simp only [hk]
        split
        · rename_i heq
          rw [filed_generic]
          rfl
        · exact fileAll_zero k h xs

/-- Two kinds of the same octets: the same outcome, the same header, the elements filed as each kind files them. -/
theorem parseAs_cases (k : Kind) (b : Bytes) :
    (∃ h xs, (∀ k', parseAs g k' b = .ok (filed k' h xs)) ∧ parse g b = .ok (filed (kindOf h.typ) h xs) ∧ b[1]? = some h.typ) ∨
    (∃ e, parseAs g k b = .err e ∧ parse g b = .err e) := by
  rw [parse_normal]
  cases hp : Header.parse b with
  | panic => exact absurd hp (Header.C15_header_total_lossless _).1
  | err e => exact Or.inr ⟨e, by rw [parseAs_normal, hp]; rfl, rfl⟩
  | ok h =>
    have hb : b[1]? = some h.typ := by
      rw [← (Header.parse_sound b h hp).1]
      rfl
    by_cases h2 : h.payload.length < 2
    · refine Or.inl ⟨h, [], fun k' => ?_, ?_, hb⟩
      · rw [parseAs_normal, hp, Res.ok_bind, if_pos h2]
      · rw [Res.ok_bind, if_pos h2]
    · cases hm : parseMulti g h.payload with
      | panic => exact absurd hm (C03_parse_total g _).2
      | err e =>
        refine Or.inr ⟨e, ?_, ?_⟩
        · rw [parseAs_normal, hp, Res.ok_bind, if_neg h2, hm]; rfl
        · rw [Res.ok_bind, if_neg h2, hm]; rfl
      | ok xs =>
        refine Or.inl ⟨h, xs, fun k' => ?_, ?_, hb⟩
        · rw [parseAs_normal, hp, Res.ok_bind, if_neg h2, hm]; rfl
        · rw [Res.ok_bind, if_neg h2, hm]; rfl

theorem kindOf_iff (t : UInt8) (k : Kind) : kindOf t = k ↔ Own t k := by
  have h : ∀ t : UInt8, Own t (kindOf t) ∧ ∀ p ∈ assignedKinds, p.1 = t → kindOf t = p.2 := by
    unfold Own
    apply forall_byte
    decide +kernel
  obtain ⟨h1, h2⟩ := h t
  constructor
  · rintro rfl; exact h1
  · rintro (h3 | ⟨h3, rfl⟩)
    · exact h2 _ h3 rfl
    · rcases h1 with h1 | h1
      · exact absurd (List.mem_map.2 ⟨_, h1, rfl⟩) h3
      · exact h1.2

/-- C85 is false: the parser of any kind accepts exactly what `message.Parse` accepts, whatever the type octet says, and refuses the
rest with the same error. -/
theorem C85_violated (k : Kind) (b : Bytes) :
    ((∃ m, parseAs g k b = .ok m) ↔ ∃ m, parse g b = .ok m) ∧ (∀ e, parseAs g k b = .err e ↔ parse g b = .err e) := by
  rcases parseAs_cases g k b with ⟨h, xs, h1, h2, _⟩ | ⟨e, h1, h2⟩
  · refine ⟨⟨fun _ => ⟨_, h2⟩, fun _ => ⟨_, h1 k⟩⟩, fun e => ?_⟩
    rw [h1, h2]
    constructor <;> (intro h; cases h)
  · rw [h1, h2]
    refine ⟨?_, fun e => Iff.rfl⟩
    constructor <;> (rintro ⟨m, h⟩; cases h)

/-- C85, exactly: it returns what `message.Parse` returns if and only if the type octet belongs to the kind. -/
theorem C85_exact (k : Kind) (b : Bytes) (m : Msg) (h : parseAs g k b = .ok m) (t : UInt8) (ht : b[1]? = some t) :
    parse g b = .ok m ↔ Own t k := by
  rcases parseAs_cases g k b with ⟨hd, xs, h1, h2, h3⟩ | ⟨e, h1, _⟩
  · rw [h1] at h
    cases h
    rw [h3] at ht
    cases ht
    rw [h2, ← kindOf_iff]
    constructor
    · intro h
      have : (filed (kindOf hd.typ) hd xs).kind = (filed k hd xs).kind := by
        injection h with h; rw [h]
      exact this
    · intro h; rw [h]
  · rw [h1] at h; cases h

/-- C85. The caller can tell: the message returned is of the kind asked for, and its `MessageType` is the octet received. So one that
compares `MessageType` with the type of the kind refuses every message of another type, and no other. -/
theorem C85_detected (k : Kind) (b : Bytes) (m : Msg) (h : parseAs g k b = .ok m) :
    m.kind = k ∧ b[1]? = some m.messageType ∧ (Own m.messageType k ↔ parse g b = .ok m) := by
  have h0 := h
  rcases parseAs_cases g k b with ⟨hd, xs, h1, _, h3⟩ | ⟨e, h1, _⟩
  · rw [h1] at h
    cases h
    exact ⟨rfl, h3, (C85_exact g k b _ h0 _ h3).symm⟩
  · rw [h1] at h; cases h

/-- C85. A message of another type that was accepted is sent on with the type octet it came with: the next receiver takes it for what
it was, although this one read it as a message of kind `k`. -/
theorem C85_sent_on (k : Kind) (b : Bytes) (m : Msg) (h : parseAs g k b = .ok m) :
    ∃ b', marshal g m = .ok b' ∧ b'[1]? = b[1]? := by
  rcases parseAs_cases g k b with ⟨hd, xs, h1, _, h3⟩ | ⟨e, h1, _⟩
  · rw [h1] at h
    cases h
    refine ⟨_, marshal_ok g _ (filed_shaped _ _ _) (filed_noNil _ _ _), ?_⟩
    rw [h3]
    rfl
  · rw [h1] at h; cases h

/-- A heartbeat request is accepted as a session deletion response; and an association release request as itself. -/
example : (∃ m, parseAs g .sessionDeletionResponse [0x20, 1, 0, 4, 0, 0, 1, 0] = .ok m) ∧
    ¬ Own 1 .sessionDeletionResponse ∧ Own 9 .associationReleaseRequest ∧ Own 77 .generic ∧
    ∃ m, parseAs g .associationReleaseRequest [0x20, 9, 0, 4, 0, 0, 1, 0] = .ok m := by
  refine ⟨⟨_, by rw [parseAs_normal]; rfl⟩, by unfold Own; decide, by unfold Own; decide, by unfold Own; decide,
    ⟨_, by rw [parseAs_normal]; rfl⟩⟩

/-- The kinds whose messages concern a session: 3GPP TS 29.244, table 7.3-1, types 50 to 57. -/
def sessionKinds : List Kind :=
  [.sessionEstablishmentRequest, .sessionEstablishmentResponse, .sessionModificationRequest, .sessionModificationResponse,
   .sessionDeletionRequest, .sessionDeletionResponse, .sessionReportRequest, .sessionReportResponse]

/-- C86, exactly: the S flag has no influence on which kind a message is taken for, nor on whether it is accepted. Whatever the
header, with or without S flag, and whatever the elements, the message is accepted. -/
theorem C86_accepted (h : Header) (hw : h.WF) (xs : List IE) (hx : WFList g xs) :
    parse g ({ h with payload := encList g xs } : Header).enc =
      .ok (filed (kindOf h.typ) { h with payload := encList g xs } xs) := by
  have hp := Header.parse_enc { h with payload := encList g xs } ⟨hw.1, hw.2⟩
  rw [parse_normal, hp, Res.ok_bind]
  by_cases h2 : (encList g xs).length < 2
  · have : xs = [] := by
      cases xs with
      | nil => rfl
      | cons i is =>
        have := enc_length_pos g i
        rw [encList, List.length_append] at h2
        omega
    subst this
    rw [if_pos h2]
  · rw [if_neg h2, parseMulti_enc g xs hx, Res.ok_bind]

/-- C86 is false for every kind: there is an accepted message of a session kind without a session id, and one of a node kind with. -/
theorem C86_violated (t : UInt8) (k : Kind) (hk : (t, k) ∈ assignedKinds) :
    ∃ b m, parse g b = .ok m ∧ m.kind = k ∧ m.messageType = t ∧ m.header.hasSEID = !sessionKinds.contains k := by
  have hkind := (kindOf_iff t k).2 (Or.inl hk)
  refine ⟨_, _, C86_accepted g ⟨if sessionKinds.contains k then 0x20 else 0x21, t, 0, 0, 0, 0, []⟩ ?_ [] trivial, ?_, rfl, ?_⟩
  · exact ⟨(by decide : (0 : UInt32).toNat < 2 ^ 24), fun _ => rfl⟩
  · show kindOf t = k
    exact hkind
  · show has1stBit (if sessionKinds.contains k then 0x20 else 0x21) = _
    cases sessionKinds.contains k <;> decide

/-- C86. The caller can tell: `HasSEID` of the decoded message is the S flag received; with it `SEID()` is what octets 5 to 12 hold,
without it zero. -/
theorem C86_detected (b : Bytes) (m : Msg) (h : parse g b = .ok m) :
    ∃ f, b[0]? = some f ∧ m.header.hasSEID = f.toNat.testBit 0 ∧ (f.toNat.testBit 0 = false → m.seid = 0) ∧
      (f.toNat.testBit 0 = true → be64 m.seid = (b.drop 4).take 8) := by
  have hp : Header.parse b = .ok m.header := by
    rw [parse_normal] at h
    obtain ⟨hd, hp, h⟩ := Res.bind_eq_ok.1 h
    split at h
    · cases h; exact hp
    · obtain ⟨_, _, h⟩ := Res.bind_eq_ok.1 h
      cases h; exact hp
  have hb := (Header.parse_sound b _ hp).1
  have h1 : has1stBit m.header.flags = m.header.flags.toNat.testBit 0 := by
    generalize m.header.flags = f
    revert f
    exact forall_byte (by decide +kernel)
  refine ⟨m.header.flags, by rw [← hb]; rfl, h1, fun hf => ?_, fun hf => ?_⟩
  · show (if !has1stBit m.header.flags then 0 else m.header.seid) = 0
    rw [h1, hf]; rfl
  · have hs : m.seid = m.header.seid := by
      show (if !has1stBit m.header.flags then 0 else m.header.seid) = _
      rw [h1, hf]; rfl
    rw [hs, ← hb]
    unfold Header.enc
    rw [h1, hf, if_pos rfl]
    simp [be16, be64]

example : (50, Kind.sessionEstablishmentRequest) ∈ assignedKinds ∧ (1, Kind.heartbeatRequest) ∈ assignedKinds ∧
    sessionKinds.contains .sessionEstablishmentRequest = true ∧ sessionKinds.contains .heartbeatRequest = false ∧
    ∃ m, parse g [0x21, 1, 0, 12, 0, 0, 0, 0, 0, 0, 0, 9, 0, 0, 1, 0] = .ok m ∧ m.header.hasSEID = true ∧ m.seid = 9 := by
  refine ⟨by decide, by decide, by decide, by decide, _, by rw [parse_normal]; rfl, by decide, by decide⟩

end Msg
end Pfcp
