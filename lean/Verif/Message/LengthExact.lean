/-
C17 exactly: when the decoder takes what the length field of the header announces.
-/
import Verif.Message.RelayProps

namespace Pfcp

/-- The datagram up to the end announced by octets 3 and 4, if it is that long (what TS 29.244 clause 7.2.2 says
of the length field; not part of the Go code). -/
def announced (b : Bytes) : Option Bytes :=
  match b with
  | _ :: _ :: x :: y :: _ => if 4 + (x.toNat * 256 + y.toNat) ≤ b.length then some (b.take (4 + (x.toNat * 256 + y.toNat))) else none
  | _ => none

theorem announced_enc (h : Header) : announced h.enc =
    if 4 + h.length.toNat ≤ h.enc.length then some (h.enc.take (4 + h.length.toNat)) else none := by
  have : ∃ x y rest, h.enc = h.flags :: h.typ :: x :: y :: rest ∧ x.toNat * 256 + y.toNat = h.length.toNat := by
    refine ⟨UInt8.ofNat (h.length.toNat / 256), UInt8.ofNat h.length.toNat,
      (if has1stBit h.flags then be64 h.seid else []) ++ (beBytes 3 h.seq.toNat ++ ([h.pri] ++ h.payload)), ?_, ?_⟩
    · simp [Header.enc, be16, beBytes]
    have hl := h.length.toNat_lt
    rw [UInt8.toNat_ofNat', UInt8.toNat_ofNat']
    omega
  obtain ⟨x, y, rest, he, hxy⟩ := this
  rw [he]
  simp only [announced, hxy]

/-- C17, exactly, for the header: an accepted header is the one of the octets announced if and only if the length field
is right; a datagram shorter than announced is accepted all the same. -/
theorem Header.C17_length_iff (b : Bytes) (h : Header) (hp : Header.parse b = .ok h) :
    ((∃ c, announced b = some c ∧ Header.parse c = .ok h) ↔ b.length = 4 + h.length.toNat) ∧
    (announced b = none ↔ b.length < 4 + h.length.toNat) := by
  obtain ⟨he, hw⟩ := Header.parse_sound b h hp
  rw [← he, announced_enc]
  refine ⟨⟨?_, ?_⟩, ?_⟩
  · rintro ⟨c, hc, hpc⟩
    split at hc
    · rename_i hle
      cases hc
      have := (Header.parse_sound _ _ hpc).1
      have := congrArg List.length this
      rw [List.length_take] at this
      omega
    · cases hc
  · intro hl
    refine ⟨h.enc, ?_, Header.parse_enc h hw⟩
    rw [if_pos (by omega), List.take_of_length_le (by omega)]
  · constructor
    · intro hn
      split at hn
      · cases hn
      · omega
    · intro hn
      rw [if_neg (by omega)]

/-- C17, exactly, for whole messages of all kinds. -/
theorem Msg.C17_message_iff (g : IEType → Bool) (b : Bytes) (m : Msg) (hp : Msg.parse g b = .ok m) :
    ((∃ c, announced b = some c ∧ Msg.parse g c = .ok m) ↔ b.length = 4 + m.header.length.toNat) ∧
    (announced b = none ↔ b.length < 4 + m.header.length.toNat) := by
  obtain ⟨he, _⟩ := Msg.parse_body g b m hp
  have ha := announced_enc m.header
  rw [he] at ha
  rw [ha]
  refine ⟨⟨?_, ?_⟩, ?_⟩
  · rintro ⟨c, hc, hpc⟩
    split at hc
    · rename_i hle
      cases hc
      have := (Msg.parse_body g _ m hpc).1
      rw [he] at this
      have := congrArg List.length this
      rw [List.length_take] at this
      omega
    · cases hc
  · intro hl
    refine ⟨b, ?_, hp⟩
    rw [if_pos (by omega), List.take_of_length_le (by omega)]
  · constructor
    · intro hn
      split at hn
      · cases hn
      · omega
    · intro hn
      rw [if_neg (by omega)]

/-- A heartbeat request that announces five octets less than there are. -/
example : announced [0x20, 1, 0, 4, 0, 0, 1, 0, 0, 96, 0, 1, 7] = some [0x20, 1, 0, 4, 0, 0, 1, 0] ∧
    announced [0x20, 1, 0xff, 0xff, 0, 0, 1, 0] = none := by decide

end Pfcp
