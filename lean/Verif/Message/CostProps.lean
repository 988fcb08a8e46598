/-
C78: the work of decoding in the size of the datagram. C79: the work of encoding in the number of elements.
-/
import Verif.Message.Cost
import Verif.Message.Props

namespace Pfcp

variable (g : IEType → Bool)

open Cost

/-! ### C78 decoding -/

/-- Counting the calls changes no result. -/
theorem C78_counted (b : Bytes) : (decode g b).1 = parseMulti g b ∧ (Msg.parseC g b).1 = Msg.parse g b :=
  ⟨Msg.decode_fst g b, Msg.parseC_fst g b⟩

/-- Whatever the octets and the outcome, `UnmarshalBinary` of elements is called at most once per four octets
(rounded up). -/
theorem C78_calls (b : Bytes) : (decode g b).2.calls ≤ (b.length + 3) / 4 := by
  have := ((work g (2 * b.length + 2)).2 b).1
  unfold decode; omega

/-- The bound is met, also by octets that are rejected. -/
example : decode (fun _ => true) [0, 1, 0, 1, 0] = (.err .unexpectedEOF, ⟨2, 0⟩) := by decide

/-- Whatever the octets and the outcome, with `N` whole groups of four octets there are at most `N (N + 1) / 2`
calls of `MarshalLen`. -/
theorem C78_lens_partial (b : Bytes) : 2 * (decode g b).2.lens ≤ (b.length / 4) * (b.length / 4 + 1) := by
  have := ((work g (2 * b.length + 2)).2 b).2.1
  have h2 := two_tri (b.length / 4)
  unfold decode; omega

/-- Exact counts of a successful decode: one `UnmarshalBinary` per element, and each element is measured once for
every group it is in and once more: its depth. -/
theorem C78_exact (b : Bytes) (is : List IE) (h : parseMulti g b = .ok is) :
    (decode g b).2 = ⟨nodesList is, depthsList g 1 is⟩ := by
  have hw := ((work g (2 * b.length + 2)).2 b).2.2 is (by rw [← h]; exact Msg.decode_fst g b)
  obtain ⟨_, _, h3, h4, h5⟩ := hw
  exact Work.eq (by show (parseMultiW g _ b).2.calls = nodesList is; omega) h5

example : (decode (fun t => t == 1) [0, 1, 0, 8, 0, 1, 0, 4, 0, 2, 0, 0]).2 = ⟨3, 1 + 2 + 3⟩ := by decide

/-- With nesting at most `D` deep the number of `MarshalLen` calls is at most `D` per four octets. -/
theorem C78_shallow (b : Bytes) (is : List IE) (h : parseMulti g b = .ok is) (D : Nat) (hD : depthList is ≤ D) :
    4 * (decode g b).2.lens ≤ D * b.length := by
  have hw := ((work g (2 * b.length + 2)).2 b).2.2 is (by rw [← h]; exact Msg.decode_fst g b)
  obtain ⟨_, h2, _, _, h5⟩ := hw
  have h6 := depthsList_shallow g D 1 is (by omega)
  have h7 : D * (4 * lenCallsList g is) ≤ D * b.length := Nat.mul_le_mul_left D h2
  have e : (decode g b).2.lens = depthsList g 1 is := h5
  rw [e]
  rw [Nat.mul_left_comm] at h7
  omega

/-- The work of decoding a message is that of decoding its payload. -/
theorem Msg.C78_message (b : Bytes) : (Msg.parseC g b).2 =
    match Header.parse b with
    | .ok h => if h.payload.length < 2 then ⟨0, 0⟩ else (decode g h.payload).2
    | _ => ⟨0, 0⟩ := Msg.parseC_work g b

/-- Bounds in the length of the datagram, for every datagram and outcome. -/
theorem Msg.C78_message_bound_partial (b : Bytes) :
    4 * (Msg.parseC g b).2.calls ≤ b.length ∧
    2 * (Msg.parseC g b).2.lens ≤ (b.length / 4) * (b.length / 4 + 1) := by
  have key : ∀ h, Header.parse b = .ok h → h.payload.length + 8 ≤ b.length := by
    intro h hh
    rw [Header.parse_eq] at hh
    split at hh
    · split at hh
      · split at hh
        · cases hh
        · cases hh
          simp only [List.length_drop, List.length_cons]; omega
      · split at hh
        · cases hh
        · cases hh
          simp only [List.length_drop, List.length_cons]; omega
    · cases hh
  rw [Msg.parseC_work]
  split
  · rename_i h hh
    have hk := key h hh
    split
    · simp
    · have h1 := C78_calls g h.payload
      have h2 := C78_lens_partial g h.payload
      have h3 : (h.payload.length / 4) * (h.payload.length / 4 + 1) ≤ (b.length / 4) * (b.length / 4 + 1) :=
        Nat.mul_le_mul (by omega) (by omega)
      omega
  · simp

/-- `d + 1` headers of a grouped type, each the only content of the one before, decode, and cost
`(d + 1) (d + 2) / 2` calls of `MarshalLen` — the bound of `C78_lens_partial` is met at every size. -/
theorem C78_attained {t : IEType} (hg : g t = true) (hv : isVendor t = false) (d : Nat) (hd : 4 * d < 65536) :
    (chain t d).length = 4 * (d + 1) ∧ parseMulti g (chain t d) = .ok [tower t d] ∧
    (decode g (chain t d)).2.calls = d + 1 ∧ 2 * (decode g (chain t d)).2.lens = (d + 1) * (d + 2) := by
  have hp : parseMulti g (chain t d) = .ok [tower t d] := by
    have := parseMulti_enc g [tower t d] ⟨tower_wf hg hv d hd, trivial⟩
    simpa [encList, tower_enc hg hv] using this
  obtain ⟨h1, h2, h3, _⟩ := tower_counts hg d
  refine ⟨chain_length t d, hp, ?_, ?_⟩
  · rw [C78_exact g _ _ hp]
    simp [nodesList, h2]
  · rw [C78_exact g _ _ hp]
    simp only [depthsList, h3, Nat.add_zero]
    exact two_tri (d + 1)

example : chain 1 2 = [0, 1, 0, 8, 0, 1, 0, 4, 0, 1, 0, 0] := by decide

/-- The header of a Session Establishment Request whose payload is `d + 1` nested Create PDR elements. -/
def deepHeader (d : Nat) : Header := ⟨0x21, 50, UInt16.ofNat (12 + 4 * (d + 1)), 1, 1, 0, chain T.CreatePDR d⟩

theorem deep_fixed (d : Nat) : Header.fixedLen (deepHeader d).flags = 16 := by
  show Header.fixedLen 0x21 = 16; decide

/-- A Create PDR alone in a Session Establishment Request is the only element of the message. -/
theorem createPDR_elements (h : Header) (i : IE) (hi : i.typ = T.CreatePDR) :
    (Msg.filed .sessionEstablishmentRequest h [i]).elements = [i] := by
  obtain ⟨t, len, eid, p, cs⟩ := i
  cases hi
  rfl

theorem deep_parse (d : Nat) (hd : d < 16380) :
    (deepHeader d).enc.length = 16 + 4 * (d + 1) ∧
    Msg.parse (defaultGroupedTypes.contains ·) (deepHeader d).enc
      = .ok (Msg.filed .sessionEstablishmentRequest (deepHeader d) [tower T.CreatePDR d]) ∧
    2 * (Msg.parseC (defaultGroupedTypes.contains ·) (deepHeader d).enc).2.lens = (d + 1) * (d + 2) ∧
    (Msg.parseC (defaultGroupedTypes.contains ·) (deepHeader d).enc).2.calls = d + 1 := by
  have hg : (defaultGroupedTypes.contains T.CreatePDR) = true := by decide
  have hv : isVendor T.CreatePDR = false := by decide
  obtain ⟨h1, h2, h3, h4⟩ := C78_attained (defaultGroupedTypes.contains ·) hg hv d (by omega)
  have hw : (deepHeader d).WF := ⟨by show (1 : UInt32).toNat < 2 ^ 24; decide, by
    intro h; exact absurd h (by show ¬ has1stBit 0x21 = false; decide)⟩
  have hl : (deepHeader d).payload.length = 4 * (d + 1) := h1
  have hpay : (deepHeader d).payload = encList (defaultGroupedTypes.contains ·) [tower T.CreatePDR d] := by
    rw [encList, encList, tower_enc (g := (defaultGroupedTypes.contains ·)) hg hv, List.append_nil]; rfl
  have hp := Msg.parse_wire _ (deepHeader d) hw [tower T.CreatePDR d] ⟨tower_wf hg hv d (by omega), trivial⟩ hpay
  have hc : (Msg.parseC (defaultGroupedTypes.contains ·) (deepHeader d).enc).2
      = (decode (defaultGroupedTypes.contains ·) (chain T.CreatePDR d)).2 := by
    rw [Msg.parseC_work, Header.parse_enc (deepHeader d) hw]
    simp only
    rw [if_neg (by omega)]
    rfl
  refine ⟨?_, hp, ?_, ?_⟩
  · rw [Header.enc_length, hl, deep_fixed]
  · rw [hc]; exact h4
  · rw [hc]; exact h3

/-- Decoding does not take work proportional to the datagram: a Session Establishment Request of 65,504 octets, which
one UDP datagram can carry and `message.Parse` accepts under the default configuration, makes more than
134 million calls of `MarshalLen`, over 2000 per octet. -/
theorem Msg.C78_datagram_violated : ∃ b : Bytes, b.length = 65504 ∧
    (∃ m, Msg.parse (defaultGroupedTypes.contains ·) b = .ok m ∧ m.kind = .sessionEstablishmentRequest) ∧
    (Msg.parseC (defaultGroupedTypes.contains ·) b).2 = ⟨16372, 134029378⟩ := by
  obtain ⟨d, hd⟩ : ∃ d, d = 16371 := ⟨_, rfl⟩
  obtain ⟨h1, h2, h3, h4⟩ := deep_parse d (by omega)
  refine ⟨(deepHeader d).enc, by omega, ⟨_, h2, rfl⟩, Work.eq ?_ ?_⟩
  · rw [h4]; show d + 1 = 16372; omega
  · show _ = 134029378
    rw [hd] at h3 ⊢
    omega

/-! ### C79 encoding -/

/-- Counting the calls changes no result. -/
theorem C79_counted (i : IE) (m : Msg) : (encode g i).1 = i.marshal g ∧ (Msg.marshalC g m).1 = Msg.marshal g m := by
  refine ⟨?_, Msg.marshalC_fst g m⟩
  unfold encode IE.marshal
  rw [← marshalToW_fst]
  rfl

/-- Exact counts of `Marshal` for every element: one `MarshalTo` per element, and as many `MarshalLen` as the sum of
the depths, plus one for every element that is not a group. -/
theorem C79_exact (i : IE) : (encode g i).2 = ⟨lenCalls g i, depths g 1 i + plain g i⟩ := by
  unfold encode
  have hm : (marshalToW g i (Slice.make (i.marshalLen g))).1 ≠ .panic ∧
      ∃ v, (marshalToW g i (Slice.make (i.marshalLen g))).1 = .ok v := by
    have h := marshal_eq g i
    unfold IE.marshal at h
    rw [← marshalToW_fst] at h
    rw [Res.bind_eq_ok] at h
    obtain ⟨v, h1, _⟩ := h
    exact ⟨by rw [h1]; simp, v, h1⟩
  obtain ⟨v, hv⟩ := hm.2
  have hw := (marshalToW_work g i (Slice.make (i.marshalLen g))).2.2 v hv
  have hd : depths g 1 i = depths g 0 i + lenCalls g i := depths_succ g 0 i
  show _ + (marshalToW g i _).2 = _
  rw [hw]
  apply Work.eq <;> simp <;> omega

example : (encode (fun t => t == 1) ⟨1, 0, 0, [], [⟨1, 0, 0, [], [⟨2, 1, 0, [7], []⟩]⟩]⟩).2 = ⟨3, 1 + 2 + 3 + 1⟩ := by
  decide

mutual
theorem lenCalls_le : (i : IE) → lenCalls g i ≤ i.nodes
  | ⟨t, len, eid, p, cs⟩ => by
    have := lenCallsList_le cs
    simp only [lenCalls, IE.nodes]
    split <;> omega
theorem lenCallsList_le : (is : List IE) → lenCallsList g is ≤ nodesList is
  | [] => by simp [lenCallsList]
  | c :: cs => by
    have h1 := lenCalls_le c
    have h2 := lenCallsList_le cs
    simp only [lenCallsList, nodesList]; omega
end

/-- At most `n` calls of `MarshalTo` and `n (n + 1) / 2 + 1` calls of `MarshalLen` for `n` elements. -/
theorem C79_lens_partial (i : IE) :
    (encode g i).2.calls ≤ i.nodes ∧ 2 * (encode g i).2.lens ≤ i.nodes * (i.nodes + 1) + 2 := by
  rw [C79_exact]
  have h1 := lenCalls_le g i
  have h2 := enc_le g i
  have h3 := tri_mono h1
  have h4 := two_tri i.nodes
  refine ⟨h1, ?_⟩
  show 2 * (depths g 1 i + plain g i) ≤ _
  omega

/-- With nesting at most `D` deep, at most `D + 1` calls of `MarshalLen` per element. -/
theorem C79_shallow (i : IE) (D : Nat) (hD : i.depth ≤ D) : (encode g i).2.lens ≤ (D + 1) * i.nodes := by
  rw [C79_exact]
  have h1 := lenCalls_le g i
  have h2 := depths_shallow g D 1 i (by omega)
  have h3 := plain_le g i
  have h4 : (D + 1) * lenCalls g i ≤ (D + 1) * i.nodes := Nat.mul_le_mul_left _ h1
  rw [Nat.add_mul, Nat.one_mul] at h4
  show depths g 1 i + plain g i ≤ _
  omega

/-- Exact counts of `Marshal` for every message without nil pointers in its lists: its elements are measured twice
before they are written. -/
theorem Msg.C79_message (m : Msg) (hs : m.Shaped) (hn : m.NoNil) :
    (Msg.marshalC g m).2 = ⟨lenCallsList g m.elements,
      2 * lenCallsList g m.elements + depthsList g 1 m.elements + plainList g m.elements⟩ := by
  rw [Msg.marshalC_work g m hs (m.wire g) (by rw [Msg.marshalC_fst]; exact Msg.marshal_ok g m hs hn)]
  apply Work.eq
  · simp [Msg.askWork, Msg.putWork]
  · simp [Msg.askWork, Msg.putWork]; omega

/-- With nesting at most `D` deep, at most `D + 3` calls of `MarshalLen` per element of the message. -/
theorem Msg.C79_message_shallow (m : Msg) (hs : m.Shaped) (hn : m.NoNil) (D : Nat) (hD : depthList m.elements ≤ D) :
    (Msg.marshalC g m).2.lens ≤ (D + 3) * nodesList m.elements := by
  rw [Msg.C79_message g m hs hn]
  have h1 := lenCallsList_le g m.elements
  have h2 := depthsList_shallow g D 1 m.elements (by omega)
  have h3 := plainList_le g m.elements
  have h4 : (D + 3) * lenCallsList g m.elements ≤ (D + 3) * nodesList m.elements := Nat.mul_le_mul_left _ h1
  rw [Nat.add_mul] at h4
  show 2 * lenCallsList g m.elements + depthsList g 1 m.elements + plainList g m.elements ≤ _
  omega

/-- The bound of `C79_lens_partial` is met, but for the 1, by `d + 1` groups each inside the one before. -/
theorem C79_attained {t : IEType} (hg : g t = true) (d : Nat) :
    (tower t d).nodes = d + 1 ∧ (encode g (tower t d)).2.calls = d + 1 ∧
    2 * (encode g (tower t d)).2.lens = (d + 1) * (d + 2) := by
  obtain ⟨h1, h2, h3, h4⟩ := tower_counts hg d
  rw [C79_exact]
  refine ⟨h2, h1, ?_⟩
  show 2 * (depths g 1 (tower t d) + plain g (tower t d)) = _
  rw [h3, h4]
  exact two_tri (d + 1)

theorem deep_marshal (d : Nat) (hd : d < 16380) :
    nodesList (Msg.filed .sessionEstablishmentRequest (deepHeader d) [tower T.CreatePDR d]).elements = d + 1 ∧
    Msg.marshal (defaultGroupedTypes.contains ·)
      (Msg.filed .sessionEstablishmentRequest (deepHeader d) [tower T.CreatePDR d]) = .ok (deepHeader d).enc ∧
    (Msg.marshalC (defaultGroupedTypes.contains ·)
      (Msg.filed .sessionEstablishmentRequest (deepHeader d) [tower T.CreatePDR d])).2
        = ⟨d + 1, 2 * (d + 1) + tri (d + 1)⟩ := by
  have hg : (defaultGroupedTypes.contains T.CreatePDR) = true := by decide
  have hv : isVendor T.CreatePDR = false := by decide
  have hl : (deepHeader d).payload.length = 4 * (d + 1) := chain_length T.CreatePDR d
  have hpay : (deepHeader d).payload = encList (defaultGroupedTypes.contains ·) [tower T.CreatePDR d] := by
    rw [encList, encList, tower_enc (g := (defaultGroupedTypes.contains ·)) hg hv, List.append_nil]; rfl
  have he := createPDR_elements (deepHeader d) (tower T.CreatePDR d) (by cases d <;> rfl)
  obtain ⟨h1, h2, h3, h4⟩ := tower_counts (g := (defaultGroupedTypes.contains ·)) hg d
  refine ⟨?_, ?_, ?_⟩
  · rw [he]; simp only [nodesList, h2]
  · rw [Msg.marshal_ok _ _ (Msg.filed_shaped _ _ _) (Msg.filed_noNil _ _ _)]
    unfold Msg.wire Msg.wireHeader Msg.body
    rw [he, ← hpay, hl]
    have : Header.fixedLen (Msg.filed .sessionEstablishmentRequest (deepHeader d) [tower T.CreatePDR d]).header.flags
      + 4 * (d + 1) - 4 = 12 + 4 * (d + 1) := by
      show Header.fixedLen (deepHeader d).flags + 4 * (d + 1) - 4 = _
      rw [deep_fixed]; omega
    rw [this]
    rfl
  · rw [Msg.C79_message _ _ (Msg.filed_shaped _ _ _) (Msg.filed_noNil _ _ _), he]
    simp only [lenCallsList, depthsList, plainList, h1, h3, h4, Nat.add_zero]

/-- Encoding does not take work proportional to the message: sending on the message of
`Msg.C78_datagram_violated` calls `MarshalLen` more than 134 million times. -/
theorem Msg.C79_message_violated : ∃ (b : Bytes) (m : Msg), b.length = 65504 ∧
    Msg.parse (defaultGroupedTypes.contains ·) b = .ok m ∧ nodesList m.elements = 16372 ∧
    Msg.marshal (defaultGroupedTypes.contains ·) m = .ok b ∧
    (Msg.marshalC (defaultGroupedTypes.contains ·) m).2 = ⟨16372, 134062122⟩ := by
  obtain ⟨d, hd⟩ : ∃ d, d = 16371 := ⟨_, rfl⟩
  obtain ⟨h1, h2, _, _⟩ := deep_parse d (by omega)
  obtain ⟨k1, k2, k3⟩ := deep_marshal d (by omega)
  refine ⟨_, _, ?_, h2, ?_, k2, ?_⟩
  · omega
  · omega
  · rw [k3]
    have ht := two_tri (d + 1)
    apply Work.eq
    · show d + 1 = 16372; omega
    · show 2 * (d + 1) + tri (d + 1) = 134062122
      have : (d + 1) * (d + 1 + 1) = 268058756 := by rw [hd]
      omega

end Pfcp
