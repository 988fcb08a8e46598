/-
Property C17 for datagrams with more than one message (TS 29.244, 7.2.2.1: follow-on flag FO): `message.Parse` takes the first one
for the whole datagram and the following messages for elements of it.
-/
import Verif.Message.Props
import Verif.IE.Exact

namespace Pfcp
namespace Header

/-- Bytes behind a message become part of its payload. -/
theorem parse_append (b rest : Bytes) (h : Header) (hp : parse b = .ok h) :
    parse (b ++ rest) = .ok { h with payload := h.payload ++ rest } := by
  rw [parse_eq] at hp ⊢
  match b, hp with
  | f :: t :: b2 :: b3 :: r, hp =>
    simp only [List.cons_append] at hp ⊢
    by_cases hf : has1stBit f = true
    · simp only [hf, if_true] at hp ⊢
      split at hp
      · cases hp
      · rename_i hl
        cases hp
        have h12 : 12 ≤ r.length := by omega
        rw [if_neg (by rw [List.length_append]; omega)]
        have hne : r.drop 11 ≠ [] := by intro h; have := congrArg List.length h; simp at this; omega
        rw [List.take_append_of_le_length (by omega), List.drop_append_of_le_length (by omega),
          List.take_append_of_le_length (by rw [List.length_drop]; omega), List.drop_append_of_le_length (by omega),
          List.drop_append_of_le_length (by omega)]
        cases hd : r.drop 11 with
        | nil => exact absurd hd hne
        | cons x xs => rfl
    · simp only [hf] at hp ⊢
      split at hp
      · rename_i h; cases h
      · split at hp
        · cases hp
        · rename_i hl
          cases hp
          have h4 : 4 ≤ r.length := by omega
          simp only [Bool.false_eq_true, if_false]
          rw [if_neg (by rw [List.length_append]; omega)]
          have hne : r.drop 3 ≠ [] := by intro h; have := congrArg List.length h; simp at this; omega
          rw [List.take_append_of_le_length (by omega), List.drop_append_of_le_length (by omega),
            List.drop_append_of_le_length (by omega)]
          cases hd : r.drop 3 with
          | nil => exact absurd hd hne
          | cons x xs => rfl

end Header

namespace Msg

/-- A message of protocol version 1 as it travels: at least the four octets of a header, octets 3-4 announce what follows them, the
version is in the top three bits of the first octet. -/
structure Framed (b : Bytes) : Prop where
  len : (dec16 ((b.drop 2).take 2)).toNat + 4 = b.length
  version : ∃ f rest, b = f :: rest ∧ f >>> 5 = 1

/-- A message read as an element: type from the first two octets (flags and message type), the rest of the message as value. -/
def asElement (b : Bytes) : IE := ⟨dec16 (b.take 2), dec16 ((b.drop 2).take 2), 0, b.drop 4, []⟩

theorem asElement_typ (b : Bytes) (h : Framed b) : 0x2000 ≤ (asElement b).typ.toNat ∧ (asElement b).typ.toNat < 0x4000 := by
  obtain ⟨f, rest, rfl, hv⟩ := h.version
  have hl := h.len
  match rest, hl with
  | [], hl => simp at hl
  | t :: r, hl =>
    have h1 : ∀ f : UInt8, f >>> 5 = 1 → 32 ≤ f.toNat ∧ f.toNat < 64 := by
      apply forall_byte; decide +kernel
    have h2 := h1 f hv
    show 0x2000 ≤ (dec16 [f, t]).toNat ∧ (dec16 [f, t]).toNat < 0x4000
    have h3 : (dec16 [f, t]).toNat = f.toNat * 256 + t.toNat := by
      have := t.toNat_lt
      have := f.toNat_lt
      simp [dec16, beNat]
      omega
    have := t.toNat_lt
    omega

theorem fieldIE_small : ∀ k : Kind, ∀ n ∈ k.names, (fieldIE k n).toNat < 0x2000 := by
  intro k
  cases k <;> decide +kernel

theorem not_vendor (t : IEType) (h : t.toNat < 0x8000) : isVendor t = false := by
  have : t &&& 0x8000 = 0 := by
    apply UInt16.toNat_inj.1
    rw [UInt16.toNat_and]
    show t.toNat &&& 2 ^ 15 = 0
    apply Nat.eq_of_testBit_eq
    intro j
    rw [Nat.testBit_and, Nat.testBit_two_pow, Nat.zero_testBit]
    by_cases hj : 15 = j
    · subst hj; rw [Nat.testBit_lt_two_pow h]; rfl
    · simp [hj]
  simp [isVendor, this]

theorem asElement_enc (g : IEType → Bool) (b : Bytes) (h : Framed b) (hg : g (asElement b).typ = false) :
    (asElement b).WF g ∧ (asElement b).enc g = b := by
  have hv := not_vendor _ (Nat.lt_trans (asElement_typ b h).2 (by decide))
  have hl := h.len
  unfold asElement at hv hg ⊢
  dsimp only at hv hg
  have h2 : (b.take 2).length = 2 := by rw [List.length_take]; omega
  have h3 : ((b.drop 2).take 2).length = 2 := by rw [List.length_take, List.length_drop]; omega
  constructor
  · unfold IE.WF
    rw [hv, hg]
    refine ⟨?_, fun _ => rfl, rfl⟩
    rw [List.length_drop]
    simp
    omega
  · unfold IE.enc encHdr
    rw [hv, hg, be16_dec16 _ h2, be16_dec16 _ h3]
    simp only [Bool.false_eq_true, if_false, List.append_nil]
    rw [← List.drop_drop (i := 2) (j := 2), List.append_assoc, List.take_append_drop, List.take_append_drop]

variable (g : IEType → Bool)

/-- C17 is false for datagrams that carry several messages: whatever complete messages follow the first one, `message.Parse` returns
the first message with each of the others as an unknown element whose type is made of the flags and the message type. -/
theorem C17_bundle_violated (b : Bytes) (m : Msg) (hp : parse g b = .ok m) (hc : Complete g m.header.payload) (bs : List Bytes)
    (hb : ∀ b ∈ bs, Framed b ∧ g (asElement b).typ = false) :
    parse g (b ++ bs.flatten) = .ok { m with
      header := { m.header with payload := m.header.payload ++ bs.flatten }
      ies := m.ies ++ bs.map (some ∘ asElement) } := by
  obtain ⟨xs, hx, hwf⟩ := complete_parse hc
  have henc := ((Pfcp.parse_sound g _).2 _ (Nat.le_refl _)).2 xs hx
  rw [parse_normal] at hp ⊢
  obtain ⟨h, hh, hp⟩ := Res.bind_eq_ok.1 hp
  have hm : m = filed (kindOf h.typ) h xs := by
    split at hp
    · rename_i h2
      cases hp
      have hpl : (filed (kindOf h.typ) h []).header.payload = h.payload := rfl
      rw [hpl] at henc
      rw [← henc] at h2
      rw [body_short g xs h2]
    · obtain ⟨ys, hy, hp⟩ := Res.bind_eq_ok.1 hp
      cases hp
      have hpl : (filed (kindOf h.typ) h ys).header.payload = h.payload := rfl
      rw [hpl, hy] at hx
      cases hx
      rfl
  rw [Header.parse_append b _ h hh, Res.ok_bind]
  have hels : encList g (bs.map asElement) = bs.flatten ∧ WFList g (bs.map asElement) := by
    clear hp henc
    induction bs with
    | nil => exact ⟨rfl, trivial⟩
    | cons c cs ih =>
      obtain ⟨e1, e2⟩ := ih (fun b hb' => hb b (List.mem_cons_of_mem _ hb'))
      obtain ⟨w1, w2⟩ := asElement_enc g c (hb c List.mem_cons_self).1 (hb c List.mem_cons_self).2
      exact ⟨by rw [List.map_cons, encList, w2, e1, List.flatten_cons], w1, e2⟩
  have hall : parseMulti g (h.payload ++ bs.flatten) = .ok (xs ++ bs.map asElement) := by
    rw [hm] at henc
    have hpl : (filed (kindOf h.typ) h xs).header.payload = h.payload := rfl
    rw [hpl] at henc
    rw [← henc, ← hels.1, ← encList_append]
    exact parseMulti_enc g _ ((WFList_mem g).2 (fun c hc' => by
      rcases List.mem_append.1 hc' with hc' | hc'
      · exact (WFList_mem g).1 hwf c hc'
      · exact (WFList_mem g).1 hels.2 c hc'))
  have hfile : filed (kindOf h.typ) { h with payload := h.payload ++ bs.flatten } (xs ++ bs.map asElement) = { m with
      header := { m.header with payload := m.header.payload ++ bs.flatten }
      ies := m.ies ++ bs.map (some ∘ asElement) } := by
    have hun : ∀ i ∈ bs.map asElement, ∀ n ∈ (kindOf h.typ).names, i.typ ≠ fieldIE (kindOf h.typ) n := by
      intro i hi n hn he
      obtain ⟨c, hcb, rfl⟩ := List.mem_map.1 hi
      have h1 := (asElement_typ c (hb c hcb).1).1
      have h2 := fieldIE_small _ n hn
      rw [he] at h1
      omega
    rw [hm]
    unfold filed
    simp only [List.filter_append, List.map_append]
    congr 1
    · apply List.map_congr_left
      intro p hpf
      have : (bs.map asElement).filter (fun i => decide (i.typ = fieldIE (kindOf h.typ) p.1)) = [] := by
        rw [List.filter_eq_nil_iff]
        intro i hi he
        exact hun i hi p.1 (List.mem_map.2 ⟨p, hpf, rfl⟩) (of_decide_eq_true he)
      rw [this, List.append_nil]
    · rw [List.filter_eq_self.2 (fun i hi => decide_eq_true (hun i hi)), List.map_map]
  rw [← hfile]
  by_cases h2 : (h.payload ++ bs.flatten).length < 2
  · rw [if_pos h2]
    rw [← hels.1] at h2
    have hpl : (filed (kindOf h.typ) h xs).header.payload = h.payload := rfl
    rw [hm, hpl] at henc
    rw [← henc, ← encList_append] at h2
    rw [body_short g _ h2]
  · rw [if_neg h2, hall, Res.ok_bind]

/-- No type of a grouped element looks like a message, so the theorem applies to the default configuration. -/
theorem C17_bundle_default (b : Bytes) (h : Framed b) : defaultGroupedTypes.contains (asElement b).typ = false := by
  have h1 := (asElement_typ b h).1
  have h2 : ∀ t ∈ defaultGroupedTypes, t.toNat < 0x2000 := by decide +kernel
  cases hc : defaultGroupedTypes.contains (asElement b).typ with
  | false => rfl
  | true =>
    have := h2 _ (List.contains_iff_mem.1 hc)
    omega

/-- Two heartbeat requests in one datagram, FO set on the first: the second is an element of type 0x2001. -/
example : ∃ m, parse (defaultGroupedTypes.contains ·) ([0x24, 1, 0, 4, 0, 0, 1, 0] ++ [0x20, 1, 0, 4, 0, 0, 2, 0]) = .ok m ∧
    m.ies = [some ⟨0x2001, 4, 0, [0, 0, 2, 0], []⟩] := by
  refine ⟨_, rfl, ?_⟩
  decide +kernel

end Msg
end Pfcp
