/- Property C84: a message that lost its end on the way (a datagram cut by a small buffer or by the network). -/
import Verif.Message.Props
import Verif.Message.Bundle
import Verif.IE.Exact

namespace Pfcp

/-- What is left of an element if only its header arrived. -/
def IE.bare (i : IE) : IE := { i with payload := [], children := [] }

/-- The first `n` octets of the elements `is` end between two elements or behind the header of one; `xs` is what arrived. -/
inductive Cut (g : IEType → Bool) : List IE → Nat → List IE → Prop
  | here (is : List IE) : Cut g is 0 []
  | bare (i : IE) (is : List IE) : Cut g (i :: is) (hdrLen i.typ) [i.bare]
  | next (i : IE) {is : List IE} {n : Nat} {xs : List IE} : Cut g is n xs → Cut g (i :: is) ((i.enc g).length + n) (i :: xs)

variable (g : IEType → Bool)

theorem Cut.zero {is xs : List IE} (h : Cut g is 0 xs) : xs = [] := by
  generalize hn : 0 = n at h
  cases h with
  | here => rfl
  | bare i => have := hdrLen_pos i.typ; omega
  | next i _ => have := enc_length_pos g i; omega

theorem Cut.one {is xs : List IE} (h : Cut g is 1 xs) : xs = [] := by
  generalize hn : 1 = n at h
  cases h with
  | here => rfl
  | bare i => have := hdrLen_pos i.typ; omega
  | next i _ => have := enc_length_pos g i; omega

/-- The elements of a body, cut after `n` octets. -/
theorem cut_iff : ∀ (is : List IE), WFList g is → ∀ (n : Nat) (xs : List IE), n ≤ (encList g is).length →
    (parseMulti g ((encList g is).take n) = .ok xs ↔ Cut g is n xs)
  | [], _, n, xs, hn => by
    have h0 : n = 0 := by simpa [encList] using hn
    subst h0
    rw [show (encList g []).take 0 = [] from rfl, parseMulti_nil]
    constructor
    · intro h; cases h; exact .here _
    · intro h; rw [h.zero]
  | i :: is, hw, n, xs, hn => by
    obtain ⟨hi, hw⟩ := hw
    have h4 := enc_length_pos g i
    rw [encList] at hn ⊢
    rw [List.length_append] at hn
    by_cases hlong : (i.enc g).length ≤ n
    · obtain ⟨m, rfl⟩ : ∃ m, n = (i.enc g).length + m := ⟨n - (i.enc g).length, by omega⟩
      rw [List.take_length_add_append]
      have hp := parse_enc g i hi ((encList g is).take m)
      have ih := fun ys => cut_iff is hw m ys (by omega)
      have hne : i.enc g ++ (encList g is).take m ≠ [] := by
        intro h; have := congrArg List.length h; rw [List.length_append, List.length_nil] at this; omega
      rw [parseMulti_unfold g _ hne, hp, Res.ok_bind, marshalLen_eq, slice_tail _ _ (by simp), List.drop_left, Res.ok_bind]
      constructor
      · intro h
        obtain ⟨ys, hy, h⟩ := Res.bind_eq_ok.1 h
        cases h
        exact .next i ((ih ys).1 hy)
      · intro h
        generalize hk : (i.enc g).length + m = k at h
        cases h with
        | here => omega
        | bare _ _ =>
          -- the element has no payload, and nothing follows it
          obtain ⟨t, len, eid, p, cs⟩ := i
          obtain ⟨hl, _, hc⟩ := hi
          have hb : (if g t then encList g cs else p) = p := by
            by_cases hg : g t = true
            · rw [if_pos hg] at hc ⊢; exact hc.1.symm
            · rw [if_neg hg]
          have he : ((IE.mk t len eid p cs).enc g).length = hdrLen t + p.length := by
            simp only [IE.enc, hb, List.length_append, encHdr_length]
          rw [he] at hk
          replace hk : hdrLen t + p.length + m = hdrLen t := hk
          have hp0 : p = [] := List.length_eq_zero_iff.1 (by omega)
          have hm0 : m = 0 := by omega
          subst hp0 hm0
          have hc0 : cs = [] := by
            by_cases hg : g t = true
            · rw [if_pos hg] at hc
              cases cs with
              | nil => rfl
              | cons c cs =>
                have h1 := congrArg List.length hc.1
                have h2 := enc_length_pos g c
                rw [encList, List.length_append, List.length_nil] at h1
                omega
            · rw [if_neg hg] at hc; exact hc
          subst hc0
          rw [show (encList g is).take 0 = [] from List.take_zero, parseMulti_nil]
          rfl
        | next _ hc =>
          rename_i n' xs'
          have : n' = m := by omega
          subst this
          rw [(ih xs').2 hc]
          rfl
    · have htake : (i.enc g ++ encList g is).take n = (i.enc g).take n := List.take_append_of_le_length (by omega)
      rw [htake]
      by_cases h0 : n = 0
      · subst h0
        rw [List.take_zero, parseMulti_nil]
        constructor
        · intro h; cases h; exact .here _
        · intro h; rw [h.zero]
      · obtain ⟨t, len, eid, p, cs⟩ := i
        have hi' := hi
        obtain ⟨hl, hz, hc⟩ := hi
        have hb : (if g t then encList g cs else p) = p := by
          by_cases hg : g t = true
          · rw [if_pos hg] at hc ⊢; exact hc.1.symm
          · rw [if_neg hg]
        have he : (IE.mk t len eid p cs).enc g = encHdr t len eid ++ p := by simp only [IE.enc, hb]
        have hel : ((IE.mk t len eid p cs).enc g).length = hdrLen t + p.length := by
          rw [he, List.length_append, encHdr_length]
        by_cases hh : n = hdrLen t
        · have ht : ((IE.mk t len eid p cs).enc g).take n = encHdr t len eid := by
            rw [he, hh, List.take_left' (by simp)]
          have hpb := parse_bare g t len eid (by intro hv; rw [if_pos hv] at hl; omega)
          have heid : (if isVendor t then eid else 0) = eid := by
            cases hv : isVendor t
            · rw [hz hv]; rfl
            · rfl
          rw [heid] at hpb
          have hpm : parseMulti g (encHdr t len eid) = .ok [⟨t, len, eid, [], []⟩] := by
            refine parseMulti_step (rest := []) ?_ hpb (parseMulti_nil g)
            have := enc_grouped g t len eid [] [] (by split <;> simp [encList])
            rw [heid] at this
            rw [this]
            simp
          rw [ht, hpm]
          constructor
          · intro h; cases h; rw [hh]; exact .bare ⟨t, len, eid, p, cs⟩ is
          · intro h
            generalize hk : n = k at h
            cases h with
            | here => omega
            | bare => rfl
            | next _ _ => omega
        · -- neither at the start nor behind the header: refused
          have hlen : (((IE.mk t len eid p cs).enc g).take n).length = n := by rw [List.length_take]; omega
          have herr : ∃ e, parse g (((IE.mk t len eid p cs).enc g).take n) = .err e := by
            by_cases hn4 : n < 4
            · exact ⟨_, C09_short_header g _ (by omega)⟩
            · have ha := encHdr_append t len eid p
              have e1 : (((IE.mk t len eid p cs).enc g).take n).take 2 = be16 t := by
                rw [List.take_take, Nat.min_eq_left (by omega), he, ha.1]
              have e2 : ((((IE.mk t len eid p cs).enc g).take n).drop 2).take 2 = be16 len := by
                rw [List.drop_take, List.take_take, Nat.min_eq_left (by omega), he, ha.2.1]
              apply C09_truncated_partial g _ (by omega)
              · rw [hlen, e2, dec16_be16, hl]
                unfold hdrLen at hel
                split at hel <;> simp_all <;> omega
              · rw [hlen, e1, dec16_be16]
                exact hh
          obtain ⟨e, herr⟩ := herr
          have hne : ((IE.mk t len eid p cs).enc g).take n ≠ [] := by
            intro h; rw [h] at hlen; simp at hlen; omega
          rw [parseMulti_unfold g _ hne, herr]
          constructor
          · intro h; cases h
          · intro h
            generalize hk : n = k at h
            cases h with
            | here => omega
            | bare => exact absurd hk hh
            | next _ _ => omega

namespace Header

/-- A header cut behind its fixed part is the same header with a shorter payload. -/
theorem parse_take (h : Header) (hw : h.WF) (n : Nat) (hn : n ≤ h.enc.length) :
    (n < fixedLen h.flags → ∃ e, parse (h.enc.take n) = .err e) ∧
    (fixedLen h.flags ≤ n → parse (h.enc.take n) = .ok { h with payload := h.payload.take (n - fixedLen h.flags) }) := by
  have he : ({ h with payload := [] } : Header).enc ++ h.payload = h.enc := by
    unfold enc
    simp
  have hl : ({ h with payload := [] } : Header).enc.length = fixedLen h.flags := by
    rw [enc_length]; rfl
  constructor
  · intro hlt
    have hlen : (h.enc.take n).length = n := by rw [List.length_take]; omega
    cases hp : parse (h.enc.take n) with
    | err e => exact ⟨e, rfl⟩
    | panic => exact absurd hp (C15_header_total_lossless _).1
    | ok h' =>
      obtain ⟨f, rest, h1, h2⟩ := (C15_header_accepts _).1 ⟨h', hp⟩
      have hf : h.flags = f := by
        have h3 : (h.enc.take n).head? = some f := by rw [h1]; rfl
        have h4 : h.enc.head? = some h.flags := rfl
        have h5 : n ≠ 0 := by intro h0; rw [h0, List.take_zero] at h3; cases h3
        rw [List.head?_take, if_neg h5, h4] at h3
        cases h3; rfl
      rw [hlen, ← hf] at h2
      omega
  · intro hge
    have : h.enc.take n = ({ h with payload := [] } : Header).enc ++ h.payload.take (n - fixedLen h.flags) := by
      rw [← he, List.take_append, hl, List.take_of_length_le (by omega)]
    have hp := parse_append _ (h.payload.take (n - fixedLen h.flags)) _ (parse_enc { h with payload := [] } ⟨hw.1, hw.2⟩)
    rw [this]
    exact hp

end Header

namespace Msg

/-- C84, exactly. Of a well-formed message the first `n` octets are accepted if they hold the header and no more than one octet
behind it, or if they end between two elements or behind the header of an element; they are then decoded to the elements that
arrived, the last of them without its payload if only its header arrived. -/
theorem C84_exact (m : Msg) (h : m.WF g) (n : Nat) (hn : n ≤ (m.wire g).length) (m' : Msg) :
    parse g ((m.wire g).take n) = .ok m' ↔
    ∃ k xs, n = Header.fixedLen m.header.flags + k ∧
      ((k = 1 ∧ xs = []) ∨ Cut g m.elements k xs) ∧
      m' = filed m.kind { m.wireHeader g with payload := (m.body g).take k } xs := by
  have hw : (m.wireHeader g).WF := ⟨h.seq, h.seid⟩
  have hl := wire_length g m
  obtain ⟨t1, t2⟩ := Header.parse_take (m.wireHeader g) hw n hn
  have hfl : Header.fixedLen (m.wireHeader g).flags = Header.fixedLen m.header.flags := rfl
  rw [hfl] at t1 t2
  rw [parse_normal]
  show (Header.parse ((m.wireHeader g).enc.take n) >>= _) = _ ↔ _
  by_cases hlt : n < Header.fixedLen m.header.flags
  · obtain ⟨e, he⟩ := t1 hlt
    rw [he]
    constructor
    · intro h; cases h
    · rintro ⟨k, _, hk, _⟩; omega
  · obtain ⟨k, rfl⟩ : ∃ k, n = Header.fixedLen m.header.flags + k := ⟨n - Header.fixedLen m.header.flags, by omega⟩
    have hpay : (m.wireHeader g).payload = encList g m.elements := rfl
    rw [t2 (by omega), Res.ok_bind, Nat.add_sub_cancel_left, hpay]
    have hk : kindOf (m.wireHeader g).typ = m.kind := h.kindOf
    have hbl : k ≤ (encList g m.elements).length := by
      have : (m.body g).length = (encList g m.elements).length := rfl
      omega
    have hpl : ((encList g m.elements).take k).length = k := by rw [List.length_take]; omega
    simp only [hk, hpl]
    have fin : ∀ xs ys : List IE, (∃ k' zs, Header.fixedLen m.header.flags + k = Header.fixedLen m.header.flags + k' ∧
        ((k' = 1 ∧ zs = []) ∨ Cut g m.elements k' zs) ∧
        m' = filed m.kind { m.wireHeader g with payload := (m.body g).take k' } zs) ↔
        ∃ zs, ((k = 1 ∧ zs = []) ∨ Cut g m.elements k zs) ∧
        m' = filed m.kind { m.wireHeader g with payload := (m.body g).take k } zs := by
      intro _ _
      constructor
      · rintro ⟨k', zs, h1, h2⟩
        have : k' = k := by omega
        subst this
        exact ⟨zs, h2⟩
      · rintro ⟨zs, h2⟩
        exact ⟨k, zs, rfl, h2⟩
    rw [fin [] []]
    by_cases h2 : k < 2
    · rw [if_pos h2]
      constructor
      · intro hm
        cases hm
        refine ⟨[], ?_, rfl⟩
        by_cases h1 : k = 1
        · exact Or.inl ⟨h1, rfl⟩
        · have : k = 0 := by omega
          subst this
          exact Or.inr (.here _)
      · rintro ⟨zs, hz, rfl⟩
        have : zs = [] := by
          rcases hz with hz | hz
          · exact hz.2
          · have hk' : k = 0 ∨ k = 1 := by omega
            rcases hk' with rfl | rfl
            · exact hz.zero
            · exact hz.one
        rw [this]
        rfl
    · rw [if_neg h2]
      constructor
      · intro hm
        obtain ⟨xs, hx, hm⟩ := Res.bind_eq_ok.1 hm
        cases hm
        exact ⟨xs, Or.inr ((cut_iff g _ h.elems k xs hbl).1 hx), rfl⟩
      · rintro ⟨zs, hz | hz, rfl⟩
        · omega
        · rw [(cut_iff g _ h.elems k zs hbl).2 hz, Res.ok_bind]
          rfl

/-- C84. Everything else is refused with an error. -/
theorem C84_refused (m : Msg) (h : m.WF g) (n : Nat) (hn : n ≤ (m.wire g).length) :
    (∃ e, parse g ((m.wire g).take n) = .err e) ↔
    ∀ k, n = Header.fixedLen m.header.flags + k → k ≠ 1 ∧ ¬ ∃ xs, Cut g m.elements k xs := by
  have hx := fun m' => C84_exact g m h n hn m'
  constructor
  · rintro ⟨e, he⟩ k rfl
    have no : ∀ m', parse g ((m.wire g).take (Header.fixedLen m.header.flags + k)) ≠ .ok m' := by
      intro m' hm; rw [he] at hm; cases hm
    refine ⟨fun h1 => no _ ((hx _).2 ⟨k, [], rfl, Or.inl ⟨h1, rfl⟩, rfl⟩), fun ⟨xs, hc⟩ => ?_⟩
    exact no _ ((hx _).2 ⟨k, xs, rfl, Or.inr hc, rfl⟩)
  · intro hk
    cases hp : parse g ((m.wire g).take n) with
    | err e => exact ⟨e, rfl⟩
    | panic => exact absurd hp (C18_parse_total g _)
    | ok m' =>
      obtain ⟨k, xs, h1, h2, _⟩ := (hx m').1 hp
      rcases h2 with ⟨h2, _⟩ | h2
      · exact absurd h2 (hk k h1).1
      · exact absurd ⟨xs, h2⟩ (hk k h1).2

/-- C84 is false: whatever the message, it may lose all its elements on the way without anyone noticing. -/
theorem C84_violated (m : Msg) (h : m.WF g) :
    parse g ((m.wire g).take (Header.fixedLen m.header.flags)) = .ok (filed m.kind { m.wireHeader g with payload := [] } []) := by
  have := (C84_exact g m h (Header.fixedLen m.header.flags) (by rw [wire_length]; omega) _).2
    ⟨0, [], rfl, Or.inr (.here _), rfl⟩
  rwa [List.take_zero] at this

/-- C84. The length in the header tells: a message that was cut announces more than arrived. So a receiver that compares the two
refuses every message cut short. -/
theorem C84_detected (m : Msg) (h : m.WF g) (hlen : (m.wire g).length < 65540) (n : Nat) (hn : n < (m.wire g).length) (m' : Msg)
    (hp : parse g ((m.wire g).take n) = .ok m') : n < m'.header.length.toNat + 4 := by
  obtain ⟨k, xs, hk, _, rfl⟩ := (C84_exact g m h n (by omega) m').1 hp
  have hl := wire_length g m
  show n < (UInt16.ofNat (Header.fixedLen m.header.flags + (m.body g).length - 4)).toNat + 4
  have : 8 ≤ Header.fixedLen m.header.flags := by unfold Header.fixedLen; split <;> omega
  rw [UInt16.toNat_ofNat', Nat.mod_eq_of_lt (by omega)]
  omega

/-- ... and one that was not cut is not refused by the comparison. -/
theorem C84_whole (m : Msg) (h : m.WF g) (hlen : (m.wire g).length < 65540) :
    ∃ m', parse g (m.wire g) = .ok m' ∧ (m.wire g).length = m'.header.length.toNat + 4 := by
  obtain ⟨b, hb, hp⟩ := C20_message_roundtrip g m h
  rw [marshal_ok g m h.shaped h.noNil] at hb
  cases hb
  refine ⟨_, hp, ?_⟩
  have hl := wire_length g m
  show _ = (UInt16.ofNat (Header.fixedLen m.header.flags + (m.body g).length - 4)).toNat + 4
  have : 8 ≤ Header.fixedLen m.header.flags := by unfold Header.fixedLen; split <;> omega
  rw [UInt16.toNat_ofNat', Nat.mod_eq_of_lt (by omega)]
  omega

/-- A session establishment request of two elements: cut behind the first one, and inside the second. -/
example : ∃ m : Msg, m.WF (fun _ => false) ∧ (m.wire (fun _ => false)).length = 16 + 9 + 6 ∧
    Cut (fun _ => false) m.elements 9 [⟨60, 5, 0, [0, 127, 0, 0, 1], []⟩] ∧
    Cut (fun _ => false) m.elements 13 [⟨60, 5, 0, [0, 127, 0, 0, 1], []⟩, ⟨56, 2, 0, [], []⟩] ∧
    ∃ e, parse (fun _ => false) ((m.wire (fun _ => false)).take 22) = .err e := by
  refine ⟨filed .sessionEstablishmentRequest ⟨0x21, 50, 0, 7, 9, 0, []⟩
    [⟨60, 5, 0, [0, 127, 0, 0, 1], []⟩, ⟨56, 2, 0, [0, 1], []⟩], ?_, ?_, ?_, ?_, ?_⟩
  · apply filed_WF (h := ⟨0x21, 50, 0, 7, 9, 0, []⟩)
    · exact ⟨by decide, by decide⟩
    · rw [WFList_iff]
      simp [IE.WF]
      decide
  · rfl
  · exact .next ⟨60, 5, 0, [0, 127, 0, 0, 1], []⟩ (.here _)
  · exact .next ⟨60, 5, 0, [0, 127, 0, 0, 1], []⟩ (.bare ⟨56, 2, 0, [0, 1], []⟩ _)
  · exact ⟨_, rfl⟩

end Msg
end Pfcp
