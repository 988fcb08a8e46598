/-
Exact versions of the element properties that do not hold for all inputs: not only where they hold
and one input where they fail, but precisely when.
-/
import Verif.IE.Nested

namespace Pfcp

variable (g : IEType → Bool)

/-! ### C05 buffers that are too short -/

/-- Memory behind a slice: the visible part and the spare capacity. -/
theorem overwrite_mem (s : Slice) (lo : Nat) (bs : Bytes) (h : lo + bs.length ≤ s.cap) :
    (s.overwrite lo bs).data ++ (s.overwrite lo bs).spare =
      (s.data ++ s.spare).take lo ++ bs ++ (s.data ++ s.spare).drop (lo + bs.length) ∧
    (s.overwrite lo bs).data.length = s.data.length ∧ (s.overwrite lo bs).cap = s.cap := by
  have hl : ((s.data ++ s.spare).take lo ++ bs ++ (s.data ++ s.spare).drop (lo + bs.length)).length =
      s.data.length + s.spare.length := by
    simp only [List.length_append, List.length_take, List.length_drop]
    unfold Slice.cap at h
    omega
  refine ⟨by simp [Slice.overwrite], ?_, ?_⟩
  · simp only [Slice.overwrite, List.length_take, hl]; omega
  · simp only [Slice.overwrite, Slice.cap, List.length_take, List.length_drop, hl]; omega

theorem putAt_ok {s r : Slice} {lo hi : Nat} {bs : Bytes} (h : s.putAt lo hi bs = .ok r) :
    r = s.overwrite lo bs ∧ lo + bs.length ≤ s.cap := by
  unfold Slice.putAt at h
  split at h
  · rename_i hc
    simp only [Res.ok.injEq] at h
    exact ⟨h.symm, by omega⟩
  · cases h

theorem copyAt_ok {s r : Slice} {lo hi : Nat} {bs : Bytes} (h : s.copyAt lo hi bs = .ok r) :
    r = s.overwrite lo (bs.take (hi - lo)) ∧ hi ≤ s.cap ∧ lo ≤ hi := by
  unfold Slice.copyAt at h
  split at h
  · rename_i hc
    simp only [Res.ok.injEq] at h
    exact ⟨h.symm, hc.2, hc.1⟩
  · cases h

/-- Two header fields written at the front. -/
theorem hdr_mem (b b1 b2 : Slice) (t len : UInt16) (h1 : b.putAt 0 2 (be16 t) = .ok b1)
    (h2 : b1.putAt 2 4 (be16 len) = .ok b2) :
    b2.data ++ b2.spare = be16 t ++ be16 len ++ (b.data ++ b.spare).drop 4 ∧
      b2.data.length = b.data.length ∧ b2.cap = b.cap := by
  obtain ⟨e1, c1⟩ := putAt_ok h1
  obtain ⟨e2, c2⟩ := putAt_ok h2
  obtain ⟨m1, l1, k1⟩ := overwrite_mem b 0 _ c1
  obtain ⟨m2, l2, k2⟩ := overwrite_mem b1 2 _ c2
  rw [← e1] at m1 l1 k1
  rw [← e2] at m2 l2 k2
  refine ⟨?_, by omega, by omega⟩
  rw [m2, m1]
  generalize b.data ++ b.spare = m
  have hd : List.drop 4 (be16 t ++ List.drop 2 m) = List.drop 4 m := by
    rw [show 4 = 2 + 2 from rfl, splice_drop (be16 t) _ 2 2 (by simp), List.drop_drop]
  simp only [List.take_zero, List.nil_append, Nat.zero_add, be16_length]
  rw [hd, List.take_left' (by simp)]

theorem hdr_take (t len : UInt16) (m : Bytes) : (be16 t ++ be16 len ++ m).take 4 = be16 t ++ be16 len :=
  List.take_left' (by simp)

theorem hdr_drop (t len : UInt16) (m : Bytes) (n : Nat) :
    (be16 t ++ be16 len ++ m.drop 4).drop (4 + n) = m.drop (4 + n) := by
  rw [splice_drop (be16 t ++ be16 len) _ 4 n (by simp), List.drop_drop]

mutual
theorem marshalTo_mem : (i : IE) → (∀ t ∈ i.types, isVendor t = false) → (b r : Slice) →
    i.marshalTo g b = .ok r →
    (i.enc g).length ≤ b.cap ∧ r.data.length = b.data.length ∧
    r.data ++ r.spare = i.enc g ++ (b.data ++ b.spare).drop (i.enc g).length
  | ⟨t, len, eid, p, cs⟩, hv, b, r, h => by
    have hvt : isVendor t = false := hv t (by simp [IE.types])
    have hml := marshalLen_eq g ⟨t, len, eid, p, cs⟩
    simp only [IE.marshalTo] at h
    split at h
    · cases h
    rename_i h4
    have h4' : 4 ≤ b.data.length := by simp only [Slice.len] at h4; omega
    obtain ⟨b1, hb1, h⟩ := Res.bind_eq_ok.1 h
    obtain ⟨b2, hb2, h⟩ := Res.bind_eq_ok.1 h
    obtain ⟨m2, l2, k2⟩ := hdr_mem b b1 b2 t len hb1 hb2
    simp only [hvt, Bool.false_and, Bool.false_eq_true, if_false, Res.pure_eq, Res.ok_bind] at h
    have henc : IE.enc g ⟨t, len, eid, p, cs⟩ =
        be16 t ++ be16 len ++ (if g t then encList g cs else p) := by
      simp [IE.enc, encHdr, hvt]
    have hcap : b.cap = (b.data ++ b.spare).length := by simp [Slice.cap]
    cases hg : g t with
    | true =>
      simp only [hg, if_true] at h
      have hv' : ∀ t ∈ typesList cs, isVendor t = false := fun u hu => hv u (by simp [IE.types, hu])
      obtain ⟨q1, q2, q3⟩ := marshalChildren_mem cs hv' b2 r 4 (by omega) h
      rw [henc]
      simp only [hg, if_true, List.length_append, be16_length]
      refine ⟨by omega, by omega, ?_⟩
      rw [q3, m2]
      rw [hdr_take, hdr_drop, show 2 + 2 + (encList g cs).length = 4 + (encList g cs).length by omega]
    | false =>
      simp only [hg, Bool.false_eq_true, if_false] at h
      have henc' : IE.enc g ⟨t, len, eid, p, cs⟩ = be16 t ++ be16 len ++ p := by
        rw [henc]; simp [hg]
      rw [hml, henc'] at h
      obtain ⟨e, c, _⟩ := copyAt_ok h
      have hcut : p.take ((be16 t ++ be16 len ++ p).length - 4) = p := by
        apply List.take_of_length_le
        simp; omega
      rw [hcut] at e
      have hlen : (be16 t ++ be16 len ++ p).length = 4 + p.length := by simp; omega
      rw [hlen] at c
      obtain ⟨m3, l3, k3⟩ := overwrite_mem b2 4 p (by omega)
      rw [← e] at m3 l3 k3
      rw [henc', hlen]
      refine ⟨by omega, by omega, ?_⟩
      rw [m3, m2]
      rw [hdr_take, hdr_drop]
theorem marshalChildren_mem : (cs : List IE) → (∀ t ∈ typesList cs, isVendor t = false) →
    (b r : Slice) → (off : Nat) → off ≤ b.data.length → marshalChildren g cs b off = .ok r →
    off + (encList g cs).length ≤ b.cap ∧ r.data.length = b.data.length ∧
    r.data ++ r.spare =
      (b.data ++ b.spare).take off ++ encList g cs ++ (b.data ++ b.spare).drop (off + (encList g cs).length)
  | [], _, b, r, off, ho, h => by
    simp only [marshalChildren, Res.ok.injEq] at h
    subst h
    refine ⟨by simp [encList, Slice.cap]; omega, rfl, ?_⟩
    simp only [encList, List.append_nil, List.length_nil, Nat.add_zero, List.take_append_drop]
  | c :: cs, hv, b, r, off, ho, h => by
    simp only [marshalChildren, ho, if_true] at h
    obtain ⟨v, h1, h2⟩ := Res.bind_eq_ok.1 h
    have hvc : ∀ t ∈ c.types, isVendor t = false := fun u hu => hv u (by simp [typesList, hu])
    have hvs : ∀ t ∈ typesList cs, isVendor t = false := fun u hu => hv u (by simp [typesList, hu])
    obtain ⟨p1, p2, p3⟩ := marshalTo_mem c hvc _ v h1
    rw [marshalLen_eq] at h2
    simp only [List.length_drop, Slice.cap] at p1 p2 p3
    have hl2 : (b.data.take off ++ v.data).length = b.data.length := by
      simp only [List.length_append, List.length_take]; omega
    have hvs2 : v.data.length + v.spare.length = b.data.length - off + b.spare.length := by
      have := congrArg List.length p3
      simp only [List.length_append, List.length_drop] at this
      omega
    by_cases hoff : off + (c.enc g).length ≤ b.data.length
    · obtain ⟨q1, q2, q3⟩ := marshalChildren_mem cs hvs _ r _ (by rw [hl2]; exact hoff) h2
      simp only [Slice.cap, hl2] at q1 q2 q3
      simp only [encList, List.length_append, Slice.cap]
      refine ⟨by omega, by omega, ?_⟩
      rw [q3]
      have hmem : b.data.take off ++ v.data ++ v.spare =
          b.data.take off ++ (c.enc g ++ (b.data.drop off ++ b.spare).drop (c.enc g).length) := by
        rw [List.append_assoc, p3]
      have htl : (b.data.take off).length = off := by simp; omega
      have htk : (b.data ++ b.spare).take off = b.data.take off := by
        rw [List.take_append_of_le_length ho]
      have hdr : (b.data ++ b.spare).drop off = b.data.drop off ++ b.spare := by
        rw [List.drop_append_of_le_length ho]
      rw [hmem, htk]
      have hT : (b.data.take off ++ (c.enc g ++ (b.data.drop off ++ b.spare).drop (c.enc g).length)).take
          (off + (c.enc g).length) = b.data.take off ++ c.enc g := by
        rw [← List.append_assoc]
        apply List.take_left'
        simp only [List.length_append, htl]
      have hD : (b.data.take off ++ (c.enc g ++ (b.data.drop off ++ b.spare).drop (c.enc g).length)).drop
          (off + (c.enc g).length + (encList g cs).length) =
          (b.data ++ b.spare).drop (off + ((c.enc g).length + (encList g cs).length)) := by
        rw [← List.append_assoc, splice_drop (b.data.take off ++ c.enc g) _ (off + (c.enc g).length) _
          (by simp only [List.length_append, htl]), ← hdr, List.drop_drop, List.drop_drop]
      rw [hT, hD]
      simp only [List.append_assoc]
    · cases cs with
      | nil =>
        simp only [marshalChildren, Res.ok.injEq] at h2
        subst h2
        simp only [encList, List.append_nil, Slice.cap, hl2]
        refine ⟨by omega, trivial, ?_⟩
        rw [List.append_assoc, p3, List.take_append_of_le_length ho, List.append_assoc]
        congr 2
        rw [← List.drop_append_of_le_length ho, List.drop_drop]
      | cons d ds =>
        have hn : ¬ (off + (c.enc g).length ≤ (b.data.take off ++ v.data).length) := by
          rw [hl2]; exact hoff
        simp only [marshalChildren, hn, if_false] at h2
        cases h2
end

/-- C05, exact for short buffers: without vendor-specific elements, whenever `MarshalTo` reports
success the whole encoding is in memory, the part that does not fit into the buffer in the spare
capacity behind it; so success with a buffer that is too short always is an overrun. -/
theorem C05_success (i : IE) (hv : ∀ t ∈ i.types, isVendor t = false) (buf r : Slice)
    (h : i.marshalTo g buf = .ok r) :
    ∃ b, i.marshal g = .ok b ∧ b.length = i.marshalLen g ∧ b.length ≤ buf.cap ∧
      r.data.length = buf.data.length ∧
      r.data ++ r.spare = b ++ (buf.data ++ buf.spare).drop b.length := by
  obtain ⟨h1, h2, h3⟩ := marshalTo_mem g i hv buf r h
  exact ⟨i.enc g, marshal_eq g i, (marshalLen_eq g i).symm, h1, h2, h3⟩

/-- C05, exact for plain elements in buffers that are too short: an error below four bytes, an
overrun if the capacity allows it, otherwise a panic. -/
theorem C05_short_exact (i : IE) (hg : g i.typ = false) (hv : isVendor i.typ = false) (buf : Slice)
    (hs : buf.len < i.marshalLen g) :
    (i.marshalTo g buf = .err .invalidLength ↔ buf.len < 4) ∧
    ((∃ r, i.marshalTo g buf = .ok r) ↔ 4 ≤ buf.len ∧ i.marshalLen g ≤ buf.cap) ∧
    (i.marshalTo g buf = .panic ↔ 4 ≤ buf.len ∧ buf.cap < i.marshalLen g) := by
  cases i with
  | mk t len eid p cs =>
    simp only at hg hv
    have hml : IE.marshalLen g ⟨t, len, eid, p, cs⟩ = 4 + p.length := by
      simp [IE.marshalLen, hg, hv]
    by_cases h4 : buf.len < 4
    · have : IE.marshalTo g ⟨t, len, eid, p, cs⟩ buf = .err .invalidLength := by
        simp [IE.marshalTo, h4]
      simp [this, h4]; omega
    · have hlen : 4 ≤ buf.data.length := by simp only [Slice.len] at h4; omega
      have key : IE.marshalTo g ⟨t, len, eid, p, cs⟩ buf =
          if 4 + p.length ≤ buf.cap then
            .ok ((Slice.mk (be16 t ++ be16 len ++ buf.data.drop 4) buf.spare).overwrite 4 p)
          else .panic := by
        simp only [IE.marshalTo]
        rw [if_neg h4, Slice.putAt_inside _ 0 2 _ (by omega) (by omega) (by simp)]
        simp only [Res.ok_bind]
        rw [Slice.putAt_inside _ 2 4 _ (by omega) (by simp; omega) (by simp)]
        simp only [Res.ok_bind]
        have e2 : ((List.take 2 (List.take 0 buf.data ++ be16 t ++ List.drop 2 buf.data)) ++ be16 len ++
            List.drop 4 (List.take 0 buf.data ++ be16 t ++ List.drop 2 buf.data))
            = be16 t ++ be16 len ++ buf.data.drop 4 := by
          simp [List.drop_append, List.drop_drop]
        rw [e2]
        simp only [hv, hg, Bool.false_and, Bool.false_eq_true, if_false, Res.pure_eq, Res.ok_bind, hml,
          Slice.copyAt]
        have hc : (Slice.mk (be16 t ++ be16 len ++ List.drop 4 buf.data) buf.spare).cap = buf.cap := by
          simp [Slice.cap]; omega
        rw [hc]
        have ht : p.take (4 + p.length - 4) = p := List.take_of_length_le (by omega)
        rw [ht]
        by_cases hcap : 4 + p.length ≤ buf.cap
        · rw [if_pos ⟨by omega, hcap⟩, if_pos hcap]
        · rw [if_neg (fun h => hcap h.2), if_neg hcap]
      rw [key, hml]
      by_cases hcap : 4 + p.length ≤ buf.cap
      · simp [hcap]; omega
      · simp [hcap]; omega

example : (IE.mk 9 2 0 [7, 8] []).marshalTo (fun _ => false) ⟨[0, 0, 0, 0, 0], [1, 1]⟩
    = .ok ⟨[0, 9, 0, 2, 7], [8, 1]⟩ := by decide

/-! ### C08 nil arguments -/

/-- C08, exact: `Add` panics precisely when the element is grouped and an argument is nil. -/
theorem C08_add_panics (i : IE) (ies : List (Option IE)) :
    i.add g ies = .panic ↔ g i.typ = true ∧ none ∈ ies := by
  have hd : ∀ l : List (Option IE), (none ∈ l ∧ derefAll l = .panic) ∨
      (none ∉ l ∧ ∃ r, derefAll l = .ok r) := by
    intro l
    induction l with
    | nil => exact .inr ⟨by simp, [], rfl⟩
    | cons x xs ih =>
      cases x with
      | none => exact .inl ⟨by simp, rfl⟩
      | some c =>
        rcases ih with ⟨h1, h2⟩ | ⟨h1, r, h2⟩
        · exact .inl ⟨by simp [h1], by simp [derefAll, h2]⟩
        · exact .inr ⟨by simp [h1], c :: r, by simp [derefAll, h2]⟩
  cases hg : g i.typ with
  | false => simp [IE.add, hg]
  | true =>
    rcases hd ies with ⟨h1, h2⟩ | ⟨h1, r, h2⟩
    · simp [IE.add, hg, h1, h2]
    · simp [IE.add, hg, h1, h2, serializeLoop_eq]

example : IE.add (fun _ => true) ⟨1, 0, 0, [], []⟩ [some ⟨2, 0, 0, [], []⟩, none] = .panic := by decide

/-! ### C09 truncated elements -/

/-- C09, exact: an element announcing more bytes than are left is accepted precisely when the input
ends with the element's header (and the length field of a vendor type covers the enterprise id). -/
theorem C09_truncated_exact (b : Bytes) (h4 : 4 ≤ b.length)
    (hdecl : b.length < 4 + (dec16 ((b.drop 2).take 2)).toNat) :
    (∃ i, parse g b = .ok i) ↔ b.length = hdrLen (dec16 (b.take 2)) := by
  constructor
  · rintro ⟨i, h⟩
    apply Classical.byContradiction
    intro hne
    obtain ⟨e, he⟩ := C09_truncated_partial g b h4 hdecl hne
    rw [h] at he
    cases he
  · intro h
    rw [parse_unfold, parseBody_eq, if_neg (by omega)]
    dsimp only
    have h6 : ¬ (isVendor (dec16 (b.take 2)) = true ∧ b.length < 6) := by
      rintro ⟨hv, hl⟩; simp [hdrLen, hv] at h; omega
    have h2 : ¬ (isVendor (dec16 (b.take 2)) = true ∧ (dec16 ((b.drop 2).take 2)).toNat < 2) := by
      rintro ⟨hv, hl⟩; simp [hdrLen, hv] at h; omega
    rw [if_neg h6, if_neg h2, if_pos (by omega)]
    exact ⟨_, rfl⟩

example : (∃ i, parse (fun _ => false) [0x80, 1, 0, 3, 0, 10] = .ok i) ∧
    ¬ ∃ i, parse (fun _ => false) [0x80, 1, 0, 3, 0] = .ok i := by
  constructor
  · exact ⟨⟨0x8001, 3, 10, [], []⟩, by decide⟩
  · rintro ⟨i, h⟩
    have : parse (fun _ => false) [0x80, 1, 0, 3, 0] = .err .unexpectedEOF := by decide
    rw [this] at h
    cases h

/-! ### C10 length field -/

/-- A decoded payload is never longer than its length field says. -/
theorem parse_payload_le_length {b : Bytes} {i : IE} (h : parse g b = .ok i) :
    i.payload = [] ∨ (if isVendor i.typ then 2 else 0) + i.payload.length ≤ i.length.toNat := by
  rw [parse_unfold, parseBody_eq] at h
  split at h
  · cases h
  dsimp only at h
  split at h
  · cases h
  split at h
  · cases h
  rename_i h2
  split at h
  · simp only [Res.ok.injEq] at h; subst h; exact .inl rfl
  split at h
  · cases h
  right
  have key : ∀ cs e, i = ⟨dec16 (b.take 2), dec16 ((b.drop 2).take 2), e,
      (b.drop (hdrLen (dec16 (b.take 2)))).take
        ((dec16 ((b.drop 2).take 2)).toNat - (hdrLen (dec16 (b.take 2)) - 4)), cs⟩ →
      (if isVendor i.typ then 2 else 0) + i.payload.length ≤ i.length.toNat := by
    intro cs e hi
    subst hi
    simp only [List.length_take]
    unfold hdrLen
    by_cases hv : isVendor (dec16 (b.take 2)) = true
    · have h3 : ¬ (dec16 ((b.drop 2).take 2)).toNat < 2 := fun hh => h2 ⟨hv, hh⟩
      simp only [hv, if_true]
      omega
    · simp only [hv, Bool.false_eq_true, if_false]
      omega
  split at h
  · obtain ⟨cs, _, hc⟩ := Res.bind_eq_ok.1 h
    simp only [Res.ok.injEq] at hc
    exact key cs _ hc.symm
  · simp only [Res.ok.injEq] at h
    exact key [] _ h.symm

/-- C10, exact: an element whose length was set by `SetLength` is decoded back to itself precisely
when its size fits into 16 bits. -/
theorem C10_exact (t : IEType) (eid : UInt16) (p : Bytes) (cs : List IE)
    (he : isVendor t = false → eid = 0) (hc : if g t then p = encList g cs ∧ WFList g cs else cs = []) :
    ∃ b, (IE.setLength ⟨t, 0, eid, p, cs⟩).marshal g = .ok b ∧
      (parse g b = .ok (IE.setLength ⟨t, 0, eid, p, cs⟩) ↔
        (if isVendor t then 2 else 0) + p.length ≤ 65535) := by
  refine ⟨_, marshal_eq g _, fun h => ?_, fun h => ?_⟩
  · rcases parse_payload_le_length g h with h1 | h1
    · simp only [IE.setLength] at h1
      rw [h1]
      simp only [List.length_nil]
      split <;> omega
    · have h1 : (if isVendor t = true then 2 else 0) + p.length ≤
        (UInt16.ofNat ((if isVendor t = true then 2 else 0) + p.length)).toNat := h1
      rw [UInt16.toNat_ofNat'] at h1
      generalize (if isVendor t = true then 2 else 0) = v at h1 ⊢
      have := Nat.mod_lt (v + p.length) (show 0 < 2 ^ 16 by decide)
      omega
  · rw [← List.append_nil (IE.enc g _)]
    apply parse_enc
    refine ⟨?_, he, hc⟩
    simp only [UInt16.toNat_ofNat']
    exact Nat.mod_eq_of_lt (by omega)

/-- C10, exact, for the plain and the vendor-specific constructor. -/
theorem C10_new_exact (t : IEType) (eid : UInt16) (data : Bytes) (hg : g t = false) :
    (isVendor t = false → ∃ b, (IE.new t data).marshal g = .ok b ∧
      (parse g b = .ok (IE.new t data) ↔ data.length ≤ 65535)) ∧
    (isVendor t = true → ∃ b, (IE.newVendor t eid data).marshal g = .ok b ∧
      (parse g b = .ok (IE.newVendor t eid data) ↔ data.length ≤ 65533)) := by
  constructor
  · intro hv
    have := C10_exact g t 0 data [] (fun _ => rfl) (by simp [hg])
    simpa [hv, IE.new] using this
  · intro hv
    obtain ⟨b, h1, h2⟩ := C10_exact g t eid data [] (fun h => by simp [hv] at h) (by simp [hg])
    refine ⟨b, h1, h2.trans ?_⟩
    simp only [hv, if_true]
    omega

/-- C10, exact, for the constructor of grouped elements. -/
theorem C10_grouped_exact (t : IEType) (cs : List (Option IE)) (hg : g t = true)
    (hv : isVendor t = false) (hwf : ∀ c ∈ cs.filterMap id, c.WF g) :
    ∃ i b, newGroupedIE g t cs = .ok (some i) ∧ i.marshal g = .ok b ∧
      i.children = cs.filterMap id ∧ (parse g b = .ok i ↔ b.length ≤ 65539) := by
  have hw : WFList g (cs.filterMap id) := (WFList_mem g).2 hwf
  have hi : newGroupedIE g t cs = .ok (some (IE.setLength ⟨t, 0, 0, encList g (cs.filterMap id),
      cs.filterMap id⟩)) := by
    simp [newGroupedIE, newGrouped, newGroupedLoop_eq, IE.newVendor, IE.setLength]
  obtain ⟨b, h1, h2⟩ := C10_exact g t 0 (encList g (cs.filterMap id)) (cs.filterMap id)
    (fun _ => rfl) (by simp [hg, hw])
  refine ⟨_, b, hi, h1, rfl, h2.trans ?_⟩
  rw [marshal_eq, Res.ok.injEq] at h1
  have : b.length = 4 + (encList g (cs.filterMap id)).length := by
    rw [← h1]; simp [IE.setLength, IE.enc, encHdr, hg, hv]; omega
  simp only [hv, Bool.false_eq_true, if_false]
  omega

example : (IE.new 9 [7]).marshal (fun _ => false) = .ok [0, 9, 0, 1, 7] := by decide

/-! ### C13 configuration changes -/

mutual
/-- An element loses bytes when encoded under `g'` instead of `g`: somewhere below groups of both,
a type that was plain has become grouped and there is a payload. -/
def IE.loses (g g' : IEType → Bool) : IE → Bool
  | ⟨t, _, _, p, cs⟩ => g' t && (if g t then losesList g g' cs else !p.isEmpty)
def losesList (g g' : IEType → Bool) : List IE → Bool
  | [] => false
  | c :: cs => c.loses g g' || losesList g g' cs
end

mutual
theorem loses_length (g g' : IEType → Bool) : (i : IE) → i.Skel g →
    (i.loses g g' = true → (i.enc g').length < (i.enc g).length) ∧
    (i.loses g g' = false → i.enc g' = i.enc g)
  | ⟨t, len, eid, p, cs⟩, h => by
    obtain ⟨_, h⟩ := h
    simp only [IE.loses, IE.enc]
    cases hg : g t with
    | false =>
      simp only [hg, Bool.false_eq_true, if_false] at h ⊢
      subst h
      cases hg' : g' t with
      | false => simp
      | true =>
        cases p with
        | nil => simp [encList]
        | cons x xs => simp [encList]
    | true =>
      simp only [hg, if_true] at h ⊢
      cases hg' : g' t with
      | false => simp [h.1]
      | true =>
        obtain ⟨h1, h2⟩ := losesList_length g g' cs h.2
        simp only [Bool.true_and, if_true, List.length_append]
        exact ⟨fun hh => by have := h1 hh; omega, fun hh => by rw [h2 hh]⟩
theorem losesList_length (g g' : IEType → Bool) : (is : List IE) → SkelList g is →
    (losesList g g' is = true → (encList g' is).length < (encList g is).length) ∧
    (losesList g g' is = false → encList g' is = encList g is)
  | [], _ => by simp [losesList, encList]
  | c :: cs, h => by
    obtain ⟨a1, a2⟩ := loses_length g g' c h.1
    obtain ⟨b1, b2⟩ := losesList_length g g' cs h.2
    simp only [losesList, encList, List.length_append]
    cases hc : c.loses g g' with
    | true =>
      cases hcs : losesList g g' cs with
      | true => have := a1 hc; have := b1 hcs; simp; omega
      | false => have := a1 hc; have := b2 hcs; simp [this]; omega
    | false =>
      cases hcs : losesList g g' cs with
      | true => have := a2 hc; have := b1 hcs; simp [a2 hc]; omega
      | false => simp [a2 hc, b2 hcs]
end

/-- C13, exact: a decoded element is encoded to the same bytes under another configuration precisely
when no non-empty plain element among those written has become grouped. In particular, taking types
out of the grouped set never changes anything. -/
theorem C13_exact (g g' : IEType → Bool) (b : Bytes) (i : IE) (h : parse g b = .ok i) :
    i.marshal g' = i.marshal g ↔ i.loses g g' = false := by
  obtain ⟨h1, h2⟩ := loses_length g g' i (parse_Skel h)
  rw [marshal_eq, marshal_eq, Res.ok.injEq]
  constructor
  · intro he
    cases hl : i.loses g g' with
    | false => rfl
    | true => have := h1 hl; rw [he] at this; omega
  · exact h2

/-- C13. Bytes are only ever lost: the length never grows. -/
theorem C13_never_longer (g g' : IEType → Bool) (b : Bytes) (i : IE) (h : parse g b = .ok i) :
    ∃ b', i.marshal g' = .ok b' ∧ b'.length ≤ i.marshalLen g := by
  refine ⟨_, marshal_eq g' i, ?_⟩
  obtain ⟨h1, h2⟩ := loses_length g g' i (parse_Skel h)
  rw [marshalLen_eq]
  cases hl : i.loses g g' with
  | false => rw [h2 hl]; exact Nat.le_refl _
  | true => have := h1 hl; omega

/-- C13. Taking types out of the grouped set never changes an encoding. -/
theorem C13_ungroup (g g' : IEType → Bool) (hsub : ∀ t, g' t = true → g t = true) (b : Bytes) (i : IE)
    (h : parse g b = .ok i) : i.marshal g' = i.marshal g := by
  rw [C13_exact g g' b i h]
  have hno : ∀ N, (∀ i : IE, i.nodes ≤ N → i.loses g g' = false) ∧
      (∀ is : List IE, nodesList is ≤ N → losesList g g' is = false) := by
    intro N
    induction N using Nat.strongRecOn with
    | ind N ih =>
      have hI : ∀ i : IE, i.nodes ≤ N → i.loses g g' = false := by
        intro i hn
        cases i with
        | mk t l e p cs =>
          simp only [IE.loses]
          cases hg' : g' t with
          | false => simp
          | true =>
            simp only [IE.nodes] at hn
            have := (ih (N - 1) (by omega)).2 cs (by omega)
            simp [hsub t hg', this]
      refine ⟨hI, fun is => ?_⟩
      induction is with
      | nil => intro _; rfl
      | cons c cs ihc =>
        intro hn
        simp only [nodesList] at hn
        simp [losesList, hI c (by omega), ihc (by omega)]
  exact (hno i.nodes).1 i (Nat.le_refl _)

example : IE.loses (fun _ => false) (fun t => t == 1000) ⟨1000, 1, 0, [7], []⟩ = true := by decide
example : IE.loses (fun _ => true) (fun _ => false) ⟨1000, 4, 0, [0, 1, 0, 0], [⟨1, 0, 0, [], []⟩]⟩ = false := by decide

end Pfcp
