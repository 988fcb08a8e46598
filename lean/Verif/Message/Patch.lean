/- Property C89: values overwritten in place, in the octets of a message. -/
import Verif.Message.OrderProps
import Verif.IE.Nested

namespace Pfcp

variable (g : IEType → Bool)

mutual
/-- Which octets of an element are structure (true: header of the element or of an element inside it) and which are value. -/
def IE.mask : IE → List Bool
  | ⟨t, _, _, p, cs⟩ => List.replicate (hdrLen t) true ++ (if g t then maskList cs else List.replicate p.length false)
/-- The same of a sequence of elements. -/
def maskList : List IE → List Bool
  | [] => []
  | c :: cs => c.mask ++ maskList cs
end

mutual
/-- Two elements that differ in values only: the same types, lengths, enterprise ids and nesting, and values of the same lengths. -/
def IE.Like : IE → IE → Prop
  | ⟨t, len, eid, p, cs⟩, ⟨t', len', eid', p', cs'⟩ =>
    t = t' ∧ len = len' ∧ eid = eid' ∧ p.length = p'.length ∧ LikeList cs cs'
/-- The same of two sequences, element by element. -/
def LikeList : List IE → List IE → Prop
  | [], [] => True
  | c :: cs, c' :: cs' => c.Like c' ∧ LikeList cs cs'
  | _, _ => False
end

/-- The octets `b'` are as many as `b` and agree with them wherever the mask says so. -/
def Agree (mask : List Bool) (b b' : Bytes) : Prop :=
  b'.length = b.length ∧ ∀ k : Nat, mask[k]? = some true → b'[k]? = b[k]?

theorem Agree.split {m1 m2 : List Bool} {b1 b2 b' : Bytes} (hl : m1.length = b1.length) (h : Agree (m1 ++ m2) (b1 ++ b2) b') :
    ∃ b1' b2', b' = b1' ++ b2' ∧ Agree m1 b1 b1' ∧ Agree m2 b2 b2' := by
  obtain ⟨h1, h2⟩ := h
  rw [List.length_append] at h1
  refine ⟨b'.take b1.length, b'.drop b1.length, (List.take_append_drop _ _).symm, ⟨?_, ?_⟩, ⟨?_, ?_⟩⟩
  · rw [List.length_take]; omega
  · intro k hk
    have hlt : k < m1.length := by
      rcases Nat.lt_or_ge k m1.length with h | h
      · exact h
      · rw [List.getElem?_eq_none h] at hk; cases hk
    rw [List.getElem?_take_of_lt (by omega), h2 k (by rw [List.getElem?_append_left hlt]; exact hk),
      List.getElem?_append_left (by omega)]
  · rw [List.length_drop]; omega
  · intro k hk
    rw [List.getElem?_drop, h2 (b1.length + k), List.getElem?_append_right (by omega), Nat.add_sub_cancel_left]
    rw [List.getElem?_append_right (by omega), hl, Nat.add_sub_cancel_left]
    exact hk

theorem Agree.join {m1 m2 : List Bool} {b1 b2 b1' b2' : Bytes} (hl : m1.length = b1.length) (h1 : Agree m1 b1 b1')
    (h2 : Agree m2 b2 b2') : Agree (m1 ++ m2) (b1 ++ b2) (b1' ++ b2') := by
  refine ⟨by rw [List.length_append, List.length_append, h1.1, h2.1], fun k hk => ?_⟩
  rcases Nat.lt_or_ge k m1.length with h | h
  · rw [List.getElem?_append_left h] at hk
    rw [List.getElem?_append_left (by rw [h1.1]; omega), List.getElem?_append_left (by omega), h1.2 k hk]
  · rw [List.getElem?_append_right h] at hk
    rw [List.getElem?_append_right (by rw [h1.1]; omega), List.getElem?_append_right (by omega), h1.1, ← hl, h2.2 _ hk]

theorem Agree.all {n : Nat} {b b' : Bytes} (hl : n = b.length) : Agree (List.replicate n true) b b' ↔ b' = b := by
  constructor
  · rintro ⟨h1, h2⟩
    apply List.ext_getElem?
    intro k
    rcases Nat.lt_or_ge k n with h | h
    · exact h2 k (by rw [List.getElem?_replicate, if_pos h])
    · rw [List.getElem?_eq_none (by omega), List.getElem?_eq_none (by omega)]
  · rintro rfl; exact ⟨rfl, fun _ _ => rfl⟩

theorem Agree.none {n : Nat} {b b' : Bytes} : Agree (List.replicate n false) b b' ↔ b'.length = b.length := by
  constructor
  · exact fun h => h.1
  · intro h
    refine ⟨h, fun k hk => ?_⟩
    rw [List.getElem?_replicate] at hk
    split at hk <;> cases hk

mutual
theorem IE.mask_length : ∀ i : IE, (i.mask g).length = (i.enc g).length
  | ⟨t, len, eid, p, cs⟩ => by
    rw [IE.mask, IE.enc, List.length_append, List.length_append, List.length_replicate, encHdr_length]
    split
    · rw [maskList_length cs]
    · rw [List.length_replicate]
theorem maskList_length : ∀ is : List IE, (maskList g is).length = (encList g is).length
  | [] => rfl
  | c :: cs => by
    rw [maskList, encList, List.length_append, List.length_append, IE.mask_length c, maskList_length cs]
end

mutual
theorem patch_aux : ∀ (i : IE) (b' : Bytes), i.WF g → Agree (i.mask g) (i.enc g) b' →
    ∃ i', i'.WF g ∧ i'.enc g = b' ∧ i.Like i'
  | ⟨t, len, eid, p, cs⟩, b', ⟨hl, hz, hc⟩, ha => by
    rw [IE.mask, IE.enc] at ha
    obtain ⟨b1, b2, rfl, a1, a2⟩ := ha.split (by rw [List.length_replicate, encHdr_length])
    have hb1 := (Agree.all (by rw [encHdr_length])).1 a1
    subst hb1
    by_cases hg : g t = true
    · rw [if_pos hg, if_pos hg] at a2
      rw [if_pos hg] at hc
      obtain ⟨cs', w, e, l⟩ := patchList_aux cs b2 hc.2 a2
      refine ⟨⟨t, len, eid, b2, cs'⟩, ⟨?_, hz, by rw [if_pos hg]; exact ⟨e.symm, w⟩⟩, ?_, rfl, rfl, rfl, ?_, l⟩
      · rw [hl, a2.1, hc.1]
      · rw [IE.enc, if_pos hg, e]
      · rw [hc.1, a2.1]
    · rw [if_neg hg, if_neg hg] at a2
      rw [if_neg hg] at hc
      subst hc
      refine ⟨⟨t, len, eid, b2, []⟩, ⟨?_, hz, by rw [if_neg hg]⟩, ?_, rfl, rfl, rfl, a2.1.symm, trivial⟩
      · rw [hl, a2.1]
      · rw [IE.enc, if_neg hg]
theorem patchList_aux : ∀ (is : List IE) (b' : Bytes), WFList g is → Agree (maskList g is) (encList g is) b' →
    ∃ is', WFList g is' ∧ encList g is' = b' ∧ LikeList is is'
  | [], b', _, ha => by
    have : b' = [] := List.length_eq_zero_iff.1 ha.1
    subst this
    exact ⟨[], trivial, rfl, trivial⟩
  | c :: cs, b', ⟨hc, hcs⟩, ha => by
    rw [maskList, encList] at ha
    obtain ⟨b1, b2, rfl, a1, a2⟩ := ha.split (IE.mask_length g c)
    obtain ⟨c', w1, e1, l1⟩ := patch_aux c b1 hc a1
    obtain ⟨cs', w2, e2, l2⟩ := patchList_aux cs b2 hcs a2
    exact ⟨c' :: cs', ⟨w1, w2⟩, by rw [encList, e1, e2], l1, l2⟩
end

/-- C89, one element. Octets of values, at any depth, may be overwritten: what is then decoded is an element of the same types,
lengths and nesting, whose encoding is the octets given. -/
theorem C89_element (i : IE) (hi : i.WF g) (b' : Bytes) (ha : Agree (i.mask g) (i.enc g) b') :
    ∃ i', parse g b' = .ok i' ∧ i.Like i' ∧ i'.marshal g = .ok b' := by
  obtain ⟨i', w, e, l⟩ := patch_aux g i b' hi ha
  refine ⟨i', ?_, l, by rw [marshal_eq, e]⟩
  have := parse_enc g i' w []
  rwa [List.append_nil, e] at this

mutual
theorem like_aux : ∀ (i i' : IE), i.WF g → i'.WF g → i.Like i' → Agree (i.mask g) (i.enc g) (i'.enc g)
  | ⟨t, len, eid, p, cs⟩, ⟨t', len', eid', p', cs'⟩, ⟨_, _, hc⟩, ⟨_, _, hc'⟩, hlike => by
    obtain ⟨rfl, rfl, rfl, hp, hcs⟩ := hlike
    rw [IE.mask, IE.enc, IE.enc]
    apply Agree.join (by rw [List.length_replicate, encHdr_length]) ((Agree.all (by rw [encHdr_length])).2 rfl)
    by_cases hg : g t = true
    · rw [if_pos hg] at hc hc'
      rw [if_pos hg, if_pos hg, if_pos hg]
      exact likeList_aux cs cs' hc.2 hc'.2 hcs
    · rw [if_neg hg, if_neg hg, if_neg hg]
      exact Agree.none.2 hp.symm
theorem likeList_aux : ∀ (is is' : List IE), WFList g is → WFList g is' → LikeList is is' →
    Agree (maskList g is) (encList g is) (encList g is')
  | [], [], _, _, _ => ⟨rfl, fun _ _ => rfl⟩
  | c :: cs, c' :: cs', ⟨hc, hcs⟩, ⟨hc', hcs'⟩, ⟨hl, hls⟩ => by
    rw [maskList, encList, encList]
    exact Agree.join (IE.mask_length g c) (like_aux c c' hc hc' hl) (likeList_aux cs cs' hcs hcs' hls)
  | [], _ :: _, _, _, h => by cases h
  | _ :: _, [], _, _, h => by cases h
end

/-- C89, the other way: elements that differ in values only have encodings that differ in octets of values only. -/
theorem C89_element_back (i i' : IE) (hi : i.WF g) (hi' : i'.WF g) (h : i.Like i') : Agree (i.mask g) (i.enc g) (i'.enc g) :=
  like_aux g i i' hi hi' h

theorem IE.Like.typ : ∀ {i i' : IE}, i.Like i' → i.typ = i'.typ
  | ⟨_, _, _, _, _⟩, ⟨_, _, _, _, _⟩, h => h.1

theorem LikeList.filter (P : IEType → Bool) : ∀ {is is' : List IE}, LikeList is is' →
    LikeList (is.filter fun i => P i.typ) (is'.filter fun i => P i.typ)
  | [], [], _ => trivial
  | c :: cs, c' :: cs', ⟨h, hs⟩ => by
    have ih := LikeList.filter P hs
    rw [List.filter_cons, List.filter_cons, h.typ]
    split
    · exact ⟨h, ih⟩
    · exact ih
  | [], _ :: _, h => by cases h
  | _ :: _, [], h => by cases h

theorem LikeList.getLast : ∀ {is is' : List IE}, LikeList is is' → LikeList is.getLast?.toList is'.getLast?.toList
  | [], [], _ => trivial
  | [c], [c'], h => h
  | [_], _ :: _ :: _, h => by cases h.2
  | _ :: _ :: _, [_], h => by cases h.2
  | c :: d :: cs, c' :: d' :: cs', ⟨_, hs⟩ => by
    rw [List.getLast?_cons_cons, List.getLast?_cons_cons]
    exact LikeList.getLast hs
  | [], _ :: _, h => by cases h
  | _ :: _, [], h => by cases h

namespace Msg

/-- Which octets of a message are structure: flags, type and length in its header, and what is structure in its elements. Session id,
sequence number, priority octet and the values of the elements are not. -/
def mask (m : Msg) : List Bool :=
  List.replicate 4 true ++ (List.replicate (Header.fixedLen m.header.flags - 4) false ++ maskList g m.elements)

/-- C89. In the octets of a well-formed message, session id, sequence number, priority and the values of elements at any depth may be
overwritten in place: what is decoded is a message of the same kind with the same flags, type and length, and in every field and
among the extra elements the same elements in the same order, up to values. -/
theorem C89_message (m : Msg) (h : m.WF g) (b b' : Bytes) (hb : marshal g m = .ok b) (ha : Agree (m.mask g) b b') :
    ∃ m', parse g b' = .ok m' ∧ m'.kind = m.kind ∧ m'.header.flags = m.header.flags ∧ m'.header.typ = m.header.typ ∧
      be16 m'.header.length = (b.drop 2).take 2 ∧ m'.fields.map (·.1) = m.fields.map (·.1) ∧
      (∀ p ∈ m.fields, ∀ p' ∈ m'.fields, p.1 = p'.1 → p.2.card = p'.2.card ∧ LikeList p.2.elems p'.2.elems) ∧
      LikeList (m.ies.filterMap id) (m'.ies.filterMap id) := by
  rw [marshal_ok g m h.shaped h.noNil] at hb
  cases hb
  have hfl : 8 ≤ Header.fixedLen m.header.flags := by unfold Header.fixedLen; split <;> omega
  -- the octets: four, the rest of the header, the body
  let hd0 : Bytes := [m.header.flags, m.header.typ] ++ be16 (m.wireHeader g).length
  let hd1 : Bytes := (if has1stBit m.header.flags then be64 m.header.seid else []) ++ beBytes 3 m.header.seq.toNat ++ [m.header.pri]
  have hwire : m.wire g = hd0 ++ (hd1 ++ encList g m.elements) := by
    show (m.wireHeader g).enc = _
    unfold Header.enc
    simp only [hd0, hd1, List.append_assoc]
    rfl
  have hl0 : hd0.length = 4 := by simp [hd0, be16]
  have hl1 : hd1.length = Header.fixedLen m.header.flags - 4 := by
    simp only [hd1]
    unfold Header.fixedLen
    split <;> simp [be64]
  rw [hwire] at ha
  obtain ⟨b0, br, rfl, a0, ar⟩ := ha.split (by rw [List.length_replicate, hl0])
  obtain ⟨b1, b2, rfl, a1, a2⟩ := ar.split (by rw [List.length_replicate, hl1])
  have e0 := (Agree.all hl0.symm).1 a0
  subst e0
  obtain ⟨xs, wx, ex, lx⟩ := patchList_aux g m.elements b2 h.elems a2
  subst ex
  -- the header is accepted
  have hacc : ∃ hd, Header.parse (hd0 ++ (b1 ++ encList g xs)) = .ok hd := by
    apply (Header.C15_header_accepts _).2
    refine ⟨m.header.flags, _, rfl, ?_⟩
    show _ ≤ (hd0 ++ (b1 ++ encList g xs)).length
    rw [List.length_append (as := hd0), hl0, List.length_append, a1.1, hl1]
    omega
  obtain ⟨hd, hp⟩ := hacc
  obtain ⟨he, hw⟩ := Header.parse_sound _ _ hp
  have hf : hd.flags = m.header.flags := by
    have : hd.enc.head? = some m.header.flags := by rw [he]; rfl
    exact Option.some.inj this
  have ht : hd.typ = m.header.typ := by
    have : hd.enc[1]? = some m.header.typ := by rw [he]; rfl
    exact Option.some.inj this
  have hlen : be16 hd.length = be16 (m.wireHeader g).length := by
    have h1 : (hd.enc.drop 2).take 2 = be16 hd.length := by unfold Header.enc; simp [be16]
    have h2 : ((hd0 ++ (b1 ++ encList g xs)).drop 2).take 2 = be16 (m.wireHeader g).length := by simp [hd0, be16]
    rw [← h1, he, h2]
  have hpay : hd.payload = encList g xs := by
    have h1 : hd.enc.drop (Header.fixedLen hd.flags) = hd.payload := by
      have h2 : ({ hd with payload := [] } : Header).enc ++ hd.payload = hd.enc := by unfold Header.enc; simp
      rw [← h2]
      apply List.drop_left'
      rw [Header.enc_length]
      rfl
    rw [← h1, he, hf, ← List.append_assoc]
    apply List.drop_left'
    rw [List.length_append, hl0, a1.1, hl1]
    omega
  have hparse := parse_wire g hd hw xs wx hpay
  rw [he, ht, h.kindOf] at hparse
  refine ⟨_, hparse, rfl, hf, ht, ?_, ?_, ?_, ?_⟩
  · rw [hwire]
    show be16 hd.length = _
    rw [hlen]
    simp [hd0, be16]
  · rw [(filed_shaped m.kind hd xs).names, h.shaped.names]
    rfl
  · have hm := filed_elements m h.shaped h.noNil h.fieldTypes h.extraTypes hd
    have hfields : m.fields = (filed m.kind hd m.elements).fields := by rw [hm]
    intro p hp p' hp' hn
    rw [hfields] at hp
    simp only [filed, List.mem_map] at hp hp'
    obtain ⟨q, hq, rfl⟩ := hp
    obtain ⟨q', hq', rfl⟩ := hp'
    have hnd := h.shaped.nodup
    rw [h.shaped.names] at hnd
    obtain ⟨n, c⟩ := q
    obtain ⟨n', c'⟩ := q'
    obtain rfl : n = n' := hn
    obtain rfl : c = c' := nodup_fst hnd hq hq'
    have hl := LikeList.filter (fun t => decide (t = fieldIE m.kind n)) lx
    cases c with
    | one => exact ⟨rfl, hl.getLast⟩
    | many =>
      refine ⟨rfl, ?_⟩
      show LikeList ((List.map some _).filterMap id) ((List.map some _).filterMap id)
      rw [filterMap_id_map_some, filterMap_id_map_some]
      exact hl
  · have hm := filed_elements m h.shaped h.noNil h.fieldTypes h.extraTypes hd
    have hies : (m.ies.filterMap id).map some = (filed m.kind hd m.elements).ies := by rw [hm]
    have hl := LikeList.filter (fun t => decide (∀ n ∈ m.kind.names, t ≠ fieldIE m.kind n)) lx
    have h1 : m.ies.filterMap id = m.elements.filter fun i => decide (∀ n ∈ m.kind.names, i.typ ≠ fieldIE m.kind n) := by
      have := congrArg (List.filterMap id) hies
      rw [filterMap_id_map_some] at this
      rw [this]
      exact filterMap_id_map_some _
    have h2 : (filed m.kind hd xs).ies.filterMap id = xs.filter fun i => decide (∀ n ∈ m.kind.names, i.typ ≠ fieldIE m.kind n) :=
      filterMap_id_map_some _
    rw [h1, h2]
    exact hl

end Msg

/-- A create PDR with a PDR id and a precedence inside; the four octets of the precedence are overwritten. -/
example : let g := fun t => t == T.CreatePDR
    let i : IE := ⟨T.CreatePDR, 14, 0, [0, 56, 0, 2, 0, 1, 0, 29, 0, 4, 0, 0, 0, 9],
      [⟨T.PDRID, 2, 0, [0, 1], []⟩, ⟨T.Precedence, 4, 0, [0, 0, 0, 9], []⟩]⟩
    i.WF g ∧ Agree (i.mask g) (i.enc g) [0, 1, 0, 14, 0, 56, 0, 2, 0, 1, 0, 29, 0, 4, 1, 2, 3, 4] ∧
    ¬ Agree (i.mask g) (i.enc g) [0, 1, 0, 14, 0, 56, 0, 2, 0, 1, 0, 29, 0, 3, 1, 2, 3, 4] := by
  intro g i
  have hm : i.mask g = [true, true, true, true, true, true, true, true, false, false, true, true, true, true,
      false, false, false, false] := by decide
  have he : i.enc g = [0, 1, 0, 14, 0, 56, 0, 2, 0, 1, 0, 29, 0, 4, 0, 0, 0, 9] := by decide
  refine ⟨?_, ?_, ?_⟩
  · simp [i, g, IE.WF, WFList, encList, IE.enc, encHdr]
    decide
  · rw [hm, he]
    refine ⟨rfl, fun k hk => ?_⟩
    match k, hk with
    | 0, _ | 1, _ | 2, _ | 3, _ | 4, _ | 5, _ | 6, _ | 7, _ | 10, _ | 11, _ | 12, _ | 13, _ => rfl
    | 8, hk | 9, hk | 14, hk | 15, hk | 16, hk | 17, hk => cases hk
    | n + 18, hk => cases hk
  · rw [hm, he]
    intro h
    exact absurd (h.2 13 rfl) (by decide)

end Pfcp
