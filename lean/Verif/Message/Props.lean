/- Property theorems about messages: C18-C28, C45, C46. -/
import Verif.Message.FileLemmas

namespace Pfcp
namespace Msg

variable (g : IEType → Bool)

/-! ### C18 totality -/

/-- C18. `message.Parse` never panics and always terminates. -/
theorem C18_parse_total (b : Bytes) : parse g b ≠ .panic := by
  rw [parse_normal]
  cases hp : Header.parse b with
  | err e => simp
  | panic => exact absurd hp (Header.C15_header_total_lossless b).1
  | ok h =>
    simp only [Res.ok_bind]
    split
    · simp
    · cases hm : parseMulti g h.payload with
      | err e => simp
      | panic => exact absurd hm ((Pfcp.parse_sound g _).2 h.payload (Nat.le_refl _)).1
      | ok xs => simp

/-- C18 (b). It accepts exactly what the header decoder and (from two payload bytes on) the element
decoder accept. -/
theorem C18_parse_accepts (b : Bytes) :
    (∃ m, parse g b = .ok m) ↔
      ∃ h, Header.parse b = .ok h ∧ (h.payload.length < 2 ∨ Accepted g h.payload) := by
  rw [parse_normal]
  cases hp : Header.parse b with
  | err e => simp
  | panic => simp
  | ok h =>
    simp only [Res.ok_bind, Res.ok.injEq, exists_eq_left']
    by_cases h2 : h.payload.length < 2
    · simp [h2]
    · simp only [h2, if_false, false_or]
      constructor
      · rintro ⟨m, hm⟩
        rw [Res.bind_eq_ok] at hm
        obtain ⟨xs, hx, _⟩ := hm
        exact parse_accepted_aux g _ h.payload (Nat.le_refl _) xs hx
      · intro ha
        obtain ⟨xs, hx⟩ := accepted_parse ha
        exact ⟨_, by rw [hx]; rfl⟩

/-! ### C19 dispatch -/

/-- C19 (a). The decoded message is of the kind assigned to the type octet (Generic if none is), and
reports that octet. -/
theorem C19_dispatch (b : Bytes) (m : Msg) (h : parse g b = .ok m) :
    ∃ t, b[1]? = some t ∧ m.messageType = t ∧
      ((t, m.kind) ∈ assignedKinds ∨ (t ∉ assignedKinds.map (·.1) ∧ m.kind = .generic)) := by
  rw [parse_normal, Res.bind_eq_ok] at h
  obtain ⟨hd, hp, h⟩ := h
  have henc := (Header.parse_sound b hd hp).1
  have hb : b[1]? = some hd.typ := by
    rw [← henc]; rfl
  have hm : m.kind = kindOf hd.typ ∧ m.header = hd := by
    split at h
    · cases h; exact ⟨rfl, rfl⟩
    · rw [Res.bind_eq_ok] at h
      obtain ⟨xs, _, h⟩ := h
      cases h; exact ⟨rfl, rfl⟩
  refine ⟨hd.typ, hb, by unfold messageType; rw [hm.2], ?_⟩
  by_cases ha : hd.typ ∈ assignedKinds.map (·.1)
  · left
    obtain ⟨c, hc, he⟩ := List.mem_map.1 ha
    have := kindOf_assigned c hc
    rw [hm.1, ← he, this]
    exact hc
  · right
    exact ⟨ha, by rw [hm.1, kindOf_unassigned _ ha]⟩

theorem setLength_kind {m m' : Msg} (h : setLength g m = .ok m') :
    m'.kind = m.kind ∧ m'.fields = m.fields ∧ m'.ies = m.ies ∧
    m'.header = { m.header with length := m'.header.length } := by
  unfold setLength at h
  split at h
  · rw [Res.bind_eq_ok] at h
    obtain ⟨l, _, h⟩ := h
    cases h; exact ⟨rfl, rfl, rfl, rfl⟩
  · rw [Res.bind_eq_ok] at h
    obtain ⟨l, _, h⟩ := h
    rw [Res.bind_eq_ok] at h
    obtain ⟨l', _, h⟩ := h
    cases h; exact ⟨rfl, rfl, rfl, rfl⟩

theorem ctorLoop_some (cases : List (IEType × FieldName)) (m : Msg) (xs : List IE) :
    ctorLoop cases m (xs.map some) = fileAll cases m xs := by
  induction xs generalizing m with
  | nil => rfl
  | cons x xs ih => simp only [List.map_cons, ctorLoop, fileAll, ih]

theorem ctorLoop_none (cases : List (IEType × FieldName)) (m : Msg)
    (hn : ∀ c ∈ cases, c.2 ∈ m.fields.map (·.1)) (xs : List (Option IE)) (h : none ∈ xs) :
    ctorLoop cases m xs = .panic := by
  induction xs generalizing m with
  | nil => cases h
  | cons x xs ih =>
    cases x with
    | none => rfl
    | some i =>
      simp at h
      simp only [ctorLoop]
      have := fileAll_eq cases m hn [i]
      simp only [fileAll] at this
      rw [Res.bind_eq_ok] at this
      obtain ⟨m', h1, h2⟩ := this
      rw [h1, Res.ok_bind]
      cases h2
      apply ih _ _ h
      intro c hc
      simp only [List.map_map]
      exact hn c hc

theorem zero_switch_names (k : Kind) (h : Header) :
    ∀ c ∈ k.tab.parseSwitch, c.2 ∈ ({ zero k with header := h } : Msg).fields.map (·.1) := by
  intro c hc
  have : c.2 ∈ k.tab.parseSwitch.map (·.2) := List.mem_map.2 ⟨c, hc, rfl⟩
  rw [Kind.switch_names] at this
  have hz := zero_names k
  unfold Kind.names at hz
  simp only
  rw [hz]; exact this

theorem assignArgs_kind (m : Msg) (fs : List FieldName) (as : List (Option IE)) :
    (assignArgs m fs as).kind = m.kind ∧ (assignArgs m fs as).header = m.header ∧
    (assignArgs m fs as).ies = m.ies := by
  induction fs generalizing m as with
  | nil => simp [assignArgs]
  | cons f fs ih =>
    cases as with
    | nil => simp [assignArgs]
    | cons a as =>
      simp only [assignArgs]
      have := ih { m with fields := m.fields.map fun p => if p.1 = f then (p.1, .one a) else p } as
      simpa using this

/-- A constructed message, before its length is set. -/
def preNew (k : Kind) (mp fo : UInt8) (seid : UInt64) (seq : UInt32) (pri : UInt8)
    (args : List (Option IE)) (ies : List (Option IE)) : Msg :=
  match k.tab.ctor with
  | .switch _ => filed k (ctorHeader k mp fo seid seq pri) (ies.filterMap id)
  | .args fs =>
    { assignArgs { zero k with header := ctorHeader k mp fo seid seq pri } fs args with ies := ies }

theorem new_eq (k : Kind) (mp fo : UInt8) (seid : UInt64) (seq : UInt32) (pri : UInt8)
    (args ies : List (Option IE)) :
    new g k mp fo seid seq pri args ies =
      match k.tab.ctor with
      | .switch _ => if none ∈ ies then .panic
          else setLength g (preNew k mp fo seid seq pri args ies)
      | .args _ => setLength g (preNew k mp fo seid seq pri args ies) := by
  unfold new preNew
  simp only
  rcases Kind.ctor_eq k with hc | ⟨hc, _⟩
  · rw [hc]
    simp only
    by_cases hn : none ∈ ies
    · rw [if_pos hn, ctorLoop_none _ _ (zero_switch_names k _) _ hn]; rfl
    · rw [if_neg hn]
      conv => lhs; rw [← map_some_filterMap ies hn]
      rw [ctorLoop_some, fileAll_zero, Res.ok_bind]
  · rw [hc]

/-- C19 (b). Every constructor builds a message of its kind whose type octet is the one assigned to
that kind, so encoding it and decoding it dispatches back to the same kind. -/
theorem C19_constructor (k : Kind) (hk : k ≠ .generic) (mp fo : UInt8) (seid : UInt64) (seq : UInt32)
    (pri : UInt8) (args ies : List (Option IE)) (m : Msg)
    (h : new g k mp fo seid seq pri args ies = .ok m) :
    m.kind = k ∧ (m.messageType, k) ∈ assignedKinds ∧ kindOf m.messageType = k := by
  have hpre : (preNew k mp fo seid seq pri args ies).kind = k ∧
      (preNew k mp fo seid seq pri args ies).header = ctorHeader k mp fo seid seq pri := by
    unfold preNew
    split
    · exact ⟨rfl, rfl⟩
    · rename_i fs _
      have := assignArgs_kind { zero k with header := ctorHeader k mp fo seid seq pri } fs args
      exact ⟨this.1, this.2.1⟩
  have hs : setLength g (preNew k mp fo seid seq pri args ies) = .ok m := by
    rw [new_eq] at h
    split at h
    · split at h
      · cases h
      · exact h
    · exact h
  obtain ⟨h1, _, _, h4⟩ := setLength_kind g hs
  have htyp : m.messageType = k.tab.msgType := by
    unfold messageType
    rw [h4, hpre.2]
    unfold ctorHeader
    split <;> rfl
  have hmem := Kind.msgType_assigned k hk
  refine ⟨by rw [h1, hpre.1], by rw [htyp]; exact hmem, ?_⟩
  rw [htyp]
  exact kindOf_assigned _ hmem

/-- C19 (c). Generic constructors keep the given octet. -/
theorem C19_generic (t : UInt8) (seid : UInt64) (seq : UInt32) (ies : List (Option IE)) (m : Msg)
    (h : newGeneric g t seid seq ies = .ok m ∨ newGenericWithoutSEID g t seq ies = .ok m) :
    m.kind = .generic ∧ m.messageType = t := by
  rcases h with h | h
  all_goals
    obtain ⟨h1, _, _, h4⟩ := setLength_kind g h
    refine ⟨h1, ?_⟩
    unfold messageType
    rw [h4]
    rfl

/-! ### C20 round trip -/

theorem WF.kindOf {m : Msg} (h : m.WF g) : Pfcp.kindOf m.header.typ = m.kind := by
  rcases h.typ with ⟨h1, h2⟩ | h1
  · rw [kindOf_unassigned _ h2, h1]
  · exact kindOf_assigned _ h1

/-- C20. Encoding a well-formed message of any kind and decoding it gives the same message: same kind,
same header (with the length and payload that were sent), every field with the same elements in the
same order, and the same extra elements (nil entries, which are not sent, excepted). -/
theorem C20_message_roundtrip (m : Msg) (h : m.WF g) :
    ∃ b, marshal g m = .ok b ∧
      parse g b = .ok { m with header := m.wireHeader g, ies := (m.ies.filterMap id).map some } := by
  refine ⟨m.wire g, marshal_ok g m h.shaped h.noNil, ?_⟩
  unfold wire
  rw [parse_wire g (m.wireHeader g) ⟨h.seq, h.seid⟩ m.elements h.elems rfl]
  have hk : Pfcp.kindOf (m.wireHeader g).typ = m.kind := h.kindOf
  rw [hk, filed_elements m h.shaped h.noNil h.fieldTypes h.extraTypes]

theorem WFList_iff (l : List IE) : WFList g l ↔ ∀ i ∈ l, i.WF g := by
  induction l with
  | nil => simp [WFList]
  | cons i is ih => simp [WFList, ih]

/-- Whatever is decoded from complete elements is well-formed. -/
theorem filed_WF (h : Header) (hw : h.WF) (xs : List IE) (hx : WFList g xs) :
    (filed (kindOf h.typ) h xs).WF g where
  shaped := filed_shaped _ _ _
  noNil := filed_noNil _ _ _
  typ := by
    by_cases ha : h.typ ∈ assignedKinds.map (·.1)
    · right
      obtain ⟨c, hc, he⟩ := List.mem_map.1 ha
      have := kindOf_assigned c hc
      show (h.typ, kindOf h.typ) ∈ assignedKinds
      rw [← he, this]
      exact hc
    · left
      exact ⟨kindOf_unassigned _ ha, ha⟩
  seq := hw.1
  seid := hw.2
  fieldTypes := by
    intro p hp i hi
    simp only [filed, List.mem_map] at hp
    obtain ⟨q, _, rfl⟩ := hp
    have := (List.mem_filter.1 (collect_elems_mem _ _ i hi)).2
    exact of_decide_eq_true this
  extraTypes := by
    intro i hi p hp
    simp only [filed] at hi
    rw [filterMap_id_map_some] at hi
    have := of_decide_eq_true (List.mem_filter.1 hi).2
    apply this
    simp only [filed, List.mem_map] at hp
    obtain ⟨q, hq, rfl⟩ := hp
    exact List.mem_map.2 ⟨q, hq, rfl⟩
  elems := by
    rw [WFList_iff] at hx ⊢
    intro i hi
    exact hx i (filed_elements_mem _ _ _ i hi)

/-- A non-trivial well-formed message: a session establishment request with a single field, a repeated
field holding a grouped element twice, and a vendor-specific extra element. -/
example : (filed .sessionEstablishmentRequest ⟨0x21, 50, 0, 7, 9, 0, []⟩
    [⟨T.NodeID, 5, 0, [0, 127, 0, 0, 1], []⟩,
     ⟨T.CreatePDR, 6, 0, [0, 56, 0, 2, 0, 1], [⟨T.PDRID, 2, 0, [0, 1], []⟩]⟩,
     ⟨0x8001, 3, 10, [42], []⟩,
     ⟨T.CreatePDR, 6, 0, [0, 56, 0, 2, 0, 2], [⟨T.PDRID, 2, 0, [0, 2], []⟩]⟩]).WF
    (fun t => t == T.CreatePDR) := by
  apply filed_WF (h := ⟨0x21, 50, 0, 7, 9, 0, []⟩)
  · exact ⟨by decide, by decide⟩
  · rw [WFList_iff]
    simp [IE.WF, WFList, encList, IE.enc, encHdr]
    decide

/-! ### C21 filing -/

/-- C21. After decoding, each field is exactly the collection of the body's elements of its type (all
of them in order for a repeatable field, the last one for a single field), the extra list is exactly
the elements of no field's type in order, and there is nothing else. -/
theorem C21_filing (b : Bytes) (m : Msg) (h : parse g b = .ok m) :
    ∃ hd xs, Header.parse b = .ok hd ∧ m.header = hd ∧
      (if hd.payload.length < 2 then xs = [] else parseMulti g hd.payload = .ok xs) ∧
      m.fields.map (·.1) = m.kind.names ∧
      (∀ p ∈ m.fields, p.2 = Slot.collect p.2.card (xs.filter fun i => i.typ == fieldIE m.kind p.1)) ∧
      m.ies = (xs.filter fun i => decide (∀ n ∈ m.kind.names, i.typ ≠ fieldIE m.kind n)).map some := by
  rw [parse_normal, Res.bind_eq_ok] at h
  obtain ⟨hd, hp, h⟩ := h
  have key : ∀ xs, m = filed (kindOf hd.typ) hd xs →
      m.header = hd ∧ m.fields.map (·.1) = m.kind.names ∧
      (∀ p ∈ m.fields, p.2 = Slot.collect p.2.card (xs.filter fun i => i.typ == fieldIE m.kind p.1)) ∧
      m.ies = (xs.filter fun i => decide (∀ n ∈ m.kind.names, i.typ ≠ fieldIE m.kind n)).map some := by
    intro xs hm
    subst hm
    refine ⟨rfl, (filed_shaped _ _ _).names, ?_, rfl⟩
    intro p hp
    simp only [filed, List.mem_map] at hp
    obtain ⟨q, _, rfl⟩ := hp
    obtain ⟨n, c⟩ := q
    have : (fun i : IE => i.typ == fieldIE (kindOf hd.typ) n)
        = fun i => decide (i.typ = fieldIE (kindOf hd.typ) n) := by
      funext i; rfl
    cases c <;> simp only [Slot.collect, Slot.card, filed, this]
  by_cases h2 : hd.payload.length < 2
  · rw [if_pos h2] at h
    cases h
    obtain ⟨k1, k2, k3, k4⟩ := key [] rfl
    exact ⟨hd, [], hp, k1, by rw [if_pos h2], k2, k3, k4⟩
  · rw [if_neg h2, Res.bind_eq_ok] at h
    obtain ⟨xs, hx, h⟩ := h
    cases h
    obtain ⟨k1, k2, k3, k4⟩ := key xs rfl
    exact ⟨hd, xs, hp, k1, by rw [if_neg h2]; exact hx, k2, k3, k4⟩

/-- C21, violated at one point: a body of exactly one byte is not an element and is not an error
either; the byte disappears (the same byte as part of a longer body would be an error). -/
theorem C21_one_byte_violated :
    parse g [0x20, 1, 0, 5, 0, 0, 1, 0, 0xff] = .ok (filed .heartbeatRequest
      ⟨0x20, 1, 5, 0, 1, 0, [0xff]⟩ []) := by
  rw [parse_normal]; rfl

/-! ### C22 stability -/

/-- C22 (a). Whatever was decoded can be encoded. -/
theorem C22_reencode (b : Bytes) (m : Msg) (h : parse g b = .ok m) : marshal g m = .ok (m.wire g) := by
  rw [parse_normal, Res.bind_eq_ok] at h
  obtain ⟨hd, hp, h⟩ := h
  split at h
  · cases h; exact marshal_ok g _ (filed_shaped _ _ _) (filed_noNil _ _ _)
  · rw [Res.bind_eq_ok] at h
    obtain ⟨xs, _, h⟩ := h
    cases h; exact marshal_ok g _ (filed_shaped _ _ _) (filed_noNil _ _ _)

/-- C22 (b), violated: decoding the re-encoded message can lose an element. A release request whose
body is an unknown element followed by a bare node id header (announcing five bytes that are not there)
is accepted; re-encoding puts the node id first and decoding that swallows the other element. -/
theorem C22_stability_violated :
    let b : Bytes := [0x20, 9, 0, 13, 0, 0, 1, 0, 0x7f, 0xff, 0, 1, 7, 0, 60, 0, 5]
    let b' : Bytes := [0x20, 9, 0, 13, 0, 0, 1, 0, 0, 60, 0, 5, 0x7f, 0xff, 0, 1, 7]
    let h : Header := ⟨0x20, 9, 13, 0, 1, 0, b.drop 8⟩
    let h' : Header := ⟨0x20, 9, 13, 0, 1, 0, b'.drop 8⟩
    parse (fun _ => false) b =
      .ok ⟨.associationReleaseRequest, h, [(.NodeID, .one (some ⟨60, 5, 0, [], []⟩))],
        [some ⟨0x7fff, 1, 0, [7], []⟩]⟩ ∧
    (parse (fun _ => false) b >>= marshal (fun _ => false)) = .ok b' ∧
    parse (fun _ => false) b' =
      .ok ⟨.associationReleaseRequest, h',
        [(.NodeID, .one (some ⟨60, 5, 0, [0x7f, 0xff, 0, 1, 7], []⟩))], []⟩ := by
  decide +kernel

/-- C22 (b), partial: it holds for every datagram whose body is a sequence of complete elements. -/
theorem C22_stability_partial (b : Bytes) (m : Msg) (h : parse g b = .ok m)
    (hc : Complete g m.header.payload) :
    ∃ b', marshal g m = .ok b' ∧ parse g b' = .ok { m with header := m.wireHeader g } := by
  obtain ⟨xs, hx, hwf⟩ := complete_parse hc
  have hm : m = filed (kindOf m.header.typ) m.header xs ∧ m.header.WF := by
    rw [parse_normal, Res.bind_eq_ok] at h
    obtain ⟨hd, hp, h⟩ := h
    have hw := (Header.parse_sound _ _ hp).2
    by_cases h2 : hd.payload.length < 2
    · rw [if_pos h2] at h
      cases h
      have henc := ((Pfcp.parse_sound g _).2 _ (Nat.le_refl _)).2 xs hx
      have hpl : (filed (kindOf hd.typ) hd []).header.payload = hd.payload := rfl
      rw [hpl] at henc
      rw [← henc] at h2
      rw [body_short g xs h2]
      exact ⟨rfl, hw⟩
    · rw [if_neg h2, Res.bind_eq_ok] at h
      obtain ⟨ys, hy, h⟩ := h
      cases h
      have hpl : (filed (kindOf hd.typ) hd ys).header.payload = hd.payload := rfl
      rw [hpl, hy] at hx
      cases hx
      exact ⟨rfl, hw⟩
  obtain ⟨hm, hw⟩ := hm
  have hwf' : m.WF g := by rw [hm]; exact filed_WF g m.header hw xs hwf
  obtain ⟨b', h1, h2⟩ := C20_message_roundtrip g m hwf'
  refine ⟨b', h1, ?_⟩
  have hies : (m.ies.filterMap id).map some = m.ies := by
    apply map_some_filterMap
    rw [hm]; simp [filed]
  rw [h2, hies]

example : Complete (fun _ => false) [0, 60, 0, 1, 7] := by
  have := WFList.complete (fun _ => false) [⟨60, 1, 0, [7], []⟩] (by simp [WFList, IE.WF]; decide)
  exact this

/-! ### C23 lengths -/

/-- C23 (a). `Marshal` of any message (of its Go type, without nil in repeated fields) succeeds, returns
exactly `MarshalLen` bytes, and octets 3-4 hold that size minus four (modulo 2^16). -/
theorem C23_marshal_length (m : Msg) (hs : m.Shaped) (hn : m.NoNil) :
    ∃ b n, marshal g m = .ok b ∧ marshalLen g m = .ok n ∧ b.length = n ∧
      (b.drop 2).take 2 = be16 (UInt16.ofNat (n - 4)) ∧
      (n - 4 < 65536 → (dec16 ((b.drop 2).take 2)).toNat + 4 = n) := by
  refine ⟨m.wire g, _, marshal_ok g m hs hn, marshalLen_ok g m hs hn, wire_length g m, ?_, ?_⟩
  · rfl
  · intro h
    have : ((m.wire g).drop 2).take 2
        = be16 (UInt16.ofNat (Header.fixedLen m.header.flags + (m.body g).length - 4)) := rfl
    rw [this, dec16_be16]
    have hf : 8 ≤ Header.fixedLen m.header.flags := by unfold Header.fixedLen; split <;> omega
    simp only [UInt16.toNat_ofNat']
    omega

/-- C23 (b). `MarshalTo` into any buffer that is long enough writes those bytes at the front and leaves
the rest of the buffer as it was. -/
theorem C23_marshalTo (m : Msg) (hs : m.Shaped) (hn : m.NoNil) (buf : Slice) (n : Nat)
    (hl : marshalLen g m = .ok n) (hb : n ≤ buf.len) :
    ∃ b m', marshal g m = .ok b ∧
      marshalTo g m buf = .ok (m', ⟨b ++ buf.data.drop n, buf.spare⟩) := by
  rw [marshalLen_ok g m hs hn] at hl
  cases hl
  refine ⟨m.wire g, { m with header := m.wireHeader g }, marshal_ok g m hs hn, ?_⟩
  rw [marshalTo_ok g m hs hn buf (by rw [wire_length]; exact hb), wire_length]

theorem setLength_ok (m : Msg) (hs : m.Shaped) (hn : m.NoNil)
    (hi : m.kind.tab.setLen = none ∨ none ∉ m.ies) :
    setLength g m = .ok { m with header := { m.header with
      length := UInt16.ofNat (Header.fixedLen m.header.flags + (m.body g).length - 4) } } := by
  have hf : 8 ≤ Header.fixedLen m.header.flags := by unfold Header.fixedLen; split <;> omega
  unfold setLength
  rcases Kind.setLen_eq m.kind with h | h
  · rw [h]
    simp only
    rw [marshalLen_ok g m hs hn]
    rfl
  · rw [h]
    have hi' : none ∉ m.ies := by
      rcases hi with h' | h'
      · rw [h] at h'; cases h'
      · exact h'
    simp only
    rw [← hs.names, lenFields_eq g m m.fields _ (fun p hp => get_ok m hs.nodup p hp) hn, Res.ok_bind,
      lenMany_eq g _ _ hi', Res.ok_bind, header_len_sub]
    simp only [Res.pure_eq]
    congr 4
    simp [body, elements, encList_append]
    omega

theorem assignArgs_fields (m : Msg) (fs : List FieldName) (as : List (Option IE))
    (h1 : ∀ p ∈ m.fields, p.2.card = .one) :
    (assignArgs m fs as).fields.map (fun p => (p.1, p.2.card)) = m.fields.map (fun p => (p.1, p.2.card)) ∧
    ∀ p ∈ (assignArgs m fs as).fields, p.2.card = .one := by
  induction fs generalizing m as with
  | nil => simp [assignArgs]; exact fun a b h => h1 (a, b) h
  | cons f fs ih =>
    cases as with
    | nil => simp [assignArgs]; exact fun a b h => h1 (a, b) h
    | cons a as =>
      simp only [assignArgs]
      have := ih { m with fields := m.fields.map fun p => if p.1 = f then (p.1, .one a) else p } as (by
        intro p hp
        simp only [List.mem_map] at hp
        obtain ⟨q, hq, rfl⟩ := hp
        split
        · rfl
        · exact h1 q hq)
      refine ⟨?_, this.2⟩
      rw [this.1]
      simp only [List.map_map]
      apply List.map_congr_left
      intro p hp
      simp only [Function.comp]
      split
      · rw [h1 p hp]; rfl
      · rfl

theorem preNew_shaped (k : Kind) (mp fo : UInt8) (seid : UInt64) (seq : UInt32) (pri : UInt8)
    (args ies : List (Option IE)) :
    (preNew k mp fo seid seq pri args ies).Shaped ∧ (preNew k mp fo seid seq pri args ies).NoNil ∧
    (preNew k mp fo seid seq pri args ies).kind = k ∧
    (preNew k mp fo seid seq pri args ies).header = ctorHeader k mp fo seid seq pri := by
  unfold preNew
  rcases Kind.ctor_eq k with hc | ⟨hc, hone⟩
  · rw [hc]; exact ⟨filed_shaped _ _ _, filed_noNil _ _ _, rfl, rfl⟩
  · rw [hc]
    have hz : ∀ p ∈ ({ zero k with header := ctorHeader k mp fo seid seq pri } : Msg).fields,
        p.2.card = .one := by
      intro p hp
      simp only [zero, List.mem_map] at hp
      obtain ⟨q, hq, rfl⟩ := hp
      simp only [hone q hq]
      rfl
    have hf := assignArgs_fields { zero k with header := ctorHeader k mp fo seid seq pri }
      (k.tab.fields.map (·.1)) args hz
    have hk := assignArgs_kind { zero k with header := ctorHeader k mp fo seid seq pri }
      (k.tab.fields.map (·.1)) args
    refine ⟨?_, ?_, hk.1, hk.2.1⟩
    · unfold Shaped
      simp only
      rw [hf.1, hk.1]
      simp only [zero, List.map_map]
      conv => rhs; rw [← List.map_id k.tab.fields]
      apply List.map_congr_left
      intro p _
      obtain ⟨n, c⟩ := p
      cases c <;> rfl
    · intro p hp
      have := hf.2 p hp
      obtain ⟨n, s⟩ := p
      cases s with
      | one v => trivial
      | many vs => simp [Slot.card] at this

/-- C23 (c). A constructed message carries the length it will be sent with. -/
theorem C23_constructor_length (k : Kind) (mp fo : UInt8) (seid : UInt64) (seq : UInt32)
    (pri : UInt8) (args ies : List (Option IE)) (m : Msg)
    (h : new g k mp fo seid seq pri args ies = .ok m) :
    ∃ b, marshal g m = .ok b ∧ m.header.length = UInt16.ofNat (b.length - 4) := by
  obtain ⟨hs, hn, hk, hh⟩ := preNew_shaped k mp fo seid seq pri args ies
  have hset : setLength g (preNew k mp fo seid seq pri args ies) = .ok m := by
    rw [new_eq] at h
    split at h
    · split at h
      · cases h
      · exact h
    · exact h
  have hi : (preNew k mp fo seid seq pri args ies).kind.tab.setLen = none ∨
      none ∉ (preNew k mp fo seid seq pri args ies).ies := by
    rcases Kind.setLen_eq (preNew k mp fo seid seq pri args ies).kind with h1 | h1
    · exact .inl h1
    · right
      intro hnil
      unfold setLength at hset
      rw [h1] at hset
      simp only at hset
      rw [← hs.names, lenFields_eq g _ _ _ (fun p hp => get_ok _ hs.nodup p hp) hn, Res.ok_bind,
        lenMany_panic g _ _ hnil] at hset
      cases hset
  rw [setLength_ok g _ hs hn hi] at hset
  cases hset
  refine ⟨_, marshal_ok g _ hs hn, ?_⟩
  rw [wire_length]
  rfl

/-! ### C24 constructors file like the decoder -/

/-- The kinds whose constructor takes a list of arbitrary elements and sorts them into fields. -/
def listConstructed : List Kind :=
  [.pfdManagementRequest, .associationSetupRequest, .associationSetupResponse,
   .associationUpdateRequest, .associationUpdateResponse, .nodeReportRequest,
   .sessionEstablishmentRequest, .sessionEstablishmentResponse, .sessionModificationRequest,
   .sessionModificationResponse, .sessionDeletionResponse, .sessionReportRequest,
   .sessionReportResponse]

theorem listConstructed_switch : ∀ k ∈ listConstructed, k.tab.ctor = .switch k.tab.parseSwitch := by
  decide +kernel

/-- C24. For every such kind: constructing a message from a list of well-formed elements gives the
same fields and extra elements as decoding a message of that kind whose body is that list. -/
theorem C24_constructor_like_decoder (k : Kind) (hk : k ∈ listConstructed) (mp fo : UInt8)
    (seid : UInt64) (seq : UInt32) (pri : UInt8) (xs : List IE) (hx : ∀ i ∈ xs, i.WF g)
    (h : Header) (hw : h.WF) (ht : (h.typ, k) ∈ assignedKinds) (hp : h.payload = encList g xs) :
    ∃ m m', new g k mp fo seid seq pri [] (xs.map some) = .ok m ∧ parse g h.enc = .ok m' ∧
      m.kind = m'.kind ∧ m.fields = m'.fields ∧ m.ies = m'.ies := by
  have hc := listConstructed_switch k hk
  have hs := preNew_shaped k mp fo seid seq pri [] (xs.map some)
  have hpre : preNew k mp fo seid seq pri [] (xs.map some)
      = filed k (ctorHeader k mp fo seid seq pri) xs := by
    unfold preNew; rw [hc]; simp only; rw [filterMap_id_map_some]
  have hnew := setLength_ok g _ hs.1 hs.2.1 (.inr (by rw [hpre]; simp [filed]))
  refine ⟨_, _, Eq.trans ?_ hnew, parse_wire g h hw xs ((WFList_iff g xs).2 hx) hp, ?_⟩
  · rw [new_eq, hc]
    simp only
    rw [if_neg (by simp)]
  · rw [hpre, kindOf_assigned _ ht]
    exact ⟨rfl, rfl, rfl⟩

/-- Such a case: a session report request with one field and one extra element. -/
example : Kind.sessionReportRequest ∈ listConstructed ∧
    ((56 : UInt8), Kind.sessionReportRequest) ∈ assignedKinds ∧
    (∀ i ∈ [(⟨39, 1, 0, [1], []⟩ : IE), ⟨60, 1, 0, [7], []⟩], i.WF (fun _ => false)) ∧
    (⟨0x21, 56, 0, 1, 2, 0, encList (fun _ => false) [⟨39, 1, 0, [1], []⟩, ⟨60, 1, 0, [7], []⟩]⟩
      : Header).WF := by
  refine ⟨by decide, by decide, ?_, by decide, by decide⟩
  simp [IE.WF]
  decide

/-! ### C25 nil elements -/

/-- C25 (a). Encoding and its size ignore nil entries of the extra list. -/
theorem C25_encode_skips_nil (m : Msg) (hs : m.Shaped) (hn : m.NoNil) :
    let m' := { m with ies := (m.ies.filterMap id).map some }
    marshal g m = marshal g m' ∧ marshalLen g m = marshalLen g m' := by
  have he : ({ m with ies := (m.ies.filterMap id).map some } : Msg).elements = m.elements := by
    unfold elements; simp only; rw [filterMap_id_map_some]
  have hb : ({ m with ies := (m.ies.filterMap id).map some } : Msg).body g = m.body g := by
    unfold body; rw [he]
  have hs' : ({ m with ies := (m.ies.filterMap id).map some } : Msg).Shaped := hs
  have hn' : ({ m with ies := (m.ies.filterMap id).map some } : Msg).NoNil := hn
  simp only
  rw [marshal_ok g _ hs hn, marshal_ok g _ hs' hn', marshalLen_ok g _ hs hn, marshalLen_ok g _ hs' hn', hb]
  refine ⟨?_, rfl⟩
  unfold wire wireHeader
  rw [hb]

/-- C25 (b), violated: a nil element makes the constructor panic for every kind whose constructor takes
a list, and for heartbeats, PFD management responses and generic messages. -/
theorem C25_constructor_nil_violated (k : Kind)
    (hk : k ∈ listConstructed ++ [.heartbeatRequest, .heartbeatResponse, .pfdManagementResponse])
    (mp fo : UInt8) (seid : UInt64) (seq : UInt32) (pri : UInt8) (args ies : List (Option IE))
    (hnil : none ∈ ies) : new g k mp fo seid seq pri args ies = .panic := by
  rw [List.mem_append] at hk
  rcases hk with hk | hk
  · rw [new_eq, listConstructed_switch k hk]
    simp [hnil]
  · have hargs : (∃ fs, k.tab.ctor = .args fs) ∧ k.tab.setLen ≠ none := by
      simp only [List.mem_cons, List.not_mem_nil, or_false] at hk
      rcases hk with rfl | rfl | rfl <;> exact ⟨⟨_, rfl⟩, by decide⟩
    obtain ⟨⟨fs, hc⟩, hl⟩ := hargs
    obtain ⟨hs, hn, hkk, _⟩ := preNew_shaped k mp fo seid seq pri args ies
    rw [new_eq, hc]
    simp only
    have hl' : (preNew k mp fo seid seq pri args ies).kind.tab.setLen
        = some ((preNew k mp fo seid seq pri args ies).kind.tab.fields.map (·.1)) := by
      rcases Kind.setLen_eq (preNew k mp fo seid seq pri args ies).kind with h | h
      · rw [hkk] at h; exact absurd h hl
      · exact h
    have hies : (preNew k mp fo seid seq pri args ies).ies = ies := by
      unfold preNew; rw [hc]
    unfold setLength
    rw [hl']
    simp only
    rw [← hs.names, lenFields_eq g _ _ _ (fun p hp => get_ok _ hs.nodup p hp) hn, Res.ok_bind,
      hies, lenMany_panic g _ _ hnil]
    rfl

/-- C25 (b), violated for both constructors of generic messages: they panic on a nil element. -/
theorem C25_generic_nil_violated (t : UInt8) (seid : UInt64) (seq : UInt32) (ies : List (Option IE))
    (hnil : none ∈ ies) :
    newGeneric g t seid seq ies = .panic ∧ newGenericWithoutSEID g t seq ies = .panic := by
  constructor
  · unfold newGeneric setLength
    simp only [zero, Kind.tab, tabGeneric, lenFields, Res.ok_bind]
    rw [lenMany_panic g _ _ hnil]
    rfl
  · unfold newGenericWithoutSEID setLength
    simp only [zero, Kind.tab, tabGeneric, lenFields, Res.ok_bind]
    rw [lenMany_panic g _ _ hnil]
    rfl

/-- C25 (b), partial: for the other seven kinds, nil elements (positional or in the list) are ignored:
construction succeeds and the message encodes as if they were absent. -/
theorem C25_constructor_nil_partial (k : Kind)
    (hk : k ∈ [Kind.associationReleaseRequest, .associationReleaseResponse, .versionNotSupportedResponse,
      .nodeReportResponse, .sessionSetDeletionRequest, .sessionSetDeletionResponse,
      .sessionDeletionRequest])
    (mp fo : UInt8) (seid : UInt64) (seq : UInt32) (pri : UInt8) (args ies : List (Option IE)) :
    ∃ m m', new g k mp fo seid seq pri args ies = .ok m ∧
      new g k mp fo seid seq pri args ((ies.filterMap id).map some) = .ok m' ∧
      m'.ies = (m.ies.filterMap id).map some ∧ m'.fields = m.fields ∧ marshal g m = marshal g m' := by
  have hargs : (∃ fs, k.tab.ctor = .args fs) ∧ k.tab.setLen = none := by
    simp only [List.mem_cons, List.not_mem_nil, or_false] at hk
    rcases hk with rfl | rfl | rfl | rfl | rfl | rfl | rfl <;> exact ⟨⟨_, rfl⟩, rfl⟩
  obtain ⟨⟨fs, hc⟩, hl⟩ := hargs
  obtain ⟨hs, hn, hkk, _⟩ := preNew_shaped k mp fo seid seq pri args ies
  obtain ⟨hs', hn', hkk', _⟩ := preNew_shaped k mp fo seid seq pri args ((ies.filterMap id).map some)
  have e : preNew k mp fo seid seq pri args ((ies.filterMap id).map some)
      = { preNew k mp fo seid seq pri args ies with
          ies := ((preNew k mp fo seid seq pri args ies).ies.filterMap id).map some } := by
    unfold preNew; rw [hc]
  have hnew := setLength_ok g _ hs hn (.inl (by rw [hkk]; exact hl))
  have hnew' := setLength_ok g _ hs' hn' (.inl (by rw [hkk']; exact hl))
  refine ⟨_, _, Eq.trans ?_ hnew, Eq.trans ?_ hnew', ?_, ?_, ?_⟩
  · rw [new_eq, hc]
  · rw [new_eq, hc]
  · rw [e]
  · rw [e]
  · have h1 := marshal_ok g { preNew k mp fo seid seq pri args ies with
      header := { (preNew k mp fo seid seq pri args ies).header with
        length := UInt16.ofNat (Header.fixedLen (preNew k mp fo seid seq pri args ies).header.flags
          + ((preNew k mp fo seid seq pri args ies).body g).length - 4) } } hs hn
    have h2 := marshal_ok g
      { preNew k mp fo seid seq pri args ((ies.filterMap id).map some) with
        header := { (preNew k mp fo seid seq pri args ((ies.filterMap id).map some)).header with
          length := UInt16.ofNat
            (Header.fixedLen (preNew k mp fo seid seq pri args ((ies.filterMap id).map some)).header.flags
              + ((preNew k mp fo seid seq pri args ((ies.filterMap id).map some)).body g).length - 4) } }
      hs' hn'
    rw [h1, h2, e]
    unfold wire wireHeader body elements
    simp only [filterMap_id_map_some]

/-! ### C26 encoding does not disturb the message -/

/-- C26. Encoding changes only the cached payload and length of the header; afterwards `MarshalLen` is
the same and encoding again, any number of times, gives the same bytes and changes nothing more. -/
theorem C26_marshal_idempotent (m : Msg) (hs : m.Shaped) (hn : m.NoNil) :
    ∃ m' b, marshalSt g m = .ok (m', b) ∧ marshalSt g m' = .ok (m', b) ∧
      marshalLen g m' = marshalLen g m ∧
      m' = { m with header := { m.header with payload := m'.header.payload, length := m'.header.length } } := by
  have hs' : ({ m with header := m.wireHeader g } : Msg).Shaped := hs
  have hn' : ({ m with header := m.wireHeader g } : Msg).NoNil := hn
  refine ⟨_, _, marshalSt_ok g m hs hn, ?_, ?_, rfl⟩
  · rw [marshalSt_ok g _ hs' hn']; rfl
  · rw [marshalLen_ok g _ hs' hn', marshalLen_ok g _ hs hn]; rfl

/-! ### C27 pass-through -/

/-- C27 (a). Elements whose type is none of the message's fields' (unknown and vendor-specific ones among
them) are all kept, in order, and are the tail of the re-encoded body, unchanged. -/
theorem C27_unknown_elements (b : Bytes) (m : Msg) (h : parse g b = .ok m)
    (h2 : 2 ≤ m.header.payload.length) :
    ∃ xs b', parseMulti g m.header.payload = .ok xs ∧ marshal g m = .ok b' ∧
      encList g (xs.filter fun i => decide (∀ n ∈ m.kind.names, i.typ ≠ fieldIE m.kind n)) <:+ b' := by
  have hm := C22_reencode g b m h
  obtain ⟨hd, xs, hp, hh, hx, _, _, hi⟩ := C21_filing g b m h
  rw [hh] at h2
  rw [if_neg (by omega)] at hx
  refine ⟨xs, _, by rw [hh]; exact hx, hm, ?_⟩
  unfold wire Header.enc
  apply List.IsSuffix.trans _ (List.suffix_append _ _)
  show _ <:+ m.body g
  unfold body elements
  rw [encList_append, hi, filterMap_id_map_some]
  exact List.suffix_append _ _

/-- C27 (b). If no element of the body has the type of a field (in particular for a message of unknown
type, and for messages without fields) the datagram is reproduced byte for byte, apart from its length
field, which is made right. -/
theorem C27_passthrough (b : Bytes) (m : Msg) (h : parse g b = .ok m)
    (h1 : m.header.payload.length ≠ 1)
    (hu : m.kind = .generic ∨ ∀ xs, parseMulti g m.header.payload = .ok xs →
      ∀ i ∈ xs, ∀ n ∈ m.kind.names, i.typ ≠ fieldIE m.kind n) :
    marshal g m = .ok (b.take 2 ++ be16 (UInt16.ofNat (b.length - 4)) ++ b.drop 4) := by
  have hm := C22_reencode g b m h
  obtain ⟨hd, xs, hp, hh, hx, hnm, hf, hi⟩ := C21_filing g b m h
  have henc := (Header.parse_sound b hd hp).1
  have hxs : parseMulti g hd.payload = .ok xs := by
    by_cases h2 : hd.payload.length < 2
    · rw [if_pos h2] at hx
      rw [hh] at h1
      have : hd.payload = [] := List.eq_nil_of_length_eq_zero (by omega)
      rw [this, hx, parseMulti_nil]
    · rw [if_neg h2] at hx; exact hx
  have hpl : encList g xs = hd.payload := ((Pfcp.parse_sound g _).2 _ (Nat.le_refl _)).2 xs hxs
  have hall : ∀ i ∈ xs, ∀ n ∈ m.kind.names, i.typ ≠ fieldIE m.kind n := by
    rcases hu with hk | hu
    · intro i _ n hn
      rw [hk] at hn
      simp [Kind.names, Kind.tab, tabGeneric] at hn
    · exact hu xs (by rw [hh]; exact hxs)
  have hel : m.elements = xs := by
    unfold elements
    have e1 : m.fields.flatMap (fun p => p.2.elems) = [] := by
      rw [List.flatMap_eq_nil_iff]
      intro p hpm
      have hn : p.1 ∈ m.kind.names := by rw [← hnm]; exact List.mem_map.2 ⟨p, hpm, rfl⟩
      have : xs.filter (fun i => i.typ == fieldIE m.kind p.1) = [] := by
        rw [List.filter_eq_nil_iff]
        intro i hix
        simp [hall i hix p.1 hn]
      rw [hf p hpm, this]
      cases p.2.card <;> rfl
    have e2 : xs.filter (fun i => decide (∀ n ∈ m.kind.names, i.typ ≠ fieldIE m.kind n)) = xs := by
      rw [List.filter_eq_self]
      intro i hix
      simp only [decide_eq_true_eq]
      exact hall i hix
    rw [e1, hi, e2, filterMap_id_map_some, List.nil_append]
  rw [hm]
  congr 1
  have hb : m.body g = hd.payload := by unfold body; rw [hel, hpl]
  unfold wire wireHeader
  rw [hb, hh]
  have hlen : b.length = Header.fixedLen hd.flags + hd.payload.length := by
    rw [← henc, Header.enc_length]
  rw [hlen]
  conv => rhs; rw [← henc]
  rfl

/-- A datagram of an unknown kind with a vendor-specific element meets the hypotheses, and so does a
heartbeat request carrying an element that is not one of its fields. -/
example : ∃ m, parse (fun _ => false) [0x20, 200, 0, 0, 0, 0, 1, 0, 0x80, 1, 0, 3, 0, 10, 5] = .ok m ∧
    m.header.payload.length ≠ 1 ∧ m.kind = .generic := ⟨_, rfl, by decide, rfl⟩

example : ∃ m, parse (fun _ => false) [0x20, 1, 0, 0, 0, 0, 1, 0, 0, 60, 0, 1, 5] = .ok m ∧
    m.header.payload.length ≠ 1 ∧ m.kind = .heartbeatRequest ∧
    m.ies = [some ⟨60, 1, 0, [5], []⟩] := ⟨_, rfl, by decide, rfl, by decide⟩

/-- C27, violated at one point: a one-byte body is dropped. -/
theorem C27_one_byte_violated :
    (parse g [0x20, 200, 0, 5, 0, 0, 1, 0, 0xff] >>= marshal g)
      = .ok [0x20, 200, 0, 4, 0, 0, 1, 0] := by
  have : parse g [0x20, 200, 0, 5, 0, 0, 1, 0, 0xff]
      = .ok (filed .generic ⟨0x20, 200, 5, 0, 1, 0, [0xff]⟩ []) := by rw [parse_normal]; rfl
  rw [this, Res.ok_bind, marshal_ok g _ (filed_shaped _ _ _) (filed_noNil _ _ _)]
  have hb : (filed .generic ⟨0x20, 200, 5, 0, 1, 0, [0xff]⟩ []).body g = [] := by
    unfold body
    have : (filed .generic ⟨0x20, 200, 5, 0, 1, 0, [0xff]⟩ []).elements = [] := by decide
    rw [this, encList]
  unfold wire wireHeader
  rw [hb]
  rfl

/-! ### C28 names -/

/-- The request kinds, TS 29.244 table 7.3-1. -/
def requestKinds : List Kind :=
  [.heartbeatRequest, .pfdManagementRequest, .associationSetupRequest, .associationUpdateRequest,
   .associationReleaseRequest, .nodeReportRequest, .sessionSetDeletionRequest,
   .sessionEstablishmentRequest, .sessionModificationRequest, .sessionDeletionRequest,
   .sessionReportRequest]

/-- C28 (a). `IsRequest` is right for every kind. -/
theorem C28_isRequest (m : Msg) : m.isRequest = true ↔ m.kind ∈ requestKinds := by
  unfold isRequest
  cases m.kind <;> decide

/-- C28 (b), violated: two pairs of kinds share a name, and an update response, which is not a request,
is called "Association Update Request". -/
theorem C28_names_violated :
    Kind.associationUpdateResponse.tab.typeName = Kind.associationUpdateRequest.tab.typeName ∧
    Kind.sessionSetDeletionResponse.tab.typeName = Kind.nodeReportResponse.tab.typeName ∧
    Kind.associationUpdateResponse.tab.typeName = "Association Update Request" ∧
    Kind.associationUpdateResponse.tab.isRequest = false := by
  decide

/-- The name of each kind in TS 29.244 table 7.3-1 (without the "PFCP" prefix). -/
def specName : Kind → String
  | .heartbeatRequest => "Heartbeat Request"
  | .heartbeatResponse => "Heartbeat Response"
  | .pfdManagementRequest => "PFD Management Request"
  | .pfdManagementResponse => "PFD Management Response"
  | .associationSetupRequest => "Association Setup Request"
  | .associationSetupResponse => "Association Setup Response"
  | .associationUpdateRequest => "Association Update Request"
  | .associationUpdateResponse => "Association Update Response"
  | .associationReleaseRequest => "Association Release Request"
  | .associationReleaseResponse => "Association Release Response"
  | .versionNotSupportedResponse => "Version Not Supported Response"
  | .nodeReportRequest => "Node Report Request"
  | .nodeReportResponse => "Node Report Response"
  | .sessionSetDeletionRequest => "Session Set Deletion Request"
  | .sessionSetDeletionResponse => "Session Set Deletion Response"
  | .sessionEstablishmentRequest => "Session Establishment Request"
  | .sessionEstablishmentResponse => "Session Establishment Response"
  | .sessionModificationRequest => "Session Modification Request"
  | .sessionModificationResponse => "Session Modification Response"
  | .sessionDeletionRequest => "Session Deletion Request"
  | .sessionDeletionResponse => "Session Deletion Response"
  | .sessionReportRequest => "Session Report Request"
  | .sessionReportResponse => "Session Report Response"
  | .generic => "Unknown"

/-- C28 (b), partial: every other kind has its own name, the one in the standard. -/
theorem C28_names_partial (k : Kind) (h1 : k ≠ .associationUpdateResponse)
    (h2 : k ≠ .sessionSetDeletionResponse) : k.tab.typeName = specName k := by
  cases k <;> first | rfl | exact absurd rfl h1 | exact absurd rfl h2

/-! ### C45 decoding into a used message -/

/-- C45 is false: `UnmarshalBinary` on a message that already holds elements keeps those the new
datagram does not mention, and appends to the lists. -/
theorem C45_reuse_violated :
    let b : Bytes := [0x20, 9, 0, 9, 0, 0, 1, 0, 0, 60, 0, 1, 7]
    let e : Bytes := [0x20, 9, 0, 4, 0, 0, 2, 0]
    ∃ m m' m0, parse (fun _ => false) b = .ok m ∧ unmarshal (fun _ => false) m e = .ok m' ∧
      parse (fun _ => false) e = .ok m0 ∧ m'.fields ≠ m0.fields ∧
      m'.fields = [(.NodeID, .one (some ⟨60, 1, 0, [7], []⟩))] := by
  refine ⟨_, _, _, rfl, rfl, rfl, ?_, ?_⟩ <;> decide

/-- C45, partial: it holds for a zero message of the right kind (which is what `Parse` and the
`ParseXxx` functions use), and for the header in any case. -/
theorem C45_reuse_partial (b : Bytes) (k : Kind) (m : Msg)
    (h : ∃ t, b[1]? = some t ∧ kindOf t = k) :
    unmarshal g (zero k) b = parse g b ∧
    ∀ m', unmarshal g m b = .ok m' → Header.parse b = .ok m'.header := by
  constructor
  · obtain ⟨t, ht, hk⟩ := h
    unfold parse
    have hl : ¬ b.length < 2 := by
      intro hlt
      rw [List.getElem?_eq_none (by omega)] at ht; cases ht
    have hi : index b 1 = .ok t := by unfold index; rw [ht]
    rw [if_neg hl, hi, Res.ok_bind, hk]
  · intro m' hm
    unfold unmarshal at hm
    rw [Res.bind_eq_ok] at hm
    obtain ⟨hd, hp, hm⟩ := hm
    have hfa : ∀ cases (m1 : Msg) xs, fileAll cases m1 xs = .ok m' → m1.header = m'.header := by
      intro cases m1 xs
      induction xs generalizing m1 with
      | nil => intro h; cases h; rfl
      | cons x xs ih =>
        intro h
        simp only [fileAll] at h
        rw [Res.bind_eq_ok] at h
        obtain ⟨m2, h2, h3⟩ := h
        rw [← ih m2 h3]
        unfold file put at h2
        split at h2
        · split at h2
          · cases h2; rfl
          · cases h2
        · cases h2; rfl
    simp only at hm
    split at hm
    · cases hm; exact hp
    · rw [Res.bind_eq_ok] at hm
      obtain ⟨xs, _, hm⟩ := hm
      split at hm
      · cases hm; exact hp
      · rw [← hfa _ _ _ hm]; exact hp

/-! ### C46 fields of the standard -/

/-- The type of the element that TS 29.244 (table 7.5.5.1-1) puts where the library's session
modification response has the fields `PacketRateStatusReport` and `CreatedBridgeInfoForTSC` (the latter is
marked "TODO: rename" to TSCManagementInformation, /repo/message/session-modification-response.go:15).
Everything else is `fieldIE`. -/
def standardIE (k : Kind) (n : FieldName) : IEType :=
  match k, n with
  | .sessionModificationResponse, .PacketRateStatusReport => 264
  | .sessionModificationResponse, .CreatedBridgeInfoForTSC => 200
  | k, n => fieldIE k n

/-- C46 is false for two fields of the session modification response: the decoder leaves types 264 and
200 in the extra list and files 252 and 195 instead, although the library defines constants named
"... within session modification response" for 264 and 200. -/
theorem C46_field_type_violated :
    T.PacketRateStatusReportWithinSessionModificationResponse = 264 ∧
    T.TSCManagementInformationWithinSessionModificationResponse = 200 ∧
    Kind.sessionModificationResponse.tab.parseSwitch.lookup 264 = none ∧
    Kind.sessionModificationResponse.tab.parseSwitch.lookup 200 = none ∧
    Kind.sessionModificationResponse.tab.parseSwitch.lookup 252 = some .PacketRateStatusReport ∧
    Kind.sessionModificationResponse.tab.parseSwitch.lookup 195 = some .CreatedBridgeInfoForTSC := by
  decide

/-- C46, partial: every field of every other message, and every other field of that one, collects the
type that the standard assigns to it, and only that. -/
theorem C46_field_type_partial (k : Kind) (n : FieldName) (hn : n ∈ k.names) (t : IEType)
    (hx : k = .sessionModificationResponse →
      n ≠ .PacketRateStatusReport ∧ n ≠ .CreatedBridgeInfoForTSC) :
    k.tab.parseSwitch.lookup t = some n ↔ t = standardIE k n := by
  have : standardIE k n = fieldIE k n := by
    unfold standardIE
    split
    · exact absurd rfl (hx rfl).1
    · exact absurd rfl (hx rfl).2
    · rfl
  rw [this]
  exact Kind.lookup_switch k t n hn

end Msg
end Pfcp
