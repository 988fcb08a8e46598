/- Helper lemmas about messages. Property theorems are in `Verif/Message/Props.lean`. -/
import Verif.Message.TableFacts
import Verif.Message.HeaderProps

namespace Pfcp

/-! ### Association lists -/

theorem lookup_of_mem {α β : Type} [BEq α] [LawfulBEq α] (l : List (α × β)) (h : (l.map (·.1)).Nodup)
    (p : α × β) (hp : p ∈ l) : l.lookup p.1 = some p.2 := by
  induction l with
  | nil => cases hp
  | cons q l ih =>
    rw [List.map_cons, List.nodup_cons] at h
    obtain ⟨a, b⟩ := q
    rw [List.lookup_cons]
    cases hp with
    | head => simp
    | tail _ hp =>
      have : p.1 ≠ a := by
        intro he
        exact h.1 (List.mem_map.2 ⟨p, hp, he⟩)
      rw [beq_false_of_ne this]; exact ih h.2 hp

theorem mem_of_lookup {α β : Type} [BEq α] [LawfulBEq α] (l : List (α × β)) (a : α) (b : β)
    (h : l.lookup a = some b) : (a, b) ∈ l := by
  induction l with
  | nil => simp at h
  | cons q l ih =>
    obtain ⟨a', b'⟩ := q
    rw [List.lookup_cons] at h
    by_cases hh : a = a'
    · simp [hh] at h; simp [hh, h]
    · rw [beq_false_of_ne hh] at h; simp [ih h]

theorem lookup_none {α β : Type} [BEq α] [LawfulBEq α] (l : List (α × β)) (a : α) :
    l.lookup a = none ↔ a ∉ l.map (·.1) := by
  induction l with
  | nil => simp
  | cons q l ih =>
    obtain ⟨a', b'⟩ := q
    rw [List.lookup_cons]
    by_cases hh : a = a'
    · simp [hh]
    · rw [beq_false_of_ne hh, List.map_cons, List.mem_cons]; simp only [ih, hh, false_or]

theorem filterMap_id_map_some {α : Type} (l : List α) : (l.map some).filterMap id = l := by
  induction l with
  | nil => rfl
  | cons a l ih => simp

theorem map_some_filterMap {α : Type} (l : List (Option α)) (h : none ∉ l) :
    (l.filterMap id).map some = l := by
  induction l with
  | nil => rfl
  | cons a l ih =>
    cases a with
    | none => simp at h
    | some a => simp at h ⊢; exact ih h

namespace Msg

variable (g : IEType → Bool)

theorem get_ok (m : Msg) (h : (m.fields.map (·.1)).Nodup) (p : FieldName × Slot) (hp : p ∈ m.fields) :
    m.get p.1 = .ok p.2 := by
  unfold get; rw [lookup_of_mem _ h p hp]

theorem Shaped.names {m : Msg} (h : m.Shaped) : m.fields.map (·.1) = m.kind.tab.fields.map (·.1) := by
  have := congrArg (List.map (·.1)) h
  rw [List.map_map] at this
  exact this

theorem Shaped.nodup {m : Msg} (h : m.Shaped) : (m.fields.map (·.1)).Nodup := by
  rw [h.names]; exact Kind.names_nodup _

/-! ### Lengths -/

theorem lenMany_eq (l : Nat) (vs : List (Option IE)) (h : none ∉ vs) :
    lenMany g l vs = .ok (l + (encList g (vs.filterMap id)).length) := by
  induction vs generalizing l with
  | nil => simp [lenMany, encList]
  | cons v vs ih =>
    cases v with
    | none => simp at h
    | some i =>
      simp at h
      simp only [lenMany]
      rw [ih _ h]
      simp [encList, Pfcp.marshalLen_eq]
      omega

theorem lenMany_panic (l : Nat) (vs : List (Option IE)) (h : none ∈ vs) :
    lenMany g l vs = .panic := by
  induction vs generalizing l with
  | nil => cases h
  | cons v vs ih =>
    cases v with
    | none => rfl
    | some i =>
      simp at h
      simp only [lenMany]
      exact ih _ h

theorem lenSlot_eq (l : Nat) (s : Slot) (h : s.NoNil) :
    lenSlot g l s = .ok (l + (encList g s.elems).length) := by
  cases s with
  | one v => cases v <;> simp [lenSlot, Slot.elems, encList, Pfcp.marshalLen_eq]
  | many vs => exact lenMany_eq g l vs h

theorem lenSkipNil_eq (l : Nat) (vs : List (Option IE)) :
    lenSkipNil g l vs = l + (encList g (vs.filterMap id)).length := by
  induction vs generalizing l with
  | nil => simp [lenSkipNil, encList]
  | cons v vs ih =>
    cases v with
    | none => simp [lenSkipNil, ih]
    | some i => simp [lenSkipNil, ih, encList, Pfcp.marshalLen_eq]; omega

theorem lenFields_eq (m : Msg) (suf : List (FieldName × Slot)) (l : Nat)
    (hget : ∀ p ∈ suf, m.get p.1 = .ok p.2) (hnil : ∀ p ∈ suf, p.2.NoNil) :
    lenFields g m (suf.map (·.1)) l
      = .ok (l + (encList g (suf.flatMap (fun p => p.2.elems))).length) := by
  induction suf generalizing l with
  | nil => simp [lenFields, encList]
  | cons p suf ih =>
    simp only [List.map_cons, lenFields]
    rw [hget p (by simp), Res.ok_bind, lenSlot_eq g l _ (hnil p (by simp)), Res.ok_bind,
      ih _ (fun q hq => hget q (by simp [hq])) (fun q hq => hnil q (by simp [hq]))]
    simp [encList_append]
    omega

theorem header_len_sub (h : Header) : h.marshalLen - h.payload.length = Header.fixedLen h.flags := by
  rw [Header.marshalLen_eq, Header.enc_length]; omega

theorem marshalLen_ok (m : Msg) (hs : m.Shaped) (hn : m.NoNil) :
    marshalLen g m = .ok (Header.fixedLen m.header.flags + (m.body g).length) := by
  unfold marshalLen
  rw [Kind.lenOrder_eq, ← hs.names, lenFields_eq g m m.fields _ (fun p hp => get_ok m hs.nodup p hp) hn]
  simp [lenSkipNil_eq, header_len_sub, body, elements, encList_append]
  omega

theorem wire_length (m : Msg) : (m.wire g).length = Header.fixedLen m.header.flags + (m.body g).length := by
  unfold wire; rw [Header.enc_length]; rfl

/-! ### Encoding -/

theorem putIE_eq (i : IE) (A Z sp : Bytes) (h : (i.enc g).length ≤ Z.length) :
    putIE g i ⟨A ++ Z, sp⟩ A.length
      = .ok (⟨(A ++ i.enc g) ++ Z.drop (i.enc g).length, sp⟩, (A ++ i.enc g).length) := by
  unfold putIE
  rw [if_pos (by simp)]
  simp only [List.drop_left, List.take_left]
  rw [Pfcp.marshalTo_eq g i ⟨Z, sp⟩ h]
  simp [Pfcp.marshalLen_eq]

theorem putMany_eq (vs : List (Option IE)) (hn : none ∉ vs) (A Z sp : Bytes)
    (h : (encList g (vs.filterMap id)).length ≤ Z.length) :
    putMany g vs ⟨A ++ Z, sp⟩ A.length
      = .ok (⟨(A ++ encList g (vs.filterMap id)) ++ Z.drop (encList g (vs.filterMap id)).length, sp⟩,
          (A ++ encList g (vs.filterMap id)).length) := by
  induction vs generalizing A Z with
  | nil => simp [putMany, encList]
  | cons v vs ih =>
    cases v with
    | none => simp at hn
    | some i =>
      simp at hn
      simp [encList] at h
      simp only [putMany]
      rw [putIE_eq g i A Z sp (by omega), Res.ok_bind]
      simp only
      rw [ih hn _ _ (by simp; omega)]
      simp [encList, List.append_assoc]

theorem putSkipNil_eq (vs : List (Option IE)) (A Z sp : Bytes)
    (h : (encList g (vs.filterMap id)).length ≤ Z.length) :
    putSkipNil g vs ⟨A ++ Z, sp⟩ A.length
      = .ok (⟨(A ++ encList g (vs.filterMap id)) ++ Z.drop (encList g (vs.filterMap id)).length, sp⟩,
          (A ++ encList g (vs.filterMap id)).length) := by
  induction vs generalizing A Z with
  | nil => simp [putSkipNil, encList]
  | cons v vs ih =>
    cases v with
    | none =>
      simp only [putSkipNil]
      rw [ih A Z (by simpa using h)]
      simp
    | some i =>
      simp [encList] at h
      simp only [putSkipNil]
      rw [putIE_eq g i A Z sp (by omega), Res.ok_bind]
      simp only
      rw [ih _ _ (by simp; omega)]
      simp [encList, List.append_assoc]

theorem putSlot_eq (s : Slot) (hn : s.NoNil) (A Z sp : Bytes)
    (h : (encList g s.elems).length ≤ Z.length) :
    putSlot g s ⟨A ++ Z, sp⟩ A.length
      = .ok (⟨(A ++ encList g s.elems) ++ Z.drop (encList g s.elems).length, sp⟩,
          (A ++ encList g s.elems).length) := by
  cases s with
  | one v =>
    cases v with
    | none => simp [putSlot, Slot.elems, encList]
    | some i =>
      simp [Slot.elems, encList] at h
      simp only [putSlot]
      rw [putIE_eq g i A Z sp h]
      simp [Slot.elems, encList]
  | many vs => exact putMany_eq g vs hn A Z sp h

theorem putFields_eq (m : Msg) (suf : List (FieldName × Slot)) (A Z sp : Bytes)
    (hget : ∀ p ∈ suf, m.get p.1 = .ok p.2) (hnil : ∀ p ∈ suf, p.2.NoNil)
    (h : (encList g (suf.flatMap (fun p => p.2.elems))).length ≤ Z.length) :
    putFields g m (suf.map (·.1)) ⟨A ++ Z, sp⟩ A.length
      = .ok (⟨(A ++ encList g (suf.flatMap (fun p => p.2.elems)))
            ++ Z.drop (encList g (suf.flatMap (fun p => p.2.elems))).length, sp⟩,
          (A ++ encList g (suf.flatMap (fun p => p.2.elems))).length) := by
  induction suf generalizing A Z with
  | nil => simp [putFields, encList]
  | cons p suf ih =>
    simp [encList_append] at h
    simp only [List.map_cons, putFields]
    rw [hget p (by simp), Res.ok_bind, putSlot_eq g p.2 (hnil p (by simp)) A Z sp (by omega), Res.ok_bind]
    simp only
    rw [ih _ _ (fun q hq => hget q (by simp [hq])) (fun q hq => hnil q (by simp [hq])) (by simp; omega)]
    simp [encList_append, List.append_assoc]

theorem setLength_header (h : Header) :
    h.setLength = { h with length := UInt16.ofNat (Header.fixedLen h.flags + h.payload.length - 4) } := by
  unfold Header.setLength Header.fixedLen Header.hasSEID
  by_cases hs : has1stBit h.flags = true
  · simp only [hs, if_true]
    rw [show 16 + h.payload.length - 4 = (4 + h.payload.length) + 8 by omega,
      UInt16.ofNat_add (4 + h.payload.length) 8]
    rfl
  · have hs' : has1stBit h.flags = false := by simpa using hs
    simp only [hs']
    rw [if_neg (by simp), if_neg (by simp), show 8 + h.payload.length - 4 = 4 + h.payload.length by omega]

theorem marshalTo_ok (m : Msg) (hs : m.Shaped) (hn : m.NoNil) (b : Slice)
    (hb : (m.wire g).length ≤ b.data.length) :
    marshalTo g m b = .ok ({ m with header := m.wireHeader g },
      ⟨m.wire g ++ b.data.drop (m.wire g).length, b.spare⟩) := by
  have key : ∀ m0 : Msg, m0 = { m with header := { m.header with payload := [] } } →
      marshalLen g m0 = .ok (Header.fixedLen m.header.flags + (m.body g).length) ∧
      putFields g m0 m.kind.tab.marshalOrder (Slice.make (m.body g).length) 0
        = .ok (⟨encList g (m.fields.flatMap (fun p => p.2.elems)) ++
            (List.replicate (m.body g).length 0).drop
              (encList g (m.fields.flatMap (fun p => p.2.elems))).length, []⟩,
            (encList g (m.fields.flatMap (fun p => p.2.elems))).length) := by
    intro m0 h0
    have hs0 : m0.Shaped := by subst h0; exact hs
    have hn0 : m0.NoNil := by subst h0; exact hn
    constructor
    · rw [marshalLen_ok g m0 hs0 hn0]; subst h0; rfl
    · rw [Kind.marshalOrder_eq, ← hs.names]
      have := putFields_eq g m0 m.fields [] (List.replicate (m.body g).length 0) []
        (by intro p hp; exact get_ok m0 hs0.nodup p (by subst h0; exact hp)) hn
        (by simp [body, elements, encList_append])
      simpa [Slice.make] using this
  obtain ⟨k1, k2⟩ := key _ rfl
  unfold marshalTo
  simp only
  rw [k1, Res.ok_bind]
  have hfix : Header.marshalLen { m.header with payload := [] } = Header.fixedLen m.header.flags := by
    rw [Header.marshalLen_eq, Header.enc_length]; simp
  rw [hfix, show Header.fixedLen m.header.flags + (m.body g).length - Header.fixedLen m.header.flags
    = (m.body g).length by omega, k2, Res.ok_bind]
  simp only
  rw [putSkipNil_eq g m.ies _ _ _ (by
    simp [body, elements, encList_append])]
  simp only [Res.ok_bind]
  have hpl : encList g (m.fields.flatMap (fun p => p.2.elems)) ++ encList g (m.ies.filterMap id)
      = m.body g := by simp [body, elements, encList_append]
  rw [hpl, List.drop_drop]
  have hz : (List.replicate (m.body g).length (0 : UInt8)).drop
      ((encList g (m.fields.flatMap (fun p => p.2.elems))).length + (encList g (m.ies.filterMap id)).length)
      = [] := by
    apply List.drop_of_length_le
    rw [List.length_replicate, ← hpl, List.length_append]
    omega
  rw [hz, List.append_nil, setLength_header]
  have hw : (m.wireHeader g) = { { m.header with payload := m.body g } with
    length := UInt16.ofNat (Header.fixedLen m.header.flags + (m.body g).length - 4) } := rfl
  simp only
  rw [← hw, Header.marshalTo_eq _ _ hb]
  rfl

theorem marshalSt_ok (m : Msg) (hs : m.Shaped) (hn : m.NoNil) :
    marshalSt g m = .ok ({ m with header := m.wireHeader g }, m.wire g) := by
  unfold marshalSt
  rw [marshalLen_ok g m hs hn, Res.ok_bind, marshalTo_ok g m hs hn _ (by
    simp [Slice.make, wire_length])]
  simp [Slice.make, ← wire_length]

theorem marshal_ok (m : Msg) (hs : m.Shaped) (hn : m.NoNil) : marshal g m = .ok (m.wire g) := by
  unfold marshal; rw [marshalSt_ok g m hs hn]; rfl

/-! ### Filing -/

def putAll (s : Slot) (xs : List IE) : Slot := xs.foldl (fun s i => s.put i) s

theorem putAll_card (s : Slot) (xs : List IE) : (putAll s xs).card = s.card := by
  induction xs generalizing s with
  | nil => rfl
  | cons x xs ih => 
    simp only [putAll, List.foldl_cons] at ih ⊢
    rw [ih]
    cases s <;> rfl

theorem fileAll_eq (cases : List (IEType × FieldName)) (m : Msg)
    (hn : ∀ c ∈ cases, c.2 ∈ m.fields.map (·.1)) (xs : List IE) :
    fileAll cases m xs = .ok
      { m with
        fields := m.fields.map fun p =>
          (p.1, putAll p.2 (xs.filter fun i => decide (cases.lookup i.typ = some p.1)))
        ies := m.ies ++ (xs.filter fun i => decide (cases.lookup i.typ = none)).map some } := by
  induction xs generalizing m with
  | nil => simp [fileAll, putAll]
  | cons i xs ih =>
    simp only [fileAll]
    unfold file
    cases hl : cases.lookup i.typ with
    | none =>
      simp only [Res.ok_bind]
      rw [ih { m with ies := m.ies ++ [some i] } hn]
      simp [hl]
    | some n =>
      simp only
      have hmem := hn _ (mem_of_lookup _ _ _ hl)
      unfold put
      rw [if_pos hmem, Res.ok_bind, ih _ (by
        intro c hc
        have := hn c hc
        simp only [List.map_map]
        have he : ((fun (p : FieldName × Slot) => p.1) ∘ fun p => if p.1 = n then (p.1, p.2.put i) else p)
            = fun p => p.1 := by
          funext p; simp only [Function.comp]; split <;> rfl
        rw [he]; exact this)]
      congr 1
      have : (i :: xs).filter (fun i => decide (cases.lookup i.typ = none))
          = xs.filter (fun i => decide (cases.lookup i.typ = none)) := by
        simp [hl]
      rw [this]
      congr 1
      rw [List.map_map]
      apply List.map_congr_left
      intro p _
      simp only [Function.comp]
      by_cases hp : p.1 = n
      · simp [hp, hl, putAll]
      · have : n ≠ p.1 := fun h => hp h.symm
        simp [hp, hl, this]

end Msg
end Pfcp
