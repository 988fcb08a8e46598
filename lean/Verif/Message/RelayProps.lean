/-
Property C92: when a program that decodes a datagram and encodes the message again sends the octets it received.
-/
import Verif.Message.Relay

namespace Pfcp
namespace Msg

variable (g : IEType → Bool)

theorem types_nodup (k : Kind) : (k.names.map (fieldIE k)).Nodup := by
  have hn' : k.names.Nodup := Kind.names_nodup k
  rw [List.nodup_iff_pairwise_ne] at hn' ⊢
  rw [List.pairwise_map]
  refine List.Pairwise.imp_of_mem ?_ hn'
  intro a b ha hb hab he
  exact hab (Kind.fieldIE_inj k a b ha hb he)

theorem filed_elements_eq (k : Kind) (h : Header) (xs : List IE) : (filed k h xs).elements =
    (k.tab.fields.flatMap fun p =>
      (Slot.collect p.2 (xs.filter fun i => decide (i.typ = fieldIE k p.1))).elems) ++
    xs.filter fun i => decide (∀ n ∈ k.names, i.typ ≠ fieldIE k n) := by
  simp only [elements, filed, filterMap_id_map_some, List.flatMap_map]

theorem collect_all (c : Card) (l : List IE) (h : c = .one → l.length ≤ 1) : (Slot.collect c l).elems = l := by
  cases c with
  | many => simp [Slot.collect, Slot.elems]
  | one =>
    have := h rfl
    match l, this with
    | [], _ => rfl
    | [x], _ => rfl

theorem once_elements (k : Kind) (h : Header) (xs : List IE) (ho : Once k xs) : (filed k h xs).elements =
    (k.names.flatMap fun n => xs.filter fun i => decide (i.typ = fieldIE k n)) ++
    xs.filter fun i => decide (∀ n ∈ k.names, i.typ ≠ fieldIE k n) := by
  rw [filed_elements_eq]
  congr 1
  unfold Kind.names
  rw [List.flatMap_map]
  have : ∀ (l : List (FieldName × Card)), (∀ p ∈ l, p ∈ k.tab.fields) →
      (l.flatMap fun p =>
        (Slot.collect p.2 (xs.filter fun i => decide (i.typ = fieldIE k p.1))).elems) =
      l.flatMap fun p => xs.filter fun i => decide (i.typ = fieldIE k p.1) := by
    intro l
    induction l with
    | nil => intro _; rfl
    | cons a l ih =>
      intro hl
      simp only [List.flatMap_cons]
      rw [ih (fun p hp => hl p (by simp [hp])), collect_all]
      intro hc
      have := hl a (by simp)
      obtain ⟨n, c⟩ := a
      cases hc
      exact ho n this
  exact this _ (fun _ h => h)

/-- Filing keeps the sequence of elements exactly if it is in place and has no repetitions. -/
theorem filed_id_iff (k : Kind) (h : Header) (xs : List IE) :
    (filed k h xs).elements = xs ↔ InPlace k xs ∧ Once k xs := by
  constructor
  · intro he
    have ho : Once k xs := by
      intro n hn
      have hs := filed_shaped k h xs
      have hk : (filed k h xs).kind = k := rfl
      have hmem : (n, Slot.collect .one (xs.filter fun i => decide (i.typ = fieldIE k n))) ∈
          (filed k h xs).fields := List.mem_map.2 ⟨(n, .one), hn, rfl⟩
      have hc : ∀ l : List IE, (Slot.collect .one l).elems.length ≤ 1 := by
        intro l
        simp only [Slot.collect, Slot.elems]
        cases l.getLast? <;> simp
      have hff := filter_flatMap (fieldIE k) (filed k h xs).fields hs.nodup (by
          intro p hp q hq
          have hnm : ∀ p ∈ (filed k h xs).fields, p.1 ∈ k.names := by
            intro p hp
            obtain ⟨q, hq, rfl⟩ := List.mem_map.1 hp
            exact List.mem_map.2 ⟨q, hq, rfl⟩
          exact Kind.fieldIE_inj k _ _ (hnm p hp) (hnm q hq)) (by
          intro p hp i hi
          obtain ⟨q, _, rfl⟩ := List.mem_map.1 hp
          have := collect_elems_mem _ _ i hi
          simp only [List.mem_filter, decide_eq_true_eq] at this
          exact this.2) _ hmem
      have e : xs.filter (fun i => decide (i.typ = fieldIE k n)) =
          (Slot.collect .one (xs.filter fun i => decide (i.typ = fieldIE k n))).elems := by
        conv => lhs; rw [← he]
        unfold elements
        rw [List.filter_append]
        simp only at hff
        rw [hff]
        have : ((filed k h xs).ies.filterMap id).filter (fun i => decide (i.typ = fieldIE k n)) = [] := by
          simp only [filed, filterMap_id_map_some]
          rw [List.filter_filter, List.filter_eq_nil_iff]
          intro i _
          simp only [Bool.and_eq_true, decide_eq_true_eq, not_and]
          intro h1 h2
          exact h2 n (List.mem_map.2 ⟨_, hn, rfl⟩) h1
        rw [this, List.append_nil]
      rw [e]
      exact hc _
    refine ⟨?_, ho⟩
    have := (parts_sorted k (types_nodup k) (fun n => xs.filter fun i => decide (i.typ = fieldIE k n))
      (by intro n i hi; simpa using (List.mem_filter.1 hi).2)
      (xs.filter fun i => decide (∀ n ∈ k.names, i.typ ≠ fieldIE k n))
      (by intro i hi n hn
          have := (List.mem_filter.1 hi).2
          simp only [decide_eq_true_eq] at this
          exact this n hn) k.names [] rfl).1
    rw [← once_elements k h xs ho, he] at this
    exact this
  · rintro ⟨hp, ho⟩
    rw [once_elements k h xs ho]
    exact (sorted_parts k k.names (types_nodup k) xs hp).symm

/-- Filing never adds octets, and loses none exactly if nothing is repeated. -/
theorem filed_octets (k : Kind) (h : Header) (xs : List IE) : octets g (filed k h xs).elements ≤ octets g xs ∧
    (octets g (filed k h xs).elements = octets g xs ↔ Once k xs) := by
  have hun : (xs.filter fun i => decide (i.typ ∉ k.names.map (fieldIE k))) =
      xs.filter fun i => decide (∀ n ∈ k.names, i.typ ≠ fieldIE k n) := by
    apply List.filter_congr
    intro i _
    apply decide_eq_decide.2
    simp only [List.mem_map, not_exists, not_and]
    exact ⟨fun h n hn he => h n hn he.symm, fun h n hn he => h n hn he.symm⟩
  have h1 := octets_types g xs _ (types_nodup k)
  rw [hun] at h1
  have h2 := congrArg (octets g) (filed_elements_eq k h xs)
  rw [octets_append, octets_flatMap] at h2
  have hsum : ((k.names.map (fieldIE k)).map fun t => octets g (xs.filter fun i => decide (i.typ = t))).sum =
      (k.tab.fields.map fun p => octets g (xs.filter fun i => decide (i.typ = fieldIE k p.1))).sum := by
    simp [Kind.names, List.map_map, Function.comp_def]
  rw [hsum] at h1
  have hmono : ∀ l : List (FieldName × Card), (l.map fun p => octets g (Slot.collect p.2 (xs.filter fun i => decide (i.typ = fieldIE k p.1))).elems).sum ≤
      (l.map fun p => octets g (xs.filter fun i => decide (i.typ = fieldIE k p.1))).sum := by
    intro l
    induction l with
    | nil => simp
    | cons a l ih =>
      have := (collect_octets g a.2 (xs.filter fun i => decide (i.typ = fieldIE k a.1))).1
      simp only [List.map_cons, List.sum_cons]; omega
  have hle : octets g (filed k h xs).elements ≤ octets g xs := by
    have := hmono k.tab.fields
    omega
  refine ⟨hle, ?_, ?_⟩
  · intro he n hn
    have := sum_eq_pointwise k.tab.fields
      (fun p => octets g (Slot.collect p.2 (xs.filter fun i => decide (i.typ = fieldIE k p.1))).elems)
      (fun p => octets g (xs.filter fun i => decide (i.typ = fieldIE k p.1)))
      (fun p _ => (collect_octets g p.2 _).1) (by omega) _ hn
    have e := (collect_octets g .one _).2 this
    rw [← e]
    simp only [Slot.collect, Slot.elems]
    generalize (xs.filter fun i => decide (i.typ = fieldIE k n)).getLast? = o
    cases o <;> simp
  · intro ho
    have e := once_elements k h xs ho
    rw [e, octets_append, octets_flatMap, h1]
    congr 1
    simp [Kind.names, List.map_map, Function.comp_def]

/-- What the decoder leaves: a body of one octet, or a sequence of elements whose octets are the body. -/
theorem parse_body (b : Bytes) (m : Msg) (h : parse g b = .ok m) :
    m.header.enc = b ∧
    ((m.header.payload.length = 1 ∧ m = filed m.kind m.header []) ∨
     (m.header.payload.length ≠ 1 ∧ ∃ xs, parseMulti g m.header.payload = .ok xs ∧
        encList g xs = m.header.payload ∧ m = filed m.kind m.header xs)) := by
  rw [parse_normal, Res.bind_eq_ok] at h
  obtain ⟨hd, hp, h⟩ := h
  have hs := (Header.parse_sound _ _ hp).1
  by_cases h2 : hd.payload.length < 2
  · rw [if_pos h2] at h
    cases h
    refine ⟨hs, ?_⟩
    by_cases h1 : hd.payload.length = 1
    · exact .inl ⟨h1, rfl⟩
    · have h0 : hd.payload = [] := List.length_eq_zero_iff.1 (by omega)
      refine .inr ⟨h1, [], ?_, ?_, rfl⟩
      · show parseMulti g hd.payload = _
        rw [h0, parseMulti_nil]
      · show _ = hd.payload
        rw [h0]; rfl
  · rw [if_neg h2, Res.bind_eq_ok] at h
    obtain ⟨xs, hx, h⟩ := h
    cases h
    exact ⟨hs, .inr ⟨(by show hd.payload.length ≠ 1; omega), xs, hx,
      ((Pfcp.parse_sound g _).2 _ (Nat.le_refl _)).2 xs hx, rfl⟩⟩

/-- Sent and received agree exactly if the announced length is right and the body comes out the same. -/
theorem wire_eq_iff (m : Msg) : m.wire g = m.header.enc ↔
    m.header.length = UInt16.ofNat (m.header.enc.length - 4) ∧ m.body g = m.header.payload := by
  have hw : m.wire g = ([m.header.flags, m.header.typ] ++ be16 (UInt16.ofNat (Header.fixedLen m.header.flags + (m.body g).length - 4)) ++
      (if has1stBit m.header.flags then be64 m.header.seid else []) ++ beBytes 3 m.header.seq.toNat ++ [m.header.pri]) ++ m.body g := rfl
  have he : m.header.enc = ([m.header.flags, m.header.typ] ++ be16 m.header.length ++
      (if has1stBit m.header.flags then be64 m.header.seid else []) ++ beBytes 3 m.header.seq.toNat ++ [m.header.pri]) ++ m.header.payload := rfl
  have hl := Header.enc_length m.header
  constructor
  · intro h
    rw [hw, he] at h
    have hb := List.append_inj h (by simp)
    refine ⟨?_, hb.2⟩
    have h1 := congrArg (fun l => (l.drop 2).take 2) hb.1
    simp only [List.append_assoc, List.cons_append, List.nil_append, List.drop_succ_cons, List.drop_zero] at h1
    rw [List.take_left' (by simp), List.take_left' (by simp)] at h1
    have h2 : UInt16.ofNat (Header.fixedLen m.header.flags + (m.body g).length - 4) = m.header.length := by
      rw [← dec16_be16 m.header.length, ← h1, dec16_be16]
    rw [← h2, hl, hb.2]
  · rintro ⟨h1, h2⟩
    rw [hw, he, h2, ← hl, ← h1]

/-- C92, exactly: a decoded datagram is encoded into the same octets if and only if its length field counts what
follows the fourth octet, its body is not a single octet, its elements come in the order of the fields of the message
(those without a field last), and no element of a pointer field occurs twice. -/
theorem C92_relay_iff (b : Bytes) (m : Msg) (h : parse g b = .ok m) :
    marshal g m = .ok b ↔
      m.header.length = UInt16.ofNat (b.length - 4) ∧ m.header.payload.length ≠ 1 ∧
      ∀ xs, parseMulti g m.header.payload = .ok xs → InPlace m.kind xs ∧ Once m.kind xs := by
  rw [C22_reencode g b m h]
  obtain ⟨hb, hc⟩ := parse_body g b m h
  have hin : (Res.ok (m.wire g) = Res.ok b) ↔ m.wire g = m.header.enc := by
    rw [hb]; exact ⟨Res.ok.inj, congrArg _⟩
  rw [hin, wire_eq_iff, hb]
  apply and_congr_right
  intro _
  rcases hc with ⟨h1, hm⟩ | ⟨h1, xs, hx, hxe, hm⟩
  · refine ⟨fun hbody => ?_, fun hh => absurd h1 hh.1⟩
    exfalso
    have hz : m.body g = [] := by
      rw [hm]
      have : (filed m.kind m.header []).elements = [] := by
        have := filed_elements_mem m.kind m.header []
        exact List.eq_nil_iff_forall_not_mem.2 fun i hi => by cases this i hi
      unfold body
      rw [this]; rfl
    rw [hz] at hbody
    rw [← hbody] at h1
    simp at h1
  · have e : m.body g = m.header.payload ↔ (filed m.kind m.header xs).elements = xs := by
      rw [← hxe]
      unfold body
      rw [← hm]
      constructor
      · intro he
        refine enc_same g _ _ he ?_
        intro t
        have ho : octets g (filed m.kind m.header xs).elements = octets g xs := by
          unfold octets; rw [← hm, he]
        have := filed_same g m.kind m.header xs ho t
        rwa [← hm] at this
      · intro he; rw [he]
    rw [e, filed_id_iff]
    constructor
    · intro hh
      refine ⟨h1, fun ys hy => ?_⟩
      rw [hx] at hy
      cases hy
      exact hh
    · intro hh
      exact hh.2 xs hx

/-- A heartbeat request whose length field is right and whose two elements are in place. -/
example : parse (fun _ => false) [0x20, 1, 0, 13, 0, 0, 1, 0, 0, 96, 0, 1, 7, 0, 192, 0, 0] =
    .ok ⟨.heartbeatRequest, ⟨0x20, 1, 13, 0, 1, 0, [0, 96, 0, 1, 7, 0, 192, 0, 0]⟩,
      [(.RecoveryTimeStamp, .one (some ⟨96, 1, 0, [7], []⟩)), (.SourceIPAddress, .one (some ⟨192, 0, 0, [], []⟩))], []⟩ := by
  decide +kernel

/-- Its elements are in place and occur once; exchanged they are not in place. -/
example : InPlace .heartbeatRequest [⟨96, 1, 0, [7], []⟩, ⟨192, 0, 0, [], []⟩] ∧
    Once .heartbeatRequest [⟨96, 1, 0, [7], []⟩, ⟨192, 0, 0, [], []⟩] ∧
    ¬ InPlace .heartbeatRequest [⟨192, 0, 0, [], []⟩, ⟨96, 1, 0, [7], []⟩] ∧
    ¬ Once .heartbeatRequest [⟨96, 1, 0, [7], []⟩, ⟨96, 0, 0, [], []⟩] := by
  refine ⟨?_, ?_, ?_, ?_⟩
  · unfold InPlace; decide
  · intro n hn
    simp only [Kind.tab, tabHeartbeatRequest, List.mem_cons, Prod.mk.injEq, and_true, List.not_mem_nil, or_false] at hn
    rcases hn with rfl | rfl <;> decide
  · unfold InPlace; decide
  · intro h
    exact absurd (h .RecoveryTimeStamp (by decide)) (by decide)

/-- C92, violated: three accepted datagrams that come out differently. The first has its elements in another order and
they are exchanged, the second repeats an element and the first of the two is lost, the third announces no body and the
length field is put right. -/
theorem C92_relay_violated :
    (parse (fun _ => false) [0x20, 1, 0, 13, 0, 0, 1, 0, 0, 192, 0, 0, 0, 96, 0, 1, 7] >>= marshal (fun _ => false)) =
      .ok [0x20, 1, 0, 13, 0, 0, 1, 0, 0, 96, 0, 1, 7, 0, 192, 0, 0] ∧
    (parse (fun _ => false) [0x20, 1, 0, 14, 0, 0, 1, 0, 0, 96, 0, 1, 6, 0, 96, 0, 1, 7] >>= marshal (fun _ => false)) =
      .ok [0x20, 1, 0, 9, 0, 0, 1, 0, 0, 96, 0, 1, 7] ∧
    (parse (fun _ => false) [0x20, 1, 0, 4, 0, 0, 1, 0, 0, 96, 0, 1, 7] >>= marshal (fun _ => false)) =
      .ok [0x20, 1, 0, 9, 0, 0, 1, 0, 0, 96, 0, 1, 7] := by
  decide +kernel

/-- C92, what holds of every datagram: the re-encoded message starts with the same flags and type, carries the same
session, sequence number and priority, is never longer than the datagram, and is as long as the datagram exactly if
nothing was repeated (and the body is not a single octet). -/
theorem C92_relay_partial (b : Bytes) (m : Msg) (h : parse g b = .ok m) :
    ∃ w, marshal g m = .ok w ∧ w.length ≤ b.length ∧
      w.take 2 = b.take 2 ∧
      (w.drop 4).take (Header.fixedLen m.header.flags - 4) = (b.drop 4).take (Header.fixedLen m.header.flags - 4) ∧
      (w.length = b.length ↔ m.header.payload.length ≠ 1 ∧
        ∀ xs, parseMulti g m.header.payload = .ok xs → Once m.kind xs) := by
  refine ⟨m.wire g, C22_reencode g b m h, ?_⟩
  obtain ⟨hb, hc⟩ := parse_body g b m h
  have hl := Header.enc_length m.header
  rw [hb] at hl
  have hwl : (m.wire g).length = Header.fixedLen m.header.flags + (m.body g).length := wire_length g m
  have hw : m.wire g = [m.header.flags, m.header.typ] ++ (be16 (UInt16.ofNat (Header.fixedLen m.header.flags + (m.body g).length - 4)) ++
      (((if has1stBit m.header.flags then be64 m.header.seid else []) ++ beBytes 3 m.header.seq.toNat ++ [m.header.pri]) ++ m.body g)) := by
    show Header.enc _ = _
    simp [Header.enc, wireHeader]
    rfl
  have he : b = [m.header.flags, m.header.typ] ++ (be16 m.header.length ++
      (((if has1stBit m.header.flags then be64 m.header.seid else []) ++ beBytes 3 m.header.seq.toNat ++ [m.header.pri]) ++ m.header.payload)) := by
    rw [← hb]; simp [Header.enc]
  have hfix : ((if has1stBit m.header.flags then be64 m.header.seid else []) ++ beBytes 3 m.header.seq.toNat ++ [m.header.pri]).length =
      Header.fixedLen m.header.flags - 4 := by
    unfold Header.fixedLen; split <;> simp
  have hhead : (m.wire g).take 2 = b.take 2 ∧ ((m.wire g).drop 4).take (Header.fixedLen m.header.flags - 4) =
      (b.drop 4).take (Header.fixedLen m.header.flags - 4) := by
    have d4 : ∀ (x y : Bytes) (z : Bytes), x.length = 2 → y.length = 2 → (x ++ (y ++ z)).drop 4 = z := by
      intro x y z hx hy
      rw [← List.append_assoc]
      exact List.drop_left' (by simp [hx, hy])
    refine ⟨?_, ?_⟩
    · rw [hw]; conv => rhs; rw [he]
      rfl
    · rw [hw, d4 _ _ _ rfl (by simp), List.take_left' hfix]
      conv => rhs; rw [he]
      rw [d4 _ _ _ rfl (by simp), List.take_left' hfix]
  have hbody : (m.body g).length ≤ m.header.payload.length ∧
      ((m.body g).length = m.header.payload.length ↔ m.header.payload.length ≠ 1 ∧
        ∀ xs, parseMulti g m.header.payload = .ok xs → Once m.kind xs) := by
    rcases hc with ⟨h1, hm⟩ | ⟨h1, xs, hx, hxe, hm⟩
    · have hz : m.body g = [] := by
        rw [hm]
        have : (filed m.kind m.header []).elements = [] := by
          have := filed_elements_mem m.kind m.header []
          exact List.eq_nil_iff_forall_not_mem.2 fun i hi => by cases this i hi
        unfold body
        rw [this]; rfl
      rw [hz, h1]
      simp
    · have hbo : (m.body g).length = octets g (filed m.kind m.header xs).elements := by
        rw [← hm]; rfl
      have hpo : m.header.payload.length = octets g xs := by rw [← hxe]; rfl
      obtain ⟨hle, heq⟩ := filed_octets g m.kind m.header xs
      rw [hbo, hpo]
      refine ⟨hle, ?_⟩
      rw [heq]
      constructor
      · intro ho
        refine ⟨by rw [← hpo]; exact h1, fun ys hy => ?_⟩
        rw [hx] at hy; cases hy; exact ho
      · intro hh; exact hh.2 xs hx
  refine ⟨by omega, hhead.1, hhead.2, ?_⟩
  rw [← hbody.2]
  omega

/-- C92, own messages: what the library has encoded from a well-formed message is relayed unchanged. -/
theorem C92_own_messages (m : Msg) (hw : m.WF g) : ∃ b m', marshal g m = .ok b ∧ parse g b = .ok m' ∧ marshal g m' = .ok b := by
  obtain ⟨b, h1, h2⟩ := C20_message_roundtrip g m hw
  refine ⟨b, _, h1, h2, ?_⟩
  rw [C22_reencode g b _ h2, ← h1, marshal_ok g m hw.shaped hw.noNil]
  congr 1
  have he : ({ m with header := m.wireHeader g, ies := (m.ies.filterMap id).map some } : Msg).elements = m.elements := by
    simp [elements]
  have key : ∀ m' : Msg, m'.elements = m.elements → m'.header = m.wireHeader g → m'.wire g = m.wire g := by
    intro m' e h
    unfold wire
    congr 1
    unfold wireHeader body
    rw [e, h]
    rfl
  exact key _ he rfl

/-- C92, settling: a relayed datagram whose elements (all but the last to be sent) announce exactly what they hold is
relayed unchanged by every further relay. -/
theorem C92_settles (b w : Bytes) (m : Msg) (h : parse g b = .ok m) (hm : marshal g m = .ok w)
    (hc : ∀ i ∈ m.elements.dropLast, (i.enc g).length = 4 + i.length.toNat) :
    ∃ m', parse g w = .ok m' ∧ marshal g m' = .ok w := by
  obtain ⟨w', h1, h2⟩ := (C22_stability_iff g b m h).2 hc
  rw [hm] at h1
  cases h1
  refine ⟨_, h2, ?_⟩
  rw [C22_reencode g w _ h2, ← hm, C22_reencode g b m h]
  rfl

end Msg
end Pfcp
