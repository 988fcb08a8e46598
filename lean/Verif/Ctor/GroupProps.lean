/-
C54: constructors of grouped elements and the accessors that list the children.
-/
import Verif.Ctor.GroupSpec
import Verif.Acc.Props
import Verif.Ctor.Lemmas

namespace Pfcp

theorem GroupCtor.mem_all (c : GroupCtor) : c ∈ GroupCtor.all := by cases c <;> decide +kernel

theorem forall_group {p : GroupCtor → Bool} (h : GroupCtor.all.all p = true) (c : GroupCtor) : p c = true :=
  List.all_eq_true.1 h c (GroupCtor.mem_all c)

/-- With the default set of grouped types, all of the theorems apply. -/
theorem C54_default (c : GroupCtor) : defaultGroupedTypes.contains c.def = true ∧ isVendor c.def = false := by
  have h := forall_group (p := fun c => defaultGroupedTypes.contains c.def && !isVendor c.def) (by decide +kernel) c
  simpa using h

/-- The constructor makes an element of a type that the accessor with its name is meant to read. -/
theorem C54_type (c : GroupCtor) : c.def ∈ c.acc.home := by
  simpa using forall_group (p := fun c => c.acc.home.contains c.def) (by decide +kernel) c

/-- Different constructors make elements of different types, apart from the three ways to make redundant transmission
parameters, and the old and the new name of the TSC management information. -/
theorem C54_distinct (c d : GroupCtor) (h : c.def = d.def) :
    c = d ∨ (c.acc = .RedundantTransmissionParameters ∧ d.acc = .RedundantTransmissionParameters) ∨
      (c.acc = .TSCManagementInformation ∧ d.acc = .PortManagementInformationForTSC) ∨
      (d.acc = .TSCManagementInformation ∧ c.acc = .PortManagementInformationForTSC) := by
  have key := forall_group (p := fun c => GroupCtor.all.all (fun d => decide (c.def = d.def →
    c = d ∨ (c.acc = .RedundantTransmissionParameters ∧ d.acc = .RedundantTransmissionParameters) ∨
      (c.acc = .TSCManagementInformation ∧ d.acc = .PortManagementInformationForTSC) ∨
      (d.acc = .TSCManagementInformation ∧ c.acc = .PortManagementInformationForTSC)))) (by decide +kernel) c
  exact of_decide_eq_true (List.all_eq_true.1 key d (GroupCtor.mem_all d)) h

theorem group_leaf (c : GroupCtor) : c.acc.table.pre = 0 ∧ c.acc.table.cases.lookup c.def = some (.leaf .ies) := by
  have h := forall_group (p := fun c => c.acc.table.pre == 0 && (match c.acc.table.cases.lookup c.def with
    | some (.leaf .ies) => true
    | _ => false)) (by decide +kernel) c
  simp only [Bool.and_eq_true, beq_iff_eq] at h
  refine ⟨h.1, ?_⟩
  have h2 := h.2
  split at h2
  · assumption
  · cases h2

theorem wfList_of {g : IEType → Bool} : ∀ l : List IE, (∀ c ∈ l, c.WF g) → WFList g l
  | [], _ => trivial
  | i :: is, h => ⟨h i (by simp), wfList_of is fun j hj => h j (by simp [hj])⟩

/-- What a grouped constructor makes. -/
theorem newGrouped_eq (g : IEType → Bool) (t : IEType) (cs : List (Option IE)) (hv : isVendor t = false) :
    newGrouped g t 0 cs = .ok (some ⟨t, UInt16.ofNat (encList g (cs.filterMap id)).length, 0,
      encList g (cs.filterMap id), cs.filterMap id⟩) := by
  simp [newGrouped, newGroupedLoop_eq, IE.newVendor, IE.setLength, hv]

/-- A decoded element has no more payload than its length field says. -/
theorem parse_payload_le {g : IEType → Bool} {b : Bytes} {i : IE} (h : parse g b = .ok i) :
    i.payload.length ≤ i.length.toNat := by
  rw [parse_unfold, parseBody_eq] at h
  split at h
  · cases h
  dsimp only at h
  split at h
  · cases h
  split at h
  · cases h
  split at h
  · cases h
    exact Nat.zero_le _
  split at h
  · cases h
  split at h
  · obtain ⟨cs, -, h⟩ := Res.bind_eq_ok.1 h
    cases h
    simp only [List.length_take]
    omega
  · cases h
    simp only [List.length_take]
    omega

/-- An element made of well-formed children (nil ones are skipped), none, one or many, whose encodings fit the 16-bit
length together, is encoded, is decoded to itself whatever follows it, and its accessor lists exactly these children in
the order given. -/
theorem C54_children (g : IEType → Bool) (mem : IE → Bytes) (c : GroupCtor) (cs : List (Option IE)) (rest : Bytes)
    (hg : g c.def = true) (hwf : ∀ x ∈ cs.filterMap id, x.WF g) (hsz : (encList g (cs.filterMap id)).length ≤ 65535) :
    ∃ i b, c.build g cs = .ok (some i) ∧ i.marshal g = .ok b ∧ parse g (b ++ rest) = .ok i ∧
      c.acc.call g mem i = .ok (.ies (cs.filterMap id)) ∧ i.children = cs.filterMap id ∧ i.WF g := by
  have hv := (C54_default c).2
  have hwl := wfList_of _ hwf
  have hw : IE.WF g ⟨c.def, UInt16.ofNat (encList g (cs.filterMap id)).length, 0, encList g (cs.filterMap id),
      cs.filterMap id⟩ := by
    refine ⟨?_, fun _ => rfl, by simp [hg, hwl]⟩
    simp only [UInt16.toNat_ofNat', hv]
    rw [Nat.mod_eq_of_lt (by omega)]
    simp
  obtain ⟨b, h1, h2⟩ := C01_ie_roundtrip (g := g) _ hw rest
  refine ⟨_, b, newGrouped_eq g c.def cs hv, h1, h2, ?_, rfl, hw⟩
  obtain ⟨l1, l2⟩ := group_leaf c
  rw [call_leaf g mem c.acc _ .ies l2 (by omega)]
  show (parseMulti g (encList g (cs.filterMap id)) >>= fun v => Res.ok (Val.ies v)) = _
  rw [parseMulti_enc g _ hwl]
  rfl

/-- For instance: a removal of two forwarding rules and a nil argument. -/
example : (∀ x ∈ ([some (IE.new T.FARID [0, 0, 0, 1]), none, some (IE.new T.FARID [0, 0, 0, 2])] :
      List (Option IE)).filterMap id, x.WF defaultGroupedTypes.contains) ∧
    (encList defaultGroupedTypes.contains ([some (IE.new T.FARID [0, 0, 0, 1]), none,
      some (IE.new T.FARID [0, 0, 0, 2])].filterMap id)).length ≤ 65535 := by
  have h : ∀ p : Bytes, p.length = 4 → (IE.new T.FARID p).WF defaultGroupedTypes.contains := fun p hp =>
    (C10_new_partial (g := defaultGroupedTypes.contains) T.FARID 0 p (by rw [hp]; decide) (by decide +kernel)).1 (by decide)
  refine ⟨?_, by decide +kernel⟩
  intro x hx
  simp only [List.filterMap_cons, id, List.filterMap_nil, List.mem_cons, List.not_mem_nil, or_false] at hx
  rcases hx with rfl | rfl <;> exact h _ rfl

/-- Reading a value from a grouped element: if the first child of a type that is looked for has the value, the element
has it. This holds for the accessors that check the payload length first as well. -/
theorem C38_found (g : IEType → Bool) (mem : IE → Bytes) (a : Acc) (i : IE) (cs : List IE) (x : IE) (v : Val)
    (h : a.descends i.typ = true) (hm : parseMulti g i.payload = .ok cs)
    (hf : cs.find? (fun c => (a.searched i.typ).contains c.typ) = some x) (hx : a.onChild.call g mem x = .ok v) :
    a.call g mem i = .ok v := by
  have hp : a.onChild.table.pre ≤ x.payload.length := by
    rw [call_eq] at hx
    split at hx
    · cases hx
    · omega
  have hpre : (decide (a.table.pre ≤ a.onChild.table.pre)) = true :=
    forall_acc (p := fun a => decide (a.table.pre ≤ a.onChild.table.pre)) (by decide +kernel) a
  have hlt := child_payload hm (List.mem_of_find?_eq_some hf)
  have hle := of_decide_eq_true hpre
  rw [C38_grouped_partial g mem a i h (by omega), hm]
  dsimp only
  rw [hf]
  exact hx

/-- The same for elements made by a constructor: a value that the first child of a type looked for has is read from the
element, and also from the element decoded from the wire (which is the same). -/
theorem C54_value (g : IEType → Bool) (mem : IE → Bytes) (c : GroupCtor) (cs : List (Option IE)) (a : Acc) (x : IE) (v : Val)
    (rest : Bytes) (hg : g c.def = true) (hwf : ∀ x ∈ cs.filterMap id, x.WF g)
    (hsz : (encList g (cs.filterMap id)).length ≤ 65535)
    (h : a.descends c.def = true) (hf : (cs.filterMap id).find? (fun y => (a.searched c.def).contains y.typ) = some x)
    (hx : a.onChild.call g mem x = .ok v) :
    ∃ i b, c.build g cs = .ok (some i) ∧ i.marshal g = .ok b ∧ parse g (b ++ rest) = .ok i ∧ a.call g mem i = .ok v := by
  obtain ⟨i, b, h1, h2, h3, -, -, h4⟩ := C54_children g mem c cs rest hg hwf hsz
  have hi := newGrouped_eq g c.def cs (C54_default c).2
  have : c.build g cs = newGrouped g c.def 0 cs := rfl
  rw [this, hi] at h1
  cases h1
  exact ⟨_, b, hi, h2, h3, C38_found g mem a _ _ x v h (parseMulti_enc g _ (wfList_of _ hwf)) hf hx⟩

/-- What is too long is lost: with children of more than 65535 octets together, the length field wraps around and the
encoded element, decoded, is not the one that was made. -/
theorem C54_too_long_violated (g : IEType → Bool) (c : GroupCtor) (cs : List (Option IE))
    (hsz : 65535 < (encList g (cs.filterMap id)).length) :
    ∃ i b, c.build g cs = .ok (some i) ∧ i.marshal g = .ok b ∧ parse g b ≠ .ok i := by
  have hv := (C54_default c).2
  refine ⟨_, _, newGrouped_eq g c.def cs hv, marshal_eq g _, ?_⟩
  intro h
  have := parse_payload_le h
  dsimp only at this
  have h2 := UInt16.toNat_lt (UInt16.ofNat (encList g (cs.filterMap id)).length)
  omega

/-- Such a list of children exists (one child with that many octets). -/
example (p : Bytes) (hp : p.length = 65535) :
    65535 < (encList (fun _ => false) ([some (IE.new T.OffendingIE p)].filterMap id)).length := by
  have := hdrLen_pos T.OffendingIE
  simp [encList, IE.enc, IE.new, IE.setLength, hp]
  omega

end Pfcp
