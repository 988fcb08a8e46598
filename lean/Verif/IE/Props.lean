/- Property theorems about information elements: C01-C10, C13, C44. -/
import Verif.IE.Accept

namespace Pfcp

variable (g : IEType → Bool)

/-! ### C01 encode/decode round trip -/

/-- C01. Decoding the encoding of a well-formed element, followed by anything, returns the element. -/
theorem C01_ie_roundtrip (i : IE) (h : i.WF g) (rest : Bytes) :
    ∃ b, i.marshal g = .ok b ∧ parse g (b ++ rest) = .ok i :=
  ⟨i.enc g, marshal_eq g i, parse_enc g i h rest⟩

/-- A vendor-specific grouped element inside a grouped element satisfies the hypothesis of C01. -/
def sampleTree : IE :=
  ⟨1, 20, 0, [0, 56, 0, 2, 0, 7, 0x80, 9, 0, 10, 0, 99, 0, 29, 0, 4, 0, 0, 0, 5],
    [⟨56, 2, 0, [0, 7], []⟩, ⟨0x8009, 10, 99, [0, 29, 0, 4, 0, 0, 0, 5], [⟨29, 4, 0, [0, 0, 0, 5], []⟩]⟩]⟩

def sampleGrouped (t : IEType) : Bool := t == 1 || t == 0x8009

example : sampleTree.WF sampleGrouped := by
  refine ⟨by decide, by decide, ?_⟩
  rw [if_pos (by decide)]
  refine ⟨by decide, ⟨by decide, by decide, ?_⟩, ⟨by decide, by decide, ?_⟩, trivial⟩
  · rw [if_neg (by decide)]
  · rw [if_pos (by decide)]
    exact ⟨by decide, ⟨by decide, by decide, by rw [if_neg (by decide)]⟩, trivial⟩

theorem isVendor_eq (t : IEType) : isVendor t = decide (32768 ≤ t.toNat) := by
  have h2 : t.toNat < 65536 := t.toNat_lt
  have key : (t &&& 0x8000).toNat = 2 ^ 15 * (t.toNat / 2 ^ 15) := by
    rw [UInt16.toNat_and]
    apply Nat.eq_of_testBit_eq
    intro i
    rw [Nat.testBit_and, Nat.testBit_two_pow_mul, Nat.testBit_div_two_pow]
    show (t.toNat.testBit i && (2 ^ 15).testBit i) = _
    rw [Nat.testBit_two_pow]
    by_cases h15 : i = 15
    · subst h15; simp
    · by_cases hl : 15 ≤ i
      · have hi : 2 ^ 16 ≤ 2 ^ i := Nat.pow_le_pow_right (by omega) (by omega)
        have : t.toNat.testBit i = false := Nat.testBit_lt_two_pow (by omega)
        have h3 : i - 15 + 15 = i := by omega
        simp [this, h3]
      · simp [hl]; omega
  unfold isVendor
  rw [Bool.eq_iff_iff, bne_iff_ne, decide_eq_true_eq, ne_eq, ← UInt16.toNat_inj, key]
  show ¬ 2 ^ 15 * (t.toNat / 2 ^ 15) = 0 ↔ _
  omega

theorem be16_eq (n : UInt16) : be16 n = [UInt8.ofNat (n.toNat / 256), UInt8.ofNat (n.toNat % 256)] := by
  unfold be16
  rw [← beBytes_mod]
  have : n.toNat < 65536 := n.toNat_lt
  rw [Nat.mod_eq_of_lt (by simpa using this)]
  simp only [beBytes, Nat.pow_one, Nat.pow_zero, Nat.div_one]
  congr 2
  apply UInt8.toNat_inj.1
  simp

/-- C01 (b). What goes on the wire for a plain element, octet by octet: type, length, the enterprise id
exactly for the types with the top bit set, then the payload. -/
theorem C01_layout (i : IE) (h : i.WF g) (hg : g i.typ = false) :
    i.marshal g = .ok ([UInt8.ofNat (i.typ.toNat / 256), UInt8.ofNat (i.typ.toNat % 256),
      UInt8.ofNat (i.length.toNat / 256), UInt8.ofNat (i.length.toNat % 256)]
      ++ (if 32768 ≤ i.typ.toNat then
            [UInt8.ofNat (i.eid.toNat / 256), UInt8.ofNat (i.eid.toNat % 256)] else [])
      ++ i.payload) ∧
    i.length.toNat = (if 32768 ≤ i.typ.toNat then 2 else 0) + i.payload.length := by
  have hv : ∀ t : IEType, isVendor t = decide (32768 ≤ t.toNat) := isVendor_eq
  have hb : ∀ n : UInt16, be16 n = [UInt8.ofNat (n.toNat / 256), UInt8.ofNat (n.toNat % 256)] := be16_eq
  obtain ⟨t, len, eid, p, cs⟩ := i
  rw [marshal_eq]
  unfold IE.WF at h
  unfold IE.enc encHdr
  simp only [hv, hb, decide_eq_true_eq] at h ⊢
  simp only at hg
  rw [hg]
  refine ⟨?_, h.1⟩
  split <;> simp

/-! ### C02 decode/encode is lossless -/

/-- C02. An accepted input starts with the encoding of the result, which is `MarshalLen` bytes long. -/
theorem C02_parse_marshal (b : Bytes) (i : IE) (h : parse g b = .ok i) :
    i.marshalLen g ≤ b.length ∧ i.marshal g = .ok (b.take (i.marshalLen g)) := by
  obtain ⟨h1, h2⟩ := ((parse_sound g b.length).1 b (Nat.le_refl _)).2 i h
  rw [marshalLen_eq, marshal_eq, h2]
  exact ⟨h1, rfl⟩

example : parse (fun _ => false) [0x80, 1, 0, 3, 0, 10, 7, 0xff, 0xff]
    = .ok ⟨0x8001, 3, 10, [7], []⟩ := by decide

/-! ### C03 decoding is total -/

/-- C03. Neither decoder panics (nor runs out of fuel, i.e. loops) on any input. -/
theorem C03_parse_total (b : Bytes) : parse g b ≠ .panic ∧ parseMulti g b ≠ .panic :=
  ⟨((parse_sound g b.length).1 b (Nat.le_refl _)).1, ((parse_sound g b.length).2 b (Nat.le_refl _)).1⟩

/-- The panic outcome is reachable in the model in general: the same decoder without enough fuel. -/
example : unmarshalF (fun _ => true) 1 [0, 1, 0, 1, 9] = .panic := by decide

/-! ### C04 sequences -/

/-- C04 (a). A concatenation of encodings of well-formed elements decodes to those elements. -/
theorem C04_parseMulti_concat (is : List IE) (h : ∀ i ∈ is, i.WF g) :
    ∃ bs : List Bytes, bs.length = is.length ∧
      (∀ k (hk : k < is.length) (hb : k < bs.length), (is[k]).marshal g = .ok bs[k]) ∧
      parseMulti g bs.flatten = .ok is := by
  refine ⟨is.map (IE.enc g), by simp, ?_, ?_⟩
  · intro k hk hb; simp [marshal_eq]
  · have hw : WFList g is := by
      induction is with
      | nil => trivial
      | cons i is ih => exact ⟨h i (by simp), ih fun j hj => h j (by simp [hj])⟩
    have he : (is.map (IE.enc g)).flatten = encList g is := by
      clear hw h
      induction is with
      | nil => rfl
      | cons i is ih => simp [encList, ih]
    rw [he, parseMulti_enc g is hw]

/-- C04 (b). An accepted sequence is exactly the concatenation of the encodings of its elements. -/
theorem C04_parseMulti_lossless (b : Bytes) (is : List IE) (h : parseMulti g b = .ok is) :
    ∃ bs : List Bytes, bs.length = is.length ∧
      (∀ k (hk : k < is.length) (hb : k < bs.length), (is[k]).marshal g = .ok bs[k]) ∧
      b = bs.flatten := by
  refine ⟨is.map (IE.enc g), by simp, ?_, ?_⟩
  · intro k hk hb; simp [marshal_eq]
  · have he : (is.map (IE.enc g)).flatten = encList g is := by
      clear h
      induction is with
      | nil => rfl
      | cons i is ih => simp [encList, ih]
    rw [he]
    exact (((parse_sound g b.length).2 b (Nat.le_refl _)).2 is h).symm

example : parseMulti (fun _ => false) [0, 9, 0, 1, 7, 0, 10, 0, 0]
    = .ok [⟨9, 1, 0, [7], []⟩, ⟨10, 0, 0, [], []⟩] := by decide

/-! ### C05 exact size -/

/-- C05. `Marshal` succeeds with exactly `MarshalLen` bytes, and `MarshalTo` a larger buffer (of any
capacity) writes those bytes in front and nothing else. -/
theorem C05_marshal_exact (i : IE) (buf : Slice) (h : i.marshalLen g ≤ buf.len) :
    ∃ b, i.marshal g = .ok b ∧ b.length = i.marshalLen g ∧
      i.marshalTo g buf = .ok ⟨b ++ buf.data.drop (i.marshalLen g), buf.spare⟩ := by
  refine ⟨i.enc g, marshal_eq g i, (marshalLen_eq g i).symm, ?_⟩
  rw [marshalLen_eq] at h ⊢
  exact marshalTo_eq g i buf h

example : (IE.mk 9 1 0 [7] []).marshalTo (fun _ => false) ⟨[1, 1, 1, 1, 1, 1, 1], [2]⟩
    = .ok ⟨[0, 9, 0, 1, 7, 1, 1], [2]⟩ := by decide

/-- The guard of C05 is needed: with a buffer too short for the payload the call panics, or, when the
buffer has spare capacity, reports success after writing behind the buffer's end. -/
theorem C05_short_buffer_violated :
    (IE.mk 9 2 0 [7, 8] []).marshalTo (fun _ => false) ⟨[0, 0, 0, 0, 0], []⟩ = .panic ∧
    (IE.mk 9 2 0 [7, 8] []).marshalTo (fun _ => false) ⟨[0, 0, 0, 0, 0], [1, 1]⟩
      = .ok ⟨[0, 9, 0, 2, 7], [8, 1]⟩ := by decide

/-! ### C06 size of decoded trees -/

/-- C06. Decoding `n` bytes creates at most `n / 4` elements, nested at most `n / 4` deep. -/
theorem C06_tree_bound (b : Bytes) :
    (∀ i, parse g b = .ok i → 4 * i.nodes ≤ b.length ∧ 4 * i.depth ≤ b.length) ∧
    (∀ is, parseMulti g b = .ok is → 4 * nodesList is ≤ b.length ∧ 4 * depthList is ≤ b.length) := by
  constructor
  · intro i h
    have h1 := nodes_le g i (parse_Skel h)
    have h2 := (((parse_sound g b.length).1 b (Nat.le_refl _)).2 i h).1
    have h3 := depth_le i
    omega
  · intro is h
    have h1 := nodesList_le g is (parseMulti_Skel h)
    have h2 := ((parse_sound g b.length).2 b (Nat.le_refl _)).2 is h
    have h3 := depthList_le is
    rw [h2] at h1
    omega

/-- The bound is attained: nested empty groups. -/
example : ∃ is, parseMulti (fun _ => true) [0, 1, 0, 8, 0, 1, 0, 4, 0, 1, 0, 0] = .ok is ∧
    nodesList is = 3 ∧ depthList is = 3 := by
  exact ⟨_, rfl, by decide, by decide⟩

/-! ### C07 grouped constructors -/

theorem newGroupedLoop_eq (cs : List (Option IE)) (i : IE) :
    newGroupedLoop g cs i = .ok (some { i with
      children := i.children ++ cs.filterMap id,
      payload := i.payload ++ encList g (cs.filterMap id) }) := by
  induction cs generalizing i with
  | nil => cases i; simp [newGroupedLoop, encList]
  | cons c cs ih =>
    cases c with
    | none => simp [newGroupedLoop, ih]
    | some c => simp [newGroupedLoop, marshal_eq, ih, encList]

/-- C07 (a). Building a grouped element never fails; it keeps exactly the non-nil children in order,
its payload is the concatenation of their encodings and its length field counts the payload (modulo
2^16). -/
theorem C07_newGrouped (t : IEType) (eid : UInt16) (cs : List (Option IE)) :
    ∃ i, newGrouped g t eid cs = .ok (some i) ∧
      i.typ = t ∧ i.eid = eid ∧
      i.children = cs.filterMap id ∧
      i.payload = ((cs.filterMap id).map (IE.enc g)).flatten ∧
      i.length = UInt16.ofNat ((if isVendor t then 2 else 0) + i.payload.length) := by
  have he : ∀ l : List IE, (l.map (IE.enc g)).flatten = encList g l := by
    intro l
    induction l with
    | nil => rfl
    | cons i is ih => simp [encList, ih]
  simp [newGrouped, newGroupedLoop_eq, he, IE.newVendor, IE.setLength]

/-- C07 (b). With well-formed children that fit into 16 bits the result is well-formed, so it encodes
and decodes to itself, and its children can be read back from the payload as well as from the decoded
element. -/
theorem C07_newGrouped_roundtrip (t : IEType) (eid : UInt16) (cs : List (Option IE))
    (hg : g t = true) (hv : isVendor t = false → eid = 0)
    (hwf : ∀ c ∈ cs.filterMap id, c.WF g)
    (hsz : (if isVendor t then 2 else 0) + (encList g (cs.filterMap id)).length ≤ 65535) :
    ∃ i b, newGrouped g t eid cs = .ok (some i) ∧ i.marshal g = .ok b ∧ parse g b = .ok i ∧
      parseMulti g i.payload = .ok (cs.filterMap id) ∧
      i.valueAsGrouped g = .ok (cs.filterMap id) := by
  have hw : ∀ l : List IE, (∀ c ∈ l, c.WF g) → WFList g l := by
    intro l
    induction l with
    | nil => intro _; trivial
    | cons i is ih => intro h; exact ⟨h i (by simp), ih fun j hj => h j (by simp [hj])⟩
  have hwl := hw _ hwf
  have hi : newGrouped g t eid cs = .ok (some ⟨t, UInt16.ofNat ((if isVendor t then 2 else 0) +
      (encList g (cs.filterMap id)).length), eid, encList g (cs.filterMap id), cs.filterMap id⟩) := by
    simp [newGrouped, newGroupedLoop_eq, IE.newVendor, IE.setLength]
  refine ⟨_, _, hi, marshal_eq g _, ?_, ?_, ?_⟩
  · rw [← List.append_nil (IE.enc _ _)]
    apply parse_enc
    refine ⟨?_, hv, by simp [hg, hwl]⟩
    simp only [UInt16.toNat_ofNat']
    exact Nat.mod_eq_of_lt (by omega)
  · exact parseMulti_enc g _ hwl
  · unfold IE.valueAsGrouped
    simp only [hg, Bool.true_or, Bool.not_true, Bool.false_eq_true, if_false]
    split
    · rename_i h
      have : cs.filterMap id = [] := List.eq_nil_of_length_eq_zero (by omega)
      rw [this]; simp [encList, parseMulti_nil]
    · rfl

example : newGrouped sampleGrouped 1 0 [none, some ⟨56, 2, 0, [0, 7], []⟩, none]
    = .ok (some ⟨1, 6, 0, [0, 56, 0, 2, 0, 7], [⟨56, 2, 0, [0, 7], []⟩]⟩) := by decide

/-! ### C08 editing grouped elements -/

/-- An editing call on a grouped element. -/
inductive EditOp where
  | add (ies : List IE)
  | remove (t : IEType)

/-- Specification: the same call on a plain list. -/
def EditOp.onList : List IE → EditOp → List IE
  | l, .add ies => l ++ ies
  | l, .remove t => l.filter (fun c => c.typ != t)

/-- The call on the element. -/
def EditOp.apply (g : IEType → Bool) (i : IE) : EditOp → Res IE
  | .add ies => i.add g (ies.map some)
  | .remove t => i.remove g t

/-- A history of calls. -/
def runEdits (g : IEType → Bool) : IE → List EditOp → Res IE
  | i, [] => .ok i
  | i, op :: ops => do runEdits g (← op.apply g i) ops

theorem derefAll_map (l : List IE) : derefAll (l.map some) = .ok l := by
  induction l with
  | nil => rfl
  | cons c cs ih => simp [derefAll, ih]

theorem serializeLoop_eq (l : List IE) (acc : Bytes) :
    serializeLoop g l acc = .ok (acc ++ encList g l) := by
  induction l generalizing acc with
  | nil => simp [serializeLoop, encList]
  | cons c cs ih => simp [serializeLoop, marshal_eq, ih, encList]

theorem removeLoop_eq (t : IEType) (l kept : List IE) (acc : Bytes) :
    removeLoop g t l kept acc = .ok (kept ++ l.filter (fun c => c.typ != t),
      acc ++ encList g (l.filter (fun c => c.typ != t))) := by
  induction l generalizing kept acc with
  | nil => simp [removeLoop, encList]
  | cons c cs ih =>
    by_cases h : c.typ = t
    · simp [removeLoop, h, ih]
    · simp [removeLoop, h, marshal_eq, ih, encList]

theorem apply_eq (i : IE) (hg : g i.typ = true) (op : EditOp) :
    op.apply g i = .ok ⟨i.typ, UInt16.ofNat ((if isVendor i.typ then 2 else 0) +
      (encList g (op.onList i.children)).length), i.eid,
      encList g (op.onList i.children), op.onList i.children⟩ := by
  cases op with
  | add ies =>
    simp [EditOp.apply, EditOp.onList, IE.add, hg, derefAll_map, serializeLoop_eq, IE.setLength]
  | remove t =>
    simp [EditOp.apply, EditOp.onList, IE.remove, hg, removeLoop_eq, IE.setLength]

/-- C08 (a). After any non-empty history of edits on a grouped element, the children are what the
history gives on a plain list, the payload is the concatenation of their encodings and the length
field counts it (modulo 2^16); type and enterprise id never change. -/
theorem C08_edits (i : IE) (hg : g i.typ = true) (ops : List EditOp) (hne : ops ≠ []) :
    ∃ j, runEdits g i ops = .ok j ∧ j.typ = i.typ ∧ j.eid = i.eid ∧
      j.children = ops.foldl EditOp.onList i.children ∧
      j.payload = (j.children.map (IE.enc g)).flatten ∧
      j.length = UInt16.ofNat ((if isVendor i.typ then 2 else 0) + j.payload.length) := by
  have he : ∀ l : List IE, (l.map (IE.enc g)).flatten = encList g l := by
    intro l
    induction l with
    | nil => rfl
    | cons i is ih => simp [encList, ih]
  simp only [he]
  induction ops generalizing i with
  | nil => exact absurd rfl hne
  | cons op ops ih =>
    simp only [runEdits, apply_eq g i hg op, Res.ok_bind, List.foldl_cons]
    by_cases h : ops = []
    · subst h
      simp [runEdits]
    · obtain ⟨j, h1, h2, h3, h4, h5, h6⟩ := ih
        ⟨i.typ, UInt16.ofNat ((if isVendor i.typ then 2 else 0) +
          (encList g (op.onList i.children)).length), i.eid,
          encList g (op.onList i.children), op.onList i.children⟩ hg h
      exact ⟨j, h1, h2, h3, h4, h5, h6⟩

/-- C08 (b). An element edited with well-formed children decodes back to itself as long as it fits
into 16 bits. -/
theorem C08_edits_roundtrip (i : IE) (hi : i.WF g) (hg : g i.typ = true) (ops : List EditOp)
    (hw : ∀ op ∈ ops, ∀ ies, op = .add ies → ∀ c ∈ ies, c.WF g)
    (hsz : (if isVendor i.typ then 2 else 0) +
      ((ops.foldl EditOp.onList i.children).map (IE.enc g)).flatten.length ≤ 65535) :
    ∃ j b, runEdits g i ops = .ok j ∧ j.marshal g = .ok b ∧ parse g b = .ok j := by
  by_cases hne : ops = []
  · subst hne
    refine ⟨i, i.enc g, rfl, marshal_eq g i, ?_⟩
    rw [← List.append_nil (IE.enc g i)]
    exact parse_enc g i hi []
  obtain ⟨j, h1, h2, h3, h4, h5, h6⟩ := C08_edits g i hg ops hne
  refine ⟨j, j.enc g, h1, marshal_eq g j, ?_⟩
  rw [← List.append_nil (IE.enc g j)]
  apply parse_enc
  have hw0 : WFList g i.children := by
    cases i with
    | mk t l e p cs => simp only [IE.WF, hg, if_true] at hi; exact hi.2.2.2
  have hwj : WFList g j.children := by
    rw [h4]
    clear h1 h2 h3 h4 h5 h6 hsz hne hi
    generalize i.children = l at hw0
    induction ops generalizing l with
    | nil => exact hw0
    | cons op ops ih =>
      rw [List.foldl_cons]
      apply ih
      · intro o ho; exact hw o (by simp [ho])
      · cases op with
        | add ies =>
          rw [EditOp.onList, WFList_append]
          refine ⟨hw0, ?_⟩
          have := hw (.add ies) (by simp) ies rfl
          clear hw ih
          induction ies with
          | nil => trivial
          | cons c cs ihc => exact ⟨this c (by simp), ihc fun d hd => this d (by simp [hd])⟩
        | remove t =>
          rw [EditOp.onList]
          clear hw ih
          induction l with
          | nil => trivial
          | cons c cs ihc =>
            by_cases h : c.typ != t
            · rw [List.filter_cons_of_pos (p := fun c : IE => c.typ != t) h]; exact ⟨hw0.1, ihc hw0.2⟩
            · rw [List.filter_cons_of_neg (p := fun c : IE => c.typ != t) h]; exact ihc hw0.2
  have he : ∀ l : List IE, (l.map (IE.enc g)).flatten = encList g l := by
    intro l
    induction l with
    | nil => rfl
    | cons i is ih => simp [encList, ih]
  have hev : isVendor i.typ = false → i.eid = 0 := by
    cases i with
    | mk t l e p cs => exact hi.2.1
  rw [← h4, ← h5] at hsz
  rw [← h2] at hg hsz hev h6
  rw [← h3] at hev
  rw [he] at h5
  cases j with
  | mk t l e p cs =>
    refine ⟨?_, hev, ?_⟩
    · simp only at h6 hsz ⊢
      rw [h6]
      simp only [UInt16.toNat_ofNat']
      exact Nat.mod_eq_of_lt (by omega)
    · simp only at hg h5 hwj ⊢
      simp [hg, h5, hwj]

/-- C08 (c). `FindByType` returns the first child of the type, or a not-found error. -/
theorem C08_find (i : IE) (hg : g i.typ = true) (t : IEType) :
    i.findByType g t =
      match i.children.find? (fun c => c.typ == t) with
      | some c => .ok c
      | none => .err .ieNotFound := by
  unfold IE.findByType
  simp only [hg, Bool.not_true, Bool.false_eq_true, if_false]
  generalize i.children = l
  induction l with
  | nil => rfl
  | cons c cs ih =>
    by_cases h : c.typ = t
    · simp [findLoop, h]
    · have hb : (c.typ == t) = false := by simpa using h
      simp only [findLoop, h, if_false, List.find?_cons, hb, ih]

/-- C08 (d). On an element that is not grouped, edits do nothing and a search is refused. -/
theorem C08_not_grouped (i : IE) (hg : g i.typ = false) (t : IEType) (ies : List (Option IE)) :
    i.add g ies = .ok i ∧ i.remove g t = .ok i ∧ i.findByType g t = .err .errInvalidType := by
  simp [IE.add, IE.remove, IE.findByType, hg]

example : runEdits sampleGrouped ⟨1, 0, 0, [], []⟩
    [.add [⟨56, 2, 0, [0, 7], []⟩, ⟨2, 0, 0, [], []⟩], .remove 56, .add [⟨3, 0, 0, [], []⟩]]
    = .ok ⟨1, 8, 0, [0, 2, 0, 0, 0, 3, 0, 0], [⟨2, 0, 0, [], []⟩, ⟨3, 0, 0, [], []⟩]⟩ := by decide

/-- A nil argument to `Add` on a grouped element panics, although constructors skip nil. -/
theorem C08_add_nil_violated (i : IE) (hg : g i.typ = true) : i.add g [none] = .panic := by
  simp [IE.add, hg, derefAll]

/-! ### C09 truncated elements -/

/-- C09 is false: a bare header announcing one byte of payload, at the end of the input, decodes
to an element whose length field is 1 and whose payload is empty. -/
theorem C09_truncated_violated :
    parse (fun _ => false) [0, 19, 0, 1] = .ok ⟨19, 1, 0, [], []⟩ := by decide

/-- C09, partial: an element announcing more bytes than are left is rejected at every other cut
point. Missing: the cut exactly at the end of the element header (see `C09_truncated_violated`). -/
theorem C09_truncated_partial (b : Bytes) (h4 : 4 ≤ b.length)
    (hdecl : b.length < 4 + (dec16 ((b.drop 2).take 2)).toNat)
    (hcut : b.length ≠ hdrLen (dec16 (b.take 2))) :
    ∃ e, parse g b = .err e := by
  rw [parse_unfold, parseBody_eq, if_neg (by omega)]
  dsimp only
  split
  · exact ⟨_, rfl⟩
  · split
    · exact ⟨_, rfl⟩
    · rename_i h6 h2
      have hle : ¬ b.length ≤ hdrLen (dec16 (b.take 2)) := by
        intro h
        have hlt : b.length < hdrLen (dec16 (b.take 2)) := by omega
        unfold hdrLen at hlt
        split at hlt
        · rename_i hv; exact h6 ⟨hv, hlt⟩
        · omega
      have hgt : b.length < hdrLen (dec16 (b.take 2)) +
          ((dec16 ((b.drop 2).take 2)).toNat - (hdrLen (dec16 (b.take 2)) - 4)) := by
        have := hdrLen_pos (dec16 (b.take 2))
        omega
      rw [if_neg hle, if_pos hgt]
      exact ⟨_, rfl⟩

/-- A strictly shorter input than the 4 byte header is rejected. -/
theorem C09_short_header (b : Bytes) (h : b.length < 4) : parse g b = .err .unexpectedEOF := by
  rw [parse_unfold, parseBody_eq, if_pos h]

example : parse (fun _ => false) [0, 19, 0, 3, 1, 2] = .err .unexpectedEOF := by decide

/-! ### C10 length field -/

/-- C10, partial: elements built by the plain and vendor constructors are well-formed as long as
the size fits 16 bits. Missing: larger payloads, see `C10_length_violated`. -/
theorem C10_new_partial (t : IEType) (eid : UInt16) (data : Bytes)
    (hsz : (if isVendor t then 2 else 0) + data.length ≤ 65535) (hg : g t = false) :
    (isVendor t = false → (IE.new t data).WF g) ∧
    (isVendor t = true → (IE.newVendor t eid data).WF g) := by
  have hm := Nat.mod_eq_of_lt (show (if isVendor t then 2 else 0) + data.length < 2 ^ 16 by omega)
  constructor
  · intro hv
    refine ⟨?_, fun _ => rfl, by simp [hg]⟩
    simp only [UInt16.toNat_ofNat']
    exact hm
  · intro hv
    refine ⟨?_, fun h => by simp [hv] at h, by simp [hg]⟩
    simp only [UInt16.toNat_ofNat']
    exact hm

/-- C10 is false for payloads of 65536 bytes: the length field wraps to 0 and the decoder sees an
empty element followed by garbage. -/
theorem C10_length_violated (t : IEType) (data : Bytes) (hv : isVendor t = false)
    (hg : g t = false) (hd : data.length = 65536) :
    (IE.new t data).length = 0 ∧
    (IE.new t data).marshal g = .ok (be16 t ++ be16 0 ++ data) ∧
    parse g (be16 t ++ be16 0 ++ data) = .ok ⟨t, 0, 0, [], []⟩ := by
  have h0 : (IE.new t data).length = 0 := by
    simp [IE.new, IE.setLength, hv, hd]
  have hne : ([] : Bytes) ++ data ≠ [] := by
    intro h; simp at h; rw [h] at hd; simp at hd
  have hp := parse_tlv g t 0 0 [] data (by simp [hv]) hne
  simp only [hg, hv, encHdr, List.append_nil] at hp
  refine ⟨h0, ?_, by simpa using hp⟩
  rw [marshal_eq]
  cases hn : IE.new t data with
  | mk t' l' e' p' c' =>
    rw [hn] at h0
    simp only [IE.new, IE.setLength] at hn
    cases hn
    simp only at h0
    simp only [IE.enc, encHdr, h0]
    simp [hv, hg]

example : (List.replicate 65536 (0 : UInt8)).length = 65536 := List.length_replicate

/-! ### C13 configuration changes -/

mutual
/-- All types occurring in a tree. -/
def IE.types : IE → List IEType
  | ⟨t, _, _, _, cs⟩ => t :: typesList cs
def typesList : List IE → List IEType
  | [] => []
  | c :: cs => c.types ++ typesList cs
end

mutual
theorem enc_congr (g g' : IEType → Bool) : (i : IE) → (∀ t ∈ i.types, g t = g' t) → i.enc g = i.enc g'
  | ⟨t, len, eid, p, cs⟩, h => by
    have h1 : g t = g' t := h t (by simp [IE.types])
    have h2 := encList_congr g g' cs (fun u hu => h u (by simp [IE.types, hu]))
    simp only [IE.enc, h1, h2]
theorem encList_congr (g g' : IEType → Bool) : (is : List IE) → (∀ t ∈ typesList is, g t = g' t) →
    encList g is = encList g' is
  | [], _ => rfl
  | c :: cs, h => by
    simp only [encList]
    rw [enc_congr g g' c (fun u hu => h u (by simp [typesList, hu])),
      encList_congr g g' cs (fun u hu => h u (by simp [typesList, hu]))]
end

/-- C13 is false: an element decoded while its type was not grouped loses its payload when encoded
after the type was registered as grouped. -/
theorem C13_config_change_violated :
    ∃ (g g' : IEType → Bool) (b b' : Bytes) (i : IE), (∀ t, g t = true → g' t = true) ∧
      parse g b = .ok i ∧ i.marshal g = .ok b ∧ i.marshal g' = .ok b' ∧ b ≠ b' := by
  refine ⟨fun _ => false, fun t => t == 1000, [3, 232, 0, 1, 7], [3, 232, 0, 1],
    ⟨1000, 1, 0, [7], []⟩, ?_, by decide, by decide, by decide, by decide⟩
  intro t h; cases h

/-- C13, partial: the encoding is unchanged if the two configurations agree on every type occurring
in the element. -/
theorem C13_config_change_partial (g g' : IEType → Bool) (i : IE)
    (h : ∀ t ∈ i.types, g t = g' t) : i.marshal g = i.marshal g' := by
  rw [marshal_eq, marshal_eq, enc_congr g g' i h]

example : ∀ t ∈ sampleTree.types, sampleGrouped t = (fun t => sampleGrouped t || t == 1000) t := by
  decide

/-! ### C44 the accepted language -/

/-- C44. `ParseMultiIEs` accepts exactly the sequences of complete elements (grouped bodies being
such sequences again), except that a sequence may also end in a bare header. -/
theorem C44_accepted_language (b : Bytes) :
    (∃ is, parseMulti g b = .ok is) ↔ Accepted g b :=
  ⟨fun ⟨is, h⟩ => parse_accepted_aux g b.length b (Nat.le_refl _) is h, accepted_parse⟩

/-- C44 (b). Complete sequences decode to well-formed elements; conversely, if all decoded elements
are well-formed the input was complete. -/
theorem C44_complete_iff_wf (b : Bytes) :
    Complete g b ↔ ∃ is, parseMulti g b = .ok is ∧ ∀ i ∈ is, i.WF g := by
  have hlist : ∀ l : List IE, WFList g l ↔ ∀ c ∈ l, c.WF g := by
    intro l
    induction l with
    | nil => simp [WFList]
    | cons i is ih => simp [WFList, ih]
  constructor
  · intro h
    obtain ⟨is, h1, h2⟩ := complete_parse h
    exact ⟨is, h1, (hlist is).1 h2⟩
  · rintro ⟨is, h1, h2⟩
    have := WFList.complete g is ((hlist is).2 h2)
    rwa [((parse_sound g b.length).2 b (Nat.le_refl _)).2 is h1] at this

/-- A complete nested sequence, and one that is accepted without being complete. -/
example : Complete sampleGrouped (encList sampleGrouped [⟨1, 4, 0, [0, 2, 0, 0], [⟨2, 0, 0, [], []⟩]⟩]) := by
  apply WFList.complete
  refine ⟨⟨by decide, by decide, ?_⟩, trivial⟩
  rw [if_pos (by decide)]
  exact ⟨by decide, ⟨by decide, by decide, by rw [if_neg (by decide)]⟩, trivial⟩

example : Accepted (fun _ => false) (encHdr 19 1 0) ∧ ¬ Complete (fun _ => false) (encHdr 19 1 0) := by
  refine ⟨.trunc 19 1 0 (by decide), ?_⟩
  rw [C44_complete_iff_wf]
  rintro ⟨is, h1, h2⟩
  have : parseMulti (fun _ => false) (encHdr 19 1 0) = .ok [⟨19, 1, 0, [], []⟩] := by decide
  rw [this] at h1
  cases h1
  have h3 := h2 ⟨19, 1, 0, [], []⟩ (by simp)
  have h4 := h3.1
  revert h4
  decide

end Pfcp
