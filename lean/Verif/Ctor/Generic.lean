/-
The generic constructors (`NewUint8IE` and the like, `NewVendorSpecificIE`) and the generic readers (`ValueAsUint8` and
the like), which work on any element type, vendor-specific ones included: C60.
-/
import Verif.Ctor.Lemmas
import Verif.Acc.Safe
import Verif.Text.Props

namespace Pfcp
open Text (encodeFQDN decodeFQDN splitDot)

/-- `newFQDNIE` / `NewFQDNIE`, /repo/ie/ie.go:660-662, 366-368. -/
def IE.newFQDN (t : IEType) (v : Bytes) : Res IE := do return IE.new t (← encodeFQDN v)

/-- `IE.ValueAsFQDN`, /repo/ie/ie.go:428-434. -/
def IE.valueAsFQDN (g : IEType → Bool) (i : IE) : Res Bytes :=
  if g i.typ then .err (.invalidTypeError i.typ) else decodeFQDN i.payload

/-- An element of a type that is not grouped, built by `New`, is decoded to itself, vendor-specific or not. -/
theorem new_wire_any (g : IEType → Bool) (t : IEType) (p rest : Bytes) (hg : g t = false)
    (hp : (if isVendor t then 2 else 0) + p.length ≤ 65535) :
    ∃ b, (IE.new t p).marshal g = .ok b ∧ parse g (b ++ rest) = .ok (IE.new t p) := by
  refine C01_ie_roundtrip (g := g) _ ?_ rest
  cases hv : isVendor t with
  | false => exact (C10_new_partial (g := g) t 0 p hp hg).1 hv
  | true => exact (C10_new_partial (g := g) t 0 p hp hg).2 hv

theorem newVendor_wire (g : IEType → Bool) (t : IEType) (eid : UInt16) (p rest : Bytes) (hg : g t = false)
    (hv : isVendor t = true) (hp : 2 + p.length ≤ 65535) :
    ∃ b, (IE.newVendor t eid p).marshal g = .ok b ∧ parse g (b ++ rest) = .ok (IE.newVendor t eid p) :=
  C01_ie_roundtrip (g := g) _ ((C10_new_partial (g := g) t eid p (by simpa [hv] using hp) hg).2 hv) rest

theorem small_any (t : IEType) (n : Nat) (h : n ≤ 65533) : (if isVendor t then 2 else 0) + n ≤ 65535 := by
  split <;> omega

/-! ## Property theorems -/

/-- C60. A number stored with `NewUint8IE` under any type that is not grouped is what `ValueAsUint8` reads, before and
after the wire. `i` is the element built, which is also the one decoded. -/
theorem C60_uint8 (g : IEType → Bool) (t : IEType) (v : UInt8) (rest : Bytes) (hg : g t = false) :
    ∃ b i, IE.newUint8 t v = i ∧ i.typ = t ∧ i.marshal g = .ok b ∧ parse g (b ++ rest) = .ok i ∧ i.valueAsUint8 g = .ok v := by
  obtain ⟨b, h1, h2⟩ := new_wire_any g t [v] rest hg (small_any t 1 (by omega))
  exact ⟨b, _, rfl, rfl, h1, h2, valueAsUint8_new g t v hg⟩
example : defaultGroupedTypes.contains 0x8001 = false ∧ defaultGroupedTypes.contains 88 = false := by decide +kernel

theorem C60_uint16 (g : IEType → Bool) (t : IEType) (v : UInt16) (rest : Bytes) (hg : g t = false) :
    ∃ b i, IE.newUint16 t v = i ∧ i.typ = t ∧ i.marshal g = .ok b ∧ parse g (b ++ rest) = .ok i ∧ i.valueAsUint16 g = .ok v := by
  obtain ⟨b, h1, h2⟩ := new_wire_any g t (be16 v) rest hg (small_any t _ (by show 2 ≤ _; omega))
  exact ⟨b, _, rfl, rfl, h1, h2, valueAsUint16_new g t v hg⟩
example : defaultGroupedTypes.contains 56 = false ∧ defaultGroupedTypes.contains 0xffff = false := by decide +kernel

theorem C60_uint32 (g : IEType → Bool) (t : IEType) (v : UInt32) (rest : Bytes) (hg : g t = false) :
    ∃ b i, IE.newUint32 t v = i ∧ i.typ = t ∧ i.marshal g = .ok b ∧ parse g (b ++ rest) = .ok i ∧ i.valueAsUint32 g = .ok v := by
  obtain ⟨b, h1, h2⟩ := new_wire_any g t (be32 v) rest hg (small_any t _ (by show 4 ≤ _; omega))
  exact ⟨b, _, rfl, rfl, h1, h2, valueAsUint32_new g t v hg⟩
example : defaultGroupedTypes.contains 29 = false := by decide +kernel

theorem C60_uint64 (g : IEType → Bool) (t : IEType) (v : UInt64) (rest : Bytes) (hg : g t = false) :
    ∃ b i, IE.newUint64 t v = i ∧ i.typ = t ∧ i.marshal g = .ok b ∧ parse g (b ++ rest) = .ok i ∧ i.valueAsUint64 g = .ok v := by
  obtain ⟨b, h1, h2⟩ := new_wire_any g t (be64 v) rest hg (small_any t _ (by show 8 ≤ _; omega))
  exact ⟨b, _, rfl, rfl, h1, h2, valueAsUint64_new g t v hg⟩
example : defaultGroupedTypes.contains 72 = false := by decide +kernel

/-- C60. A text, as long as it fits into the element (see `C10_length_violated` for longer ones). -/
theorem C60_string (g : IEType → Bool) (t : IEType) (v : Bytes) (rest : Bytes) (hg : g t = false)
    (hl : (if isVendor t then 2 else 0) + v.length ≤ 65535) :
    ∃ b i, IE.newString t v = i ∧ i.typ = t ∧ i.marshal g = .ok b ∧ parse g (b ++ rest) = .ok i ∧ i.valueAsString g = .ok v := by
  obtain ⟨b, h1, h2⟩ := new_wire_any g t v rest hg hl
  refine ⟨b, _, rfl, rfl, h1, h2, ?_⟩
  show (if g t then _ else _) = _
  rw [hg]; rfl
example : defaultGroupedTypes.contains 0x8100 = false ∧ (if isVendor 0x8100 then 2 else 0) + [97, 98].length ≤ 65535 := by decide +kernel

/-- C60. A domain name whose labels are shorter than 256 octets. -/
theorem C60_fqdn (g : IEType → Bool) (t : IEType) (v : Bytes) (rest : Bytes) (hg : g t = false)
    (hs : ∀ l ∈ splitDot v, l.length < 256) (hl : (if isVendor t then 2 else 0) + v.length + 1 ≤ 65535) :
    ∃ b i, IE.newFQDN t v = .ok i ∧ i.typ = t ∧ i.marshal g = .ok b ∧ parse g (b ++ rest) = .ok i ∧ i.valueAsFQDN g = .ok v := by
  obtain ⟨w, e1, e2⟩ := Text.C33_round_trip v hs
  have hw : w.length = v.length + 1 := by
    rw [Text.encodeFQDN_eq] at e1
    cases e1
    exact Text.labels_length v
  obtain ⟨b, h1, h2⟩ := new_wire_any g t w rest hg (by omega)
  refine ⟨b, IE.new t w, by simp [IE.newFQDN, e1], rfl, h1, h2, ?_⟩
  show (if g t then _ else decodeFQDN w) = _
  rw [hg]; exact e2
example : ∀ l ∈ splitDot [97, 46, 98], l.length < 256 := by decide +kernel

/-- C60. A vendor-specific element keeps enterprise number and value through the wire, and its value can be read with
each of the generic readers: the first octets as a number in network order, all of them as a text. -/
theorem C60_vendor (g : IEType → Bool) (t : IEType) (eid : UInt16) (p rest : Bytes) (hg : g t = false)
    (hv : 32768 ≤ t.toNat) (hp : p.length ≤ 65533) :
    ∃ b i, IE.newVendor t eid p = i ∧ i.marshal g = .ok b ∧ parse g (b ++ rest) = .ok i ∧
      i.typ = t ∧ i.eid = eid ∧ i.payload = p ∧ i.valueAsString g = .ok p ∧
      (∀ v q, p = v :: q → i.valueAsUint8 g = .ok v) ∧
      (∀ v q, p = be16 v ++ q → i.valueAsUint16 g = .ok v) ∧
      (∀ v q, p = be32 v ++ q → i.valueAsUint32 g = .ok v) ∧
      (∀ v q, p = be64 v ++ q → i.valueAsUint64 g = .ok v) := by
  obtain ⟨b, h1, h2⟩ := newVendor_wire g t eid p rest hg (by rw [isVendor_eq]; exact decide_eq_true hv) (by omega)
  refine ⟨b, _, rfl, h1, h2, rfl, rfl, rfl, ?_, ?_, ?_, ?_, ?_⟩
  · show (if g t then _ else _) = _
    rw [hg]; rfl
  · rintro v q rfl
    unfold IE.valueAsUint8
    rw [show g (IE.newVendor t eid _).typ = false from hg]
    rfl
  · rintro v q rfl
    unfold IE.valueAsUint16
    rw [show g (IE.newVendor t eid _).typ = false from hg]
    show Res.ok (dec16 (be16 v)) = _
    rw [dec16_be16]
  · rintro v q rfl
    unfold IE.valueAsUint32
    rw [show g (IE.newVendor t eid _).typ = false from hg]
    show Res.ok (dec32 (be32 v)) = _
    rw [dec32_be32]
  · rintro v q rfl
    unfold IE.valueAsUint64
    rw [show g (IE.newVendor t eid _).typ = false from hg]
    show Res.ok (dec64 (be64 v)) = _
    rw [dec64_be64]
example : defaultGroupedTypes.contains 0x8001 = false ∧ 32768 ≤ (0x8001 : IEType).toNat := by decide +kernel

/-- C60. The generic readers of single values refuse grouped elements, and report a value that is too short as an
unexpected end; they never read outside the payload. -/
theorem C60_refuse (g : IEType → Bool) (i : IE) :
    (g i.typ = true → i.valueAsUint8 g = .err (.invalidTypeError i.typ) ∧ i.valueAsUint16 g = .err (.invalidTypeError i.typ) ∧
      i.valueAsUint32 g = .err (.invalidTypeError i.typ) ∧ i.valueAsUint64 g = .err (.invalidTypeError i.typ) ∧
      i.valueAsString g = .err (.invalidTypeError i.typ) ∧ i.valueAsFQDN g = .err (.invalidTypeError i.typ)) ∧
    (g i.typ = false → (i.payload.length < 1 → i.valueAsUint8 g = .err .unexpectedEOF) ∧
      (i.payload.length < 2 → i.valueAsUint16 g = .err .unexpectedEOF) ∧
      (i.payload.length < 4 → i.valueAsUint32 g = .err .unexpectedEOF) ∧
      (i.payload.length < 8 → i.valueAsUint64 g = .err .unexpectedEOF)) := by
  refine ⟨fun h => ?_, fun h => ⟨fun h1 => ?_, fun h1 => ?_, fun h1 => ?_, fun h1 => ?_⟩⟩
  · simp [IE.valueAsUint8, IE.valueAsUint16, IE.valueAsUint32, IE.valueAsUint64, IE.valueAsString, IE.valueAsFQDN, h]
  · simp only [IE.valueAsUint8, h, h1, if_true]; simp
  · simp only [IE.valueAsUint16, h, h1, if_true]; simp
  · simp only [IE.valueAsUint32, h, h1, if_true]; simp
  · simp only [IE.valueAsUint64, h, h1, if_true]; simp
example : defaultGroupedTypes.contains 1 = true ∧ defaultGroupedTypes.contains 29 = false := by decide +kernel

theorem C60_total (g : IEType → Bool) (i : IE) :
    i.valueAsUint8 g ≠ .panic ∧ i.valueAsUint16 g ≠ .panic ∧ i.valueAsUint32 g ≠ .panic ∧ i.valueAsUint64 g ≠ .panic ∧
    i.valueAsString g ≠ .panic ∧ i.valueAsFQDN g ≠ .panic := by
  refine ⟨valueAsUint8_safe g i, valueAsUint16_safe g i, valueAsUint32_safe g i, valueAsUint64_safe g i, valueAsString_safe g i, ?_⟩
  unfold IE.valueAsFQDN
  split
  · exact fun h => nomatch h
  · exact Text.C33_total _

/-- C60. `ValueAsGrouped` refuses a 3GPP type that is not grouped; on a vendor-specific element without children whose
payload is the concatenation of encoded elements it gives these elements. -/
theorem C60_grouped (g : IEType → Bool) (i : IE) :
    (g i.typ = false → i.typ.toNat < 32768 → i.valueAsGrouped g = .err (.invalidTypeError i.typ)) ∧
    (∀ (cs : List IE) (bs : List Bytes), (∀ c ∈ cs, c.WF g) → cs.map (IE.marshal g) = bs.map .ok → 32768 ≤ i.typ.toNat →
      i.children = [] → i.payload = bs.flatten → i.valueAsGrouped g = .ok cs) := by
  constructor
  · intro h1 h2
    simp [IE.valueAsGrouped, h1, isVendor_eq, h2]
  · intro cs bs hcs hb h1 h2 h3
    have hw : ∀ l : List IE, (∀ c ∈ l, c.WF g) → WFList g l := by
      intro l
      induction l with
      | nil => intro _; trivial
      | cons c l ih => exact fun h => ⟨h c (by simp), ih fun d hd => h d (by simp [hd])⟩
    have hf : ∀ (cs : List IE) (bs : List Bytes), cs.map (IE.marshal g) = bs.map .ok → bs.flatten = encList g cs := by
      intro cs
      induction cs with
      | nil => intro bs h; cases bs with | nil => rfl | cons => simp at h
      | cons c cs ih =>
        intro bs h
        cases bs with
        | nil => simp at h
        | cons b bs =>
          simp only [List.map_cons, List.cons.injEq] at h
          have e := (marshal_eq g c).symm.trans h.1
          rw [List.flatten_cons, ih bs h.2, ← Res.ok.inj e]
          rfl
    unfold IE.valueAsGrouped
    rw [isVendor_eq, decide_eq_true h1, h2, h3, hf cs bs hb]
    simpa using parseMulti_enc g cs (hw cs hcs)
example : ((0x8009 : IEType).toNat ≥ 32768) ∧ (IE.new 29 [0, 0, 0, 5]).marshal (defaultGroupedTypes.contains ·) = .ok [0, 29, 0, 4, 0, 0, 0, 5] := by
  decide +kernel

end Pfcp
