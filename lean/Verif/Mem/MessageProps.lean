/- Property C91: a received message and the buffer it was received into. -/
import Verif.Mem.Message
import Verif.Mem.Props

namespace Pfcp
namespace Mem

variable (g : IEType → Bool) (extra : Nat → Nat)

/-- C91 (a). Decoding a message in memory gives the message that the decoder on values gives (or its error), and leaves all byte
arrays as they were. -/
theorem C91_decode (h : Heap) (w : Win) (b : Bytes) (hr : h.read (some w) = .ok b) :
    (∀ m, Msg.parse g b = .ok m → ∃ h' mh n, parseMsgH g extra h w = .ok (h', mh) ∧ mh.view h' n = .ok m ∧ h'.bufs = h.bufs) ∧
    (∀ e, Msg.parse g b = .err e → parseMsgH g extra h w = .err e) := by
  refine ⟨fun m hm => ?_, (decodeMsg g extra h w b hr).2⟩
  obtain ⟨xs, hf, hov, h', mh, n, hp, hext, hb, hv⟩ := (decodeMsg g extra h w b hr).1 m hm
  have hd : m.header.payload = b.drop (if m.header.hasSEID then 16 else 8) := by
    obtain ⟨hd, _, hp', heq, _⟩ := Msg.C21_filing g _ _ hm
    rw [heq]
    exact (payload_drop hp').2
  have := hv h' b (Ext.same (Ext.refl h')) rfl (hext.read hr)
  rw [← hd, hov] at this
  refine ⟨h', mh, n, hp, ?_, hb⟩
  rw [this]
  exact congrArg Res.ok hf.symm

/-- C91 (b), exactly: after the buffer has been overwritten, the message is the old one (its header, the types, lengths, nesting and
places of its elements) with the values that are now at their places in the buffer. -/
theorem C91_exact (h : Heap) (w : Win) (b : Bytes) (hr : h.read (some w) = .ok b) (m : Msg) (hm : Msg.parse g b = .ok m) :
    ∃ xs, m = Msg.filed m.kind m.header xs ∧ overList g m.header.payload xs = xs ∧
      ∃ h' mh n, parseMsgH g extra h w = .ok (h', mh) ∧ mh.view h' n = .ok m ∧
        ∀ c b2, (poke h' w.buf c).read (some w) = .ok b2 →
          mh.view (poke h' w.buf c) n = .ok (Msg.filed m.kind
            { m.header with payload := b2.drop (if m.header.hasSEID then 16 else 8) }
            (overList g (b2.drop (if m.header.hasSEID then 16 else 8)) xs)) := by
  obtain ⟨xs, hf, hov, h', mh, n, hp, hext, hb, hv⟩ := (decodeMsg g extra h w b hr).1 m hm
  refine ⟨xs, hf, hov, h', mh, n, hp, ?_, fun c b2 hc => ?_⟩
  · have hd : m.header.payload = b.drop (if m.header.hasSEID then 16 else 8) := by
      obtain ⟨hd, _, hp', heq, _⟩ := Msg.C21_filing g _ _ hm
      rw [heq]
      exact (payload_drop hp').2
    have := hv h' b (Ext.same (Ext.refl h')) rfl (hext.read hr)
    rw [← hd, hov] at this
    rw [this]
    exact congrArg Res.ok hf.symm
  · exact hv _ _ ⟨fun _ _ h => h, fun _ _ h => h⟩ rfl hc

/-- A list of elements of the same types is filed in the same places. -/
theorem filed_types (k : Kind) (hd hd' : Header) : ∀ (xs ys : List IE), xs.map (·.typ) = ys.map (·.typ) →
    ((Msg.filed k hd xs).fields.map fun p => (p.1, p.2.elems.map (·.typ))) =
      (Msg.filed k hd' ys).fields.map (fun p => (p.1, p.2.elems.map (·.typ))) ∧
    ((Msg.filed k hd xs).ies.map (Option.map (·.typ))) = (Msg.filed k hd' ys).ies.map (Option.map (·.typ)) := by
  intro xs ys h
  have hfil : ∀ (p : IEType → Bool) (xs ys : List IE), xs.map (·.typ) = ys.map (·.typ) →
      (xs.filter fun i => p i.typ).map (·.typ) = (ys.filter fun i => p i.typ).map (·.typ) := by
    intro p xs ys h
    have hc : ∀ xs : List IE, (xs.filter fun i => p i.typ).map (·.typ) = (xs.map (·.typ)).filter p := by
      intro xs; rw [List.filter_map]; rfl
    rw [hc, hc, h]
  constructor
  · simp only [Msg.filed, List.map_map]
    apply List.map_congr_left
    intro p _
    simp only [Function.comp]
    congr 1
    have hh := hfil (fun t => decide (t = fieldIE k p.1)) xs ys h
    obtain ⟨nm, c⟩ := p
    cases c with
    | one =>
      simp only [Slot.collect, Slot.elems] at hh ⊢
      have := congrArg List.getLast? hh
      rw [List.getLast?_map, List.getLast?_map] at this
      revert this
      cases (xs.filter fun i => decide (i.typ = fieldIE k nm)).getLast? <;>
        cases (ys.filter fun i => decide (i.typ = fieldIE k nm)).getLast? <;> simp
    | many =>
      simpa [Slot.collect, Slot.elems] using hh
  · simp only [Msg.filed, List.map_map]
    have hh := hfil (fun t => decide (∀ n ∈ k.names, t ≠ fieldIE k n)) xs ys h
    have := congrArg (List.map some) hh
    simpa [Function.comp_def] using this

/-- C91, the part that holds: kind, flags, type, length, session id, sequence number and priority stay, and every field holds as many
elements of the same types as before. -/
theorem C91_kept_partial (h : Heap) (w : Win) (b : Bytes) (hr : h.read (some w) = .ok b) (m : Msg) (hm : Msg.parse g b = .ok m) :
    ∃ h' mh n, parseMsgH g extra h w = .ok (h', mh) ∧ mh.view h' n = .ok m ∧
      ∀ c b2, (poke h' w.buf c).read (some w) = .ok b2 → ∃ m', mh.view (poke h' w.buf c) n = .ok m' ∧ m'.kind = m.kind ∧
        m'.header = { m.header with payload := m'.header.payload } ∧
        (m'.fields.map fun p => (p.1, p.2.elems.map (·.typ))) = m.fields.map (fun p => (p.1, p.2.elems.map (·.typ))) ∧
        m'.ies.map (Option.map (·.typ)) = m.ies.map (Option.map (·.typ)) := by
  obtain ⟨xs, hf, _, h', mh, n, hp, hv, hc⟩ := C91_exact g extra h w b hr m hm
  refine ⟨h', mh, n, hp, hv, fun c b2 hr2 => ⟨_, hc c b2 hr2, rfl, rfl, ?_⟩⟩
  have := filed_types m.kind { m.header with payload := b2.drop (if m.header.hasSEID then 16 else 8) } m.header _ xs
    (overList_types g xs (b2.drop (if m.header.hasSEID then 16 else 8)))
  rw [← hf] at this
  exact this

mutual
/-- The element with every octet of every value inverted, at all depths. -/
def flip : IE → IE
  | ⟨t, l, e, p, cs⟩ => ⟨t, l, e, p.map (~~~ ·), flipList cs⟩
def flipList : List IE → List IE
  | [] => []
  | c :: cs => flip c :: flipList cs
end

theorem flipList_map : ∀ cs : List IE, flipList cs = cs.map flip
  | [] => rfl
  | c :: cs => by rw [flipList, flipList_map cs]; rfl

mutual
theorem over_flip (b : Bytes) : ∀ i : IE, over g (b.map (~~~ ·)) i = flip (over g b i)
  | ⟨t, l, e, p, cs⟩ => by
    simp only [over, flip]
    rw [← List.map_drop, ← List.map_take, overList_flip _ cs]
theorem overList_flip (b : Bytes) : ∀ is : List IE, overList g (b.map (~~~ ·)) is = flipList (overList g b is)
  | [] => rfl
  | i :: is => by
    simp only [overList, flipList]
    rw [over_flip b i, ← List.map_drop, overList_flip _ is]
end

/-- A field with a function applied to its elements. -/
def mapSlot (f : IE → IE) : Slot → Slot
  | .one v => .one (v.map f)
  | .many vs => .many (vs.map (Option.map f))

theorem filed_map (f : IE → IE) (hf : ∀ i, (f i).typ = i.typ) (k : Kind) (hd hd' : Header) (xs : List IE) :
    Msg.filed k hd (xs.map f) = { Msg.filed k hd xs with
      fields := (Msg.filed k hd' xs).fields.map (fun p => (p.1, mapSlot f p.2)),
      ies := (Msg.filed k hd' xs).ies.map (Option.map f) } := by
  have hfil : ∀ (p : IEType → Bool), ((xs.map f).filter fun i => p i.typ) = (xs.filter fun i => p i.typ).map f := by
    intro p
    rw [List.filter_map]
    congr 1
    apply List.filter_congr
    intro i _
    simp only [Function.comp, hf]
  unfold Msg.filed
  congr 1
  · simp only [List.map_map]
    apply List.map_congr_left
    intro p _
    simp only [Function.comp]
    congr 1
    rw [hfil (fun t => decide (t = fieldIE k p.1))]
    obtain ⟨nm, c⟩ := p
    cases c with
    | one => simp [Slot.collect, mapSlot, List.getLast?_map]
    | many => simp [Slot.collect, mapSlot, Function.comp_def]
  · rw [hfil (fun t => decide (∀ n ∈ k.names, t ≠ fieldIE k n))]
    simp [Function.comp_def]

/-- C91 fails for every message: let the next datagram received into the same buffer have the inverse octets; then in the message
received before, every octet of every value, in every field and at every depth, is now another one. -/
theorem C91_violated (buf : Bytes) (m : Msg) (hm : Msg.parse g buf = .ok m) :
    ∃ h' mh n next m', parseMsgH g extra ⟨[buf], [], []⟩ ⟨0, 0, buf.length⟩ = .ok (h', mh) ∧ mh.view h' n = .ok m ∧
      next.length = buf.length ∧ mh.view (poke h' 0 next) n = .ok m' ∧
      m'.fields = m.fields.map (fun p => (p.1, mapSlot flip p.2)) ∧ m'.ies = m.ies.map (Option.map flip) ∧
      ∀ i : IE, (flip i).payload.length = i.payload.length ∧
        ∀ k : Nat, ∀ x ∈ i.payload[k]?, ∀ y ∈ (flip i).payload[k]?, x ≠ y := by
  have hr : (Heap.mk [buf] [] []).read (some ⟨0, 0, buf.length⟩) = .ok buf := by simp [Heap.read, slice]
  obtain ⟨xs, hf, hov, h', mh, n, hp, hext, hb, hv⟩ := (decodeMsg g extra _ _ buf hr).1 m hm
  have hd : m.header.payload = buf.drop (if m.header.hasSEID then 16 else 8) := by
    obtain ⟨hd, _, hp', heq, _⟩ := Msg.C21_filing g _ _ hm
    rw [heq]
    exact (payload_drop hp').2
  have hr2 : (poke h' 0 (buf.map (~~~ ·))).read (some ⟨0, 0, buf.length⟩) = .ok (buf.map (~~~ ·)) := by
    simp only [Heap.read, poke, hb, List.set_cons_zero, List.getElem?_cons_zero, slice]
    rw [if_pos (by simp)]
    simp [List.take_of_length_le]
  have hv2 := hv (poke h' 0 (buf.map (~~~ ·))) _ ⟨fun _ _ h => h, fun _ _ h => h⟩ rfl hr2
  rw [← List.map_drop, ← hd, overList_flip, hov, flipList_map,
    filed_map flip (fun i => by obtain ⟨_, _, _, _, _⟩ := i; rfl) m.kind _ m.header xs, ← hf] at hv2
  refine ⟨h', mh, n, buf.map (~~~ ·), _, hp, ?_, by simp, hv2, rfl, rfl, fun i => ?_⟩
  · have := hv h' buf (Ext.same (Ext.refl h')) rfl (hext.read hr)
    rw [← hd, hov] at this
    rw [this]
    exact congrArg Res.ok hf.symm
  · obtain ⟨t, l, e, p, cs⟩ := i
    refine ⟨by simp [flip], fun k x hx y hy => ?_⟩
    simp only [flip, List.getElem?_map, Option.mem_def] at hx hy
    rw [hx] at hy
    cases hy
    exact forall_byte (p := fun x => decide (x ≠ ~~~ x)) (by decide +kernel) x |> of_decide_eq_true

/-- C91 holds for a message decoded from an array of its own (a copy of what was received): writing into any other array leaves it as
it is. -/
theorem C91_copied_partial (h : Heap) (w : Win) (b : Bytes) (hr : h.read (some w) = .ok b) (m : Msg) (hm : Msg.parse g b = .ok m) :
    ∃ h' mh n, parseMsgH g extra h w = .ok (h', mh) ∧ mh.view h' n = .ok m ∧
      ∀ a c, a ≠ w.buf → mh.view (poke h' a c) n = .ok m := by
  obtain ⟨xs, hf, hov, h', mh, n, hp, hext, hb, hv⟩ := (decodeMsg g extra h w b hr).1 m hm
  have hd : m.header.payload = b.drop (if m.header.hasSEID then 16 else 8) := by
    obtain ⟨hd, _, hp', heq, _⟩ := Msg.C21_filing g _ _ hm
    rw [heq]
    exact (payload_drop hp').2
  have key : ∀ h2 : Heap, Same h' h2 → h2.nodes = h'.nodes → h2.read (some w) = .ok b → mh.view h2 n = .ok m := by
    intro h2 hs hn hr2
    have := hv h2 b hs hn hr2
    rw [← hd, hov] at this
    rw [this]
    exact congrArg Res.ok hf.symm
  have hr' := hext.read hr
  refine ⟨h', mh, n, hp, key h' (Ext.same (Ext.refl h')) rfl hr', fun a c ha => ?_⟩
  apply key (poke h' a c) ⟨fun _ _ h => h, fun _ _ h => h⟩ rfl
  simp only [Heap.read, poke] at hr' ⊢
  rw [List.getElem?_set_ne ha]
  exact hr'

/-- A Heartbeat Request that carries a time, in a buffer: a message of which the theorems speak. -/
example : ∃ m, Msg.parse (defaultGroupedTypes.contains ·) [0x20, 1, 0, 12, 0, 0, 7, 0, 0, 96, 0, 4, 1, 2, 3, 4] = .ok m ∧
    m.fields = [(.RecoveryTimeStamp, .one (some ⟨96, 4, 0, [1, 2, 3, 4], []⟩)), (.SourceIPAddress, .one none)] ∧
    flip ⟨96, 4, 0, [1, 2, 3, 4], []⟩ = ⟨96, 4, 0, [254, 253, 252, 251], []⟩ := by
  refine ⟨_, rfl, ?_, ?_⟩ <;> decide +kernel

end Mem
end Pfcp
