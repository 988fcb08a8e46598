/-
A model of the memory behind the elements: byte arrays, arrays of pointers, and `IE` structs.

`Verif/IE/Model.lean` treats an element as a value. Here an element is a pointer to a struct whose `Payload` is a window into
a byte array that may be shared (with the receive buffer, with the enclosing element), and whose `ChildIEs` is a prefix of an
array of pointers that may have room left.

Addresses are positions in the three lists of `Heap`; allocation appends. Functions that only read (`Marshal`, `MarshalLen`,
accessors) are applied to the value that the pointer denotes at that moment (`viewF`).
-/
import Verif.IE.Lemmas

namespace Pfcp
namespace Mem

/-- A `[]byte` that is not nil: `len` bytes from position `off` of the byte array number `buf`. -/
structure Win where
  buf : Nat
  off : Nat
  len : Nat
  deriving DecidableEq

/-- A `[]*IE` that is not nil: the first `len` entries of the pointer array number `arr`. The library never takes such a slice
from another position than the start. Its capacity is the length of the array. -/
structure Kids where
  arr : Nat
  len : Nat
  deriving DecidableEq

/-- `type IE struct` as it lies in memory, /repo/ie/ie.go:299-305; `none` is a nil slice. -/
structure Node where
  typ : IEType
  length : UInt16
  eid : UInt16
  payload : Option Win
  kids : Option Kids
  deriving DecidableEq

/-- Memory: byte arrays, pointer arrays (`none` is a nil pointer), structs. -/
structure Heap where
  bufs : List Bytes
  arrs : List (List (Option Nat))
  nodes : List Node
  deriving DecidableEq

namespace Heap

/-- The bytes of a slice. -/
def read (h : Heap) : Option Win → Res Bytes
  | none => .ok []
  | some w =>
    match h.bufs[w.buf]? with
    | some b => slice b w.off (w.off + w.len)
    | none => .panic

/-- The pointers of a slice. -/
def ptrs (h : Heap) : Option Kids → Res (List (Option Nat))
  | none => .ok []
  | some k =>
    match h.arrs[k.arr]? with
    | some a => if k.len ≤ a.length then .ok (a.take k.len) else .panic
    | none => .panic

def allocBuf (h : Heap) (b : Bytes) : Heap × Win := ({ h with bufs := h.bufs ++ [b] }, ⟨h.bufs.length, 0, b.length⟩)

def allocNode (h : Heap) (x : Node) : Heap × Nat := ({ h with nodes := h.nodes ++ [x] }, h.nodes.length)

def setNode (h : Heap) (p : Nat) (x : Node) : Heap := { h with nodes := h.nodes.set p x }

/-- A new pointer array with the given entries and `extra` free ones behind them. -/
def allocArr (h : Heap) (qs : List (Option Nat)) (extra : Nat) : Heap × Kids :=
  ({ h with arrs := h.arrs ++ [qs ++ List.replicate extra none] }, ⟨h.arrs.length, qs.length⟩)

/-- Go's `append(s, qs...)` on slices of pointers: in place if the capacity allows, else into a new array. How much larger the
new array is than needed is up to the run-time system; `extra` stands for its choice. -/
def append (h : Heap) (extra : Nat → Nat) (k : Option Kids) (qs : List (Option Nat)) : Res (Heap × Option Kids) :=
  if qs = [] then .ok (h, k)
  else
    match k with
    | none => .ok ((h.allocArr qs (extra qs.length)).1, some (h.allocArr qs (extra qs.length)).2)
    | some k =>
      match h.arrs[k.arr]? with
      | none => .panic
      | some a =>
        if k.len + qs.length ≤ a.length then
          .ok ({ h with arrs := h.arrs.set k.arr (a.take k.len ++ qs ++ a.drop (k.len + qs.length)) },
            some ⟨k.arr, k.len + qs.length⟩)
        else
          .ok ((h.allocArr (a.take k.len ++ qs) (extra (k.len + qs.length))).1,
            some (h.allocArr (a.take k.len ++ qs) (extra (k.len + qs.length))).2)

end Heap

/-- What a list of pointers denotes; following a nil pointer panics. -/
def viewAll (f : Nat → Res IE) : List (Option Nat) → Res (List IE)
  | [] => .ok []
  | none :: _ => .panic
  | some q :: qs => f q >>= fun c => viewAll f qs >>= fun cs => .ok (c :: cs)

/-- The value that a pointer denotes, following at most `n` levels of nesting. `n` stands for the depth of the stack: a function
that walks through a deeper (or cyclic) structure does not return. -/
def viewF (h : Heap) : Nat → Nat → Res IE
  | 0, _ => .panic
  | n + 1, p =>
    match h.nodes[p]? with
    | none => .panic
    | some x =>
      h.read x.payload >>= fun pl => h.ptrs x.kids >>= fun qs => viewAll (viewF h n) qs >>= fun cs =>
      .ok ⟨x.typ, x.length, x.eid, pl, cs⟩

/-- The header of an element as `UnmarshalBinary` reads it, /repo/ie/ie.go:515-536: type, length, enterprise ID, position and size
of the payload. -/
def readHdr (b : Bytes) : Res (IEType × UInt16 × UInt16 × Nat × Nat) :=
  if b.length < 4 then .err .unexpectedEOF
  else
    slice b 0 2 >>= fun tb => slice b 2 4 >>= fun lb =>
    if isVendor (dec16 tb) then
      if b.length < 6 then .err .unexpectedEOF
      else if (dec16 lb).toNat < 2 then .err .invalidLength
      else slice b 4 6 >>= fun eb => .ok (dec16 tb, dec16 lb, dec16 eb, 6, (dec16 lb).toNat - 2)
    else .ok (dec16 tb, dec16 lb, 0, 4, (dec16 lb).toNat)

/-- The slice that `ParseMultiIEs` returns: nil for no elements, else an array with some room (what `append` left in the end; the
arrays it abandoned on the way are garbage). /repo/ie/ie.go:497,507. -/
def listOf (h : Heap) (extra : Nat → Nat) (qs : List Nat) : Heap × Option Kids :=
  if qs = [] then (h, none)
  else ((h.allocArr (qs.map some) (extra qs.length)).1, some (h.allocArr (qs.map some) (extra qs.length)).2)

mutual
/-- `Parse` / `IE.UnmarshalBinary` on a fresh struct, /repo/ie/ie.go:480-486, 514-556. `Payload` is a window of the slice given
(line 545). The struct is allocated last instead of first. -/
def unmarshalH (g : IEType → Bool) (extra : Nat → Nat) : Nat → Heap → Win → Res (Heap × Nat)
  | 0, _, _ => .panic
  | fuel + 1, h, w =>
    h.read (some w) >>= fun b => readHdr b >>= fun (t, len, eid, offset, endd) =>
    if w.len ≤ offset then .ok (h.allocNode ⟨t, len, eid, none, none⟩)
    else if w.len < offset + endd then .err .unexpectedEOF
    else if g t then
      parseMultiH g extra fuel h ⟨w.buf, w.off + offset, endd⟩ >>= fun r =>
      .ok ((listOf r.1 extra r.2).1.allocNode ⟨t, len, eid, some ⟨w.buf, w.off + offset, endd⟩, (listOf r.1 extra r.2).2⟩)
    else .ok (h.allocNode ⟨t, len, eid, some ⟨w.buf, w.off + offset, endd⟩, none⟩)
/-- The loop of `ParseMultiIEs`, /repo/ie/ie.go:496-511: the pointers of the elements. -/
def parseMultiH (g : IEType → Bool) (extra : Nat → Nat) : Nat → Heap → Win → Res (Heap × List Nat)
  | 0, _, _ => .panic
  | fuel + 1, h, w =>
    if w.len = 0 then .ok (h, [])
    else
      unmarshalH g extra fuel h w >>= fun r => viewF r.1 fuel r.2 >>= fun i =>
      if i.marshalLen g ≤ w.len then
        parseMultiH g extra fuel r.1 ⟨w.buf, w.off + i.marshalLen g, w.len - i.marshalLen g⟩ >>= fun s =>
        .ok (s.1, r.2 :: s.2)
      else .panic
end

/-- `Parse(b)`, /repo/ie/ie.go:480-486, of a slice of an existing byte array. -/
def parseH (g : IEType → Bool) (extra : Nat → Nat) (h : Heap) (w : Win) : Res (Heap × Nat) :=
  unmarshalH g extra (2 * w.len + 1) h w

/-- `New` and `NewVendorSpecificIE`, /repo/ie/ie.go:308-328: the struct keeps the slice given, no copy. -/
def newH (h : Heap) (t : IEType) (eid : UInt16) (w : Win) : Heap × Nat :=
  h.allocNode ⟨t, UInt16.ofNat ((if isVendor t then 2 else 0) + w.len), eid, some w, none⟩

/-- `newGroupedIE`, /repo/ie/ie.go:664-685, in a stack of depth `n`. Nil arguments are skipped; the children are encoded into a
new byte array. (Encoding into an exact buffer never fails: `marshal_eq`, so the branch of line 675-678 is left out.) -/
def newGroupedH (g : IEType → Bool) (extra : Nat → Nat) (n : Nat) (h : Heap) (t : IEType) (eid : UInt16)
    (qs : List (Option Nat)) : Res (Heap × Nat) :=
  viewAll (viewF h n) (qs.filter (·.isSome)) >>= fun cs => serializeLoop g cs [] >>= fun pl =>
  .ok (((listOf (h.allocBuf pl).1 extra (qs.filterMap id)).1).allocNode
    ⟨t, UInt16.ofNat ((if isVendor t then 2 else 0) + pl.length), eid, some (h.allocBuf pl).2,
      (listOf (h.allocBuf pl).1 extra (qs.filterMap id)).2⟩)

/-- `IE.Add`, /repo/ie/ie_grouped.go:137-152, in a stack of depth `n`: line 142 drops the payload, 143 appends to `ChildIEs`,
144-150 encode all children into a new byte array (capacity beyond its length left out), 151 sets the length. -/
def addH (g : IEType → Bool) (extra : Nat → Nat) (n : Nat) (h : Heap) (p : Nat) (qs : List (Option Nat)) : Res Heap :=
  match h.nodes[p]? with
  | none => .panic
  | some x =>
    if !g x.typ then .ok h
    else
      h.append extra x.kids qs >>= fun r =>
      (r.1.setNode p { x with payload := none, kids := r.2 }).ptrs r.2 >>= fun ps =>
      viewAll (viewF (r.1.setNode p { x with payload := none, kids := r.2 }) n) ps >>= fun cs =>
      serializeLoop g cs [] >>= fun pl =>
      .ok ((r.1.allocBuf pl).1.setNode p
        { x with payload := some (r.1.allocBuf pl).2, kids := r.2,
                 length := UInt16.ofNat ((if isVendor x.typ then 2 else 0) + pl.length) })

/-- The type of the struct behind a pointer; nil panics. -/
def typeAt (h : Heap) : Option Nat → Res IEType
  | none => .panic
  | some q =>
    match h.nodes[q]? with
    | none => .panic
    | some x => .ok x.typ

/-- The pointers that the loop of `Remove` keeps, /repo/ie/ie_grouped.go:162-168. -/
def keep (h : Heap) (typ : IEType) : List (Option Nat) → Res (List (Option Nat))
  | [] => .ok []
  | q :: qs => typeAt h q >>= fun t => keep h typ qs >>= fun ks => .ok (if t = typ then ks else q :: ks)

/-- `IE.Remove`, /repo/ie/ie_grouped.go:155-179, in a stack of depth `n`: a new pointer array as long as the old list (line 161),
the entries kept first; the kept children are encoded into a new byte array. -/
def removeH (g : IEType → Bool) (n : Nat) (h : Heap) (p : Nat) (typ : IEType) : Res Heap :=
  match h.nodes[p]? with
  | none => .panic
  | some x =>
    if !g x.typ then .ok h
    else
      h.ptrs x.kids >>= fun ps => keep h typ ps >>= fun ks =>
      viewAll (viewF (h.setNode p { x with payload := none }) n) ks >>= fun cs =>
      serializeLoop g cs [] >>= fun pl =>
      .ok (((h.allocArr ks (ps.length - ks.length)).1.allocBuf pl).1.setNode p
        { x with payload := some (((h.allocArr ks (ps.length - ks.length)).1).allocBuf pl).2,
                 kids := some (h.allocArr ks (ps.length - ks.length)).2,
                 length := UInt16.ofNat ((if isVendor x.typ then 2 else 0) + pl.length) })

/-- The program outside the library writes into one of its byte arrays, for instance receives the next datagram into the same
buffer. -/
def poke (h : Heap) (a : Nat) (b : Bytes) : Heap := { h with bufs := h.bufs.set a b }

/-- The list behind `ChildIEs`, as `ValueAsGrouped` hands it out, /repo/ie/ie.go:455. -/
def kidsOf (h : Heap) (p : Nat) : Option Kids := (h.nodes[p]?).bind (·.kids)

/-- `j := *i`: a copy of the struct. Both share payload and list. -/
def copyNode (h : Heap) (p : Nat) : Res (Heap × Nat) :=
  match h.nodes[p]? with
  | none => .panic
  | some x => .ok (h.allocNode x)

end Mem
end Pfcp
