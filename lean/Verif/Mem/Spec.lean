/- Notions used to state the properties of the memory model. -/
import Verif.Mem.Model

namespace Pfcp
namespace Mem

mutual
/-- The element read again from other bytes: type, lengths and nesting stay, the payloads are the bytes now at their places. -/
def over (g : IEType → Bool) (b : Bytes) : IE → IE
  | ⟨t, l, e, p, cs⟩ => ⟨t, l, e, (b.drop (hdrLen t)).take p.length, overList g ((b.drop (hdrLen t)).take p.length) cs⟩
/-- The same for consecutive elements. -/
def overList (g : IEType → Bool) (b : Bytes) : List IE → List IE
  | [] => []
  | c :: cs => over g b c :: overList g (b.drop (c.marshalLen g)) cs
end

/-- `q` can be reached from `p` by following children. -/
inductive Reach (h : Heap) : Nat → Nat → Prop
  | refl (p) : Reach h p p
  | step {p c q : Nat} {x : Node} {qs : List (Option Nat)} : h.nodes[p]? = some x → h.ptrs x.kids = .ok qs → some c ∈ qs →
      Reach h c q → Reach h p q

/-- What the library maintains: slices lie inside their arrays, and no two structs share a pointer array. -/
structure Inv (h : Heap) : Prop where
  payload : ∀ (p : Nat) x w, h.nodes[p]? = some x → x.payload = some w →
    ∃ b, h.bufs[w.buf]? = some b ∧ w.off + w.len ≤ b.length
  kids : ∀ (p : Nat) x k, h.nodes[p]? = some x → x.kids = some k → ∃ a, h.arrs[k.arr]? = some a ∧ k.len ≤ a.length
  own : ∀ (p q : Nat) x y k l, h.nodes[p]? = some x → h.nodes[q]? = some y → x.kids = some k → y.kids = some l →
    k.arr = l.arr → p = q

/-- The calls of the library that allocate or write; the arguments are pointers and slices that exist already. -/
inductive Op where
  /-- `ie.Parse(b)` -/
  | parse (w : Win)
  /-- `ie.New`, `ie.NewVendorSpecificIE` with a slice of the caller -/
  | new (t : IEType) (eid : UInt16) (w : Win)
  /-- `ie.NewGroupedIE` and the constructors of grouped elements -/
  | group (t : IEType) (eid : UInt16) (qs : List (Option Nat))
  /-- `i.Add(ies...)` -/
  | add (p : Nat) (qs : List (Option Nat))
  /-- `i.Remove(typ)` -/
  | remove (p : Nat) (typ : IEType)

/-- The memory after a call. A call that returns an error may have allocated, but nothing refers to that. -/
def Op.run (g : IEType → Bool) (extra : Nat → Nat) (n : Nat) (h : Heap) : Op → Res Heap
  | .parse w =>
    match parseH g extra h w with
    | .ok r => .ok r.1
    | .err _ => .ok h
    | .panic => .panic
  | .new t eid w => .ok (newH h t eid w).1
  | .group t eid qs =>
    match newGroupedH g extra n h t eid qs with
    | .ok r => .ok r.1
    | .err _ => .ok h
    | .panic => .panic
  | .add p qs => addH g extra n h p qs
  | .remove p typ => removeH g n h p typ

/-- The memory after a sequence of calls. -/
def runAll (g : IEType → Bool) (extra : Nat → Nat) (n : Nat) : Heap → List Op → Res Heap
  | h, [] => .ok h
  | h, o :: os => o.run g extra n h >>= fun h' => runAll g extra n h' os

/-- The struct that a call writes to, if any. -/
def Op.target : Op → Option Nat
  | .add p _ => some p
  | .remove p _ => some p
  | _ => none

/-- The slice that a call keeps lies inside its array (as every Go slice does). -/
def Op.inside (h : Heap) : Op → Prop
  | .new _ _ w => ∃ b, h.bufs[w.buf]? = some b ∧ w.off + w.len ≤ b.length
  | _ => True

end Mem
end Pfcp
