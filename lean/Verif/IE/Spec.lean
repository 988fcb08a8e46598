/-
Specification side of the information element codec: the wire format of TS 29.244 8.1.1 written
down directly, and what a well-formed element is. Independent of the model's functions.
-/
import Verif.IE.Model

namespace Pfcp

/-- Element header on the wire: type, length, and the enterprise id of a vendor-specific type. -/
def encHdr (t : IEType) (len eid : UInt16) : Bytes :=
  be16 t ++ be16 len ++ (if isVendor t then be16 eid else [])

mutual
/-- Wire format of an element: header, then the encodings of the children (grouped) or the payload. -/
def IE.enc (g : IEType → Bool) : IE → Bytes
  | ⟨t, len, eid, p, cs⟩ => encHdr t len eid ++ (if g t then encList g cs else p)
/-- Wire format of a sequence of elements. -/
def encList (g : IEType → Bool) : List IE → Bytes
  | [] => []
  | c :: cs => c.enc g ++ encList g cs
end

mutual
/-- A well-formed element: the length field counts the bytes after the 4-byte header, the
enterprise id is only present on vendor types, a grouped element's payload is the encoding of its
(well-formed) children, and a plain element has no children. -/
def IE.WF (g : IEType → Bool) : IE → Prop
  | ⟨t, len, eid, p, cs⟩ =>
    len.toNat = (if isVendor t then 2 else 0) + p.length ∧
    (isVendor t = false → eid = 0) ∧
    (if g t then p = encList g cs ∧ WFList g cs else cs = [])
def WFList (g : IEType → Bool) : List IE → Prop
  | [] => True
  | c :: cs => c.WF g ∧ WFList g cs
end

mutual
/-- Number of elements in a tree, at all levels. -/
def IE.nodes : IE → Nat
  | ⟨_, _, _, _, cs⟩ => 1 + nodesList cs
def nodesList : List IE → Nat
  | [] => 0
  | c :: cs => c.nodes + nodesList cs
end

mutual
/-- Nesting depth of a tree. -/
def IE.depth : IE → Nat
  | ⟨_, _, _, _, cs⟩ => 1 + depthList cs
def depthList : List IE → Nat
  | [] => 0
  | c :: cs => max c.depth (depthList cs)
end

end Pfcp
