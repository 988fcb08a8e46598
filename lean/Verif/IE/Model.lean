/-
Model of the information element core, /repo/ie/ie.go.

`g : IEType → Bool` stands for the package-level `isGroupedFun` (/repo/ie/ie_grouped.go:99-104,131);
see `Verif/IE/Config.lean` for the functions that change it.
-/
import Verif.Go
import Verif.IE.Types

namespace Pfcp

/-- `type IE struct`, /repo/ie/ie.go:299-305. Children are non-nil: every function of the library
that builds `ChildIEs` puts only non-nil pointers there (nil arguments are modelled by `Option IE`
at the API functions that take them). -/
structure IE where
  typ : IEType
  length : UInt16
  eid : UInt16
  payload : Bytes
  children : List IE

mutual
/-- Equality of elements is decidable (not part of the Go code; used by concrete examples). -/
def IE.decEq : (a b : IE) → Decidable (a = b)
  | ⟨t, l, e, p, cs⟩, ⟨t', l', e', p', cs'⟩ =>
    if h : t = t' ∧ l = l' ∧ e = e' ∧ p = p' then
      match IE.decEqList cs cs' with
      | isTrue hc => isTrue (by obtain ⟨h1, h2, h3, h4⟩ := h; rw [h1, h2, h3, h4, hc])
      | isFalse hc => isFalse (by intro hh; cases hh; exact hc rfl)
    else isFalse (by intro hh; cases hh; exact h ⟨rfl, rfl, rfl, rfl⟩)
def IE.decEqList : (a b : List IE) → Decidable (a = b)
  | [], [] => isTrue rfl
  | [], _ :: _ => isFalse (by intro h; cases h)
  | _ :: _, [] => isFalse (by intro h; cases h)
  | a :: as, b :: bs =>
    match IE.decEq a b, IE.decEqList as bs with
    | isTrue h1, isTrue h2 => isTrue (by rw [h1, h2])
    | isFalse h1, _ => isFalse (by intro h; cases h; exact h1 rfl)
    | _, isFalse h2 => isFalse (by intro h; cases h; exact h2 rfl)
end

instance : DecidableEq IE := IE.decEq

/-- `IE.IsVendorSpecific` on the type, /repo/ie/ie.go:626-632. -/
def isVendor (t : IEType) : Bool := t &&& 0x8000 != 0

/-- Size of the element header: 4, plus 2 for a vendor-specific element.
/repo/ie/ie.go:599-602 (and 575-579, 522-535). -/
def hdrLen (t : IEType) : Nat := if isVendor t then 6 else 4

mutual
/-- `IE.MarshalLen`, /repo/ie/ie.go:598-612. -/
def IE.marshalLen (g : IEType → Bool) : IE → Nat
  | ⟨t, _, _, p, cs⟩ =>
    let l := if isVendor t then 4 + 2 else 4
    if g t then marshalLenList g l cs else l + p.length
/-- The loop of `IE.MarshalLen`, /repo/ie/ie.go:605-607; `l` is the running total. -/
def marshalLenList (g : IEType → Bool) (l : Nat) : List IE → Nat
  | [] => l
  | c :: cs => marshalLenList g (l + c.marshalLen g) cs
end

mutual
/-- `IE.MarshalTo`, /repo/ie/ie.go:568-595. Returns the buffer after the call. On an error the
partial writes are dropped (no caller looks at them). -/
def IE.marshalTo (g : IEType → Bool) : IE → Slice → Res Slice
  | ⟨t, len, eid, p, cs⟩, b => do
    let l := b.len
    if l < 4 then .err .invalidLength else do
    let b ← b.putAt 0 2 (be16 t)
    let b ← b.putAt 2 4 (be16 len)
    let (b, offset) ← (if isVendor t && decide (6 ≤ l) then do
        let b ← b.putAt 4 6 (be16 eid)
        pure (b, 6)
      else pure (b, 4) : Res (Slice × Nat))
    if g t then marshalChildren g cs b offset
    else b.copyAt offset (IE.marshalLen g ⟨t, len, eid, p, cs⟩) p
/-- The loop over `ChildIEs` of `IE.MarshalTo`, /repo/ie/ie.go:582-588. The child writes through
the view `b[offset:]`. -/
def marshalChildren (g : IEType → Bool) : List IE → Slice → Nat → Res Slice
  | [], b, _ => .ok b
  | c :: cs, b, offset =>
    if offset ≤ b.data.length then do
      let v ← c.marshalTo g ⟨b.data.drop offset, b.spare⟩
      marshalChildren g cs ⟨b.data.take offset ++ v.data, v.spare⟩ (offset + c.marshalLen g)
    else .panic
end

/-- `IE.Marshal`, /repo/ie/ie.go:559-565. -/
def IE.marshal (g : IEType → Bool) (i : IE) : Res Bytes := do
  let b ← i.marshalTo g (Slice.make (i.marshalLen g))
  pure b.data

mutual
/-- `IE.UnmarshalBinary`, /repo/ie/ie.go:514-556, on a fresh `IE`. The first argument is fuel; when
it runs out the result is `panic`. -/
def unmarshalF (g : IEType → Bool) : Nat → Bytes → Res IE
  | 0, _ => .panic
  | fuel + 1, b => do
    let l := b.length
    if l < 4 then .err .unexpectedEOF else do
    let t := dec16 (← slice b 0 2)
    let len := dec16 (← slice b 2 4)
    let (eid, offset, endd) ← (if isVendor t then
        if l < 6 then .err .unexpectedEOF
        else if len.toNat < 2 then .err .invalidLength
        else do
          let eid := dec16 (← slice b 4 6)
          pure (eid, 4 + 2, len.toNat - 2)
      else pure (0, 4, len.toNat) : Res (UInt16 × Nat × Nat))
    if l ≤ offset then pure ⟨t, len, eid, [], []⟩
    else if l < offset + endd then .err .unexpectedEOF
    else do
      let payload ← slice b offset (offset + endd)
      if g t then do
        let cs ← parseMultiF g fuel payload
        pure ⟨t, len, eid, payload, cs⟩
      else pure ⟨t, len, eid, payload, []⟩
/-- `ParseMultiIEs`, /repo/ie/ie.go:496-511, one loop iteration per unfolding. -/
def parseMultiF (g : IEType → Bool) : Nat → Bytes → Res (List IE)
  | 0, _ => .panic
  | fuel + 1, b =>
    if b.length = 0 then .ok []
    else do
      let i ← unmarshalF g fuel b
      let rest ← slice b (i.marshalLen g) b.length
      let is ← parseMultiF g fuel rest
      pure (i :: is)
end

/-- `Parse`, /repo/ie/ie.go:480-486. The fuel is enough: see `parse_unfold`, `parse_safe`. -/
def parse (g : IEType → Bool) (b : Bytes) : Res IE := unmarshalF g (2 * b.length + 1) b

/-- `ParseMultiIEs`, /repo/ie/ie.go:496-511. -/
def parseMulti (g : IEType → Bool) (b : Bytes) : Res (List IE) :=
  parseMultiF g (2 * b.length + 2) b

/-- `IE.SetLength`, /repo/ie/ie.go:615-623. -/
def IE.setLength (i : IE) : IE :=
  { i with length := UInt16.ofNat ((if isVendor i.typ then 2 else 0) + i.payload.length) }

/-- `New`, /repo/ie/ie.go:308-316. -/
def IE.new (t : IEType) (data : Bytes) : IE := (IE.mk t 0 0 data []).setLength

/-- `NewVendorSpecificIE`, /repo/ie/ie.go:319-328. -/
def IE.newVendor (t : IEType) (eid : UInt16) (data : Bytes) : IE := (IE.mk t 0 eid data []).setLength

/-- The loop of `newGroupedIE`, /repo/ie/ie.go:667-680: `none` is a nil argument, skipped. A child
that fails to marshal makes the whole call return nil (`ok none`). -/
def newGroupedLoop (g : IEType → Bool) : List (Option IE) → IE → Res (Option IE)
  | [], i => .ok (some i)
  | none :: cs, i => newGroupedLoop g cs i
  | some c :: cs, i =>
    match c.marshal g with
    | .ok ser => newGroupedLoop g cs { i with children := i.children ++ [c], payload := i.payload ++ ser }
    | .err _ => .ok none
    | .panic => .panic

/-- `newGroupedIE`, /repo/ie/ie.go:664-685; result `ok none` is a nil pointer. -/
def newGrouped (g : IEType → Bool) (t : IEType) (eid : UInt16) (cs : List (Option IE)) :
    Res (Option IE) := do
  match ← newGroupedLoop g cs (IE.newVendor t eid []) with
  | some i => pure (some i.setLength)
  | none => pure none

/-- `NewGroupedIE`, /repo/ie/ie.go:331-333. -/
def newGroupedIE (g : IEType → Bool) (t : IEType) (cs : List (Option IE)) : Res (Option IE) :=
  newGrouped g t 0 cs

/-- `NewVendorSpecificGroupedIE`, /repo/ie/ie.go:336-338. -/
def newVendorGroupedIE (g : IEType → Bool) (t : IEType) (eid : UInt16) (cs : List (Option IE)) :
    Res (Option IE) := newGrouped g t eid cs

/-- `IE.ValueAsGrouped`, /repo/ie/ie.go:447-456. -/
def IE.valueAsGrouped (g : IEType → Bool) (i : IE) : Res (List IE) :=
  if !(g i.typ || isVendor i.typ) then .err (.invalidTypeError i.typ)
  else if i.children.length < 1 then parseMulti g i.payload
  else .ok i.children

/-! ### Grouped element editing, /repo/ie/ie_grouped.go -/

/-- Re-serialisation loop of `Add`, /repo/ie/ie_grouped.go:144-150: elements that fail to marshal
are skipped. -/
def serializeLoop (g : IEType → Bool) : List IE → Bytes → Res Bytes
  | [], acc => .ok acc
  | c :: cs, acc =>
    match c.marshal g with
    | .ok ser => serializeLoop g cs (acc ++ ser)
    | .err _ => serializeLoop g cs acc
    | .panic => .panic

/-- `ie.Marshal()` on possibly nil pointers: dereferencing nil panics. -/
def derefAll : List (Option IE) → Res (List IE)
  | [] => .ok []
  | none :: _ => .panic
  | some c :: cs => do
    let r ← derefAll cs
    pure (c :: r)

/-- `IE.Add`, /repo/ie/ie_grouped.go:137-152. A nil argument is dereferenced by `ie.Marshal()` and
panics. -/
def IE.add (g : IEType → Bool) (i : IE) (ies : List (Option IE)) : Res IE :=
  if !g i.typ then .ok i
  else do
    let new ← derefAll ies
    let children := i.children ++ new
    let payload ← serializeLoop g children []
    pure ({ i with payload := payload, children := children } : IE).setLength

/-- The loop of `Remove`, /repo/ie/ie_grouped.go:162-178. `kept` is `newChildren[:idx]`; the slice
`newChildren` has length `len(ChildIEs)` minus the number of removed entries so far, so after the
loop it is exactly `kept`. -/
def removeLoop (g : IEType → Bool) (typ : IEType) : List IE → List IE → Bytes → Res (List IE × Bytes)
  | [], kept, acc => .ok (kept, acc)
  | c :: cs, kept, acc =>
    if c.typ = typ then removeLoop g typ cs kept acc
    else
      match c.marshal g with
      | .ok ser => removeLoop g typ cs (kept ++ [c]) (acc ++ ser)
      | .err _ => removeLoop g typ cs (kept ++ [c]) acc
      | .panic => .panic

/-- `IE.Remove`, /repo/ie/ie_grouped.go:155-179. -/
def IE.remove (g : IEType → Bool) (i : IE) (typ : IEType) : Res IE :=
  if !g i.typ then .ok i
  else do
    let (kept, payload) ← removeLoop g typ i.children [] []
    pure ({ i with payload := payload, children := kept } : IE).setLength

/-- The loop of `FindByType`, /repo/ie/ie_grouped.go:190-195. -/
def findLoop (typ : IEType) : List IE → Res IE
  | [] => .err .ieNotFound
  | c :: cs => if c.typ = typ then .ok c else findLoop typ cs

/-- `IE.FindByType`, /repo/ie/ie_grouped.go:185-196. -/
def IE.findByType (g : IEType → Bool) (i : IE) (typ : IEType) : Res IE :=
  if !g i.typ then .err .errInvalidType else findLoop typ i.children

/-! ### Reading integers, /repo/ie/ie.go:371-416 -/

/-- `IE.ValueAsUint8`, /repo/ie/ie.go:371-380. -/
def IE.valueAsUint8 (g : IEType → Bool) (i : IE) : Res UInt8 :=
  if g i.typ then .err (.invalidTypeError i.typ)
  else if i.payload.length < 1 then .err .unexpectedEOF
  else index i.payload 0

/-- `IE.ValueAsUint16`, /repo/ie/ie.go:383-392. -/
def IE.valueAsUint16 (g : IEType → Bool) (i : IE) : Res UInt16 :=
  if g i.typ then .err (.invalidTypeError i.typ)
  else if i.payload.length < 2 then .err .unexpectedEOF
  else do return dec16 (← slice i.payload 0 2)

/-- `IE.ValueAsUint32`, /repo/ie/ie.go:395-404. -/
def IE.valueAsUint32 (g : IEType → Bool) (i : IE) : Res UInt32 :=
  if g i.typ then .err (.invalidTypeError i.typ)
  else if i.payload.length < 4 then .err .unexpectedEOF
  else do return dec32 (← slice i.payload 0 4)

/-- `IE.ValueAsUint64`, /repo/ie/ie.go:407-416. -/
def IE.valueAsUint64 (g : IEType → Bool) (i : IE) : Res UInt64 :=
  if g i.typ then .err (.invalidTypeError i.typ)
  else if i.payload.length < 8 then .err .unexpectedEOF
  else do return dec64 (← slice i.payload 0 8)

/-- `IE.ValueAsString`, /repo/ie/ie.go:419-425 (a Go string is its bytes). -/
def IE.valueAsString (g : IEType → Bool) (i : IE) : Res Bytes :=
  if g i.typ then .err (.invalidTypeError i.typ) else .ok i.payload

/-- `newUint8ValIE` / `NewUint8IE`, /repo/ie/ie.go:634-636, 341-343. -/
def IE.newUint8 (t : IEType) (v : UInt8) : IE := IE.new t [v]
/-- `newUint16ValIE` / `NewUint16IE`, /repo/ie/ie.go:638-642, 346-348. -/
def IE.newUint16 (t : IEType) (v : UInt16) : IE := IE.new t (be16 v)
/-- `newUint32ValIE` / `NewUint32IE`, /repo/ie/ie.go:644-648, 351-353. -/
def IE.newUint32 (t : IEType) (v : UInt32) : IE := IE.new t (be32 v)
/-- `newUint64ValIE` / `NewUint64IE`, /repo/ie/ie.go:650-654, 356-358. -/
def IE.newUint64 (t : IEType) (v : UInt64) : IE := IE.new t (be64 v)
/-- `newStringIE` / `NewStringIE`, /repo/ie/ie.go:656-658, 361-363. -/
def IE.newString (t : IEType) (v : Bytes) : IE := IE.new t v

end Pfcp
