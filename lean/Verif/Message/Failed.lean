/-
`UnmarshalBinary` of elements, headers and messages, assignment by assignment: what the call returns and what the
receiver holds when it returns, also when it returns an error.
-/
import Verif.IE.Reuse
import Verif.Message.Reuse

namespace Pfcp

/-- Code that assigns to a receiver of type `σ`: the outcome, and the receiver at that moment. -/
def St (σ α : Type) : Type := σ → Res α × σ

namespace St

variable {σ α β : Type}

/-- Sequence: an error or a panic ends the call, and the assignments made so far stay. -/
def bind (p : St σ α) (f : α → St σ β) : St σ β := fun s =>
  match p s with
  | (.ok a, s) => f a s
  | (.err e, s) => (.err e, s)
  | (.panic, s) => (.panic, s)

instance : Monad (St σ) where
  pure a := fun s => (.ok a, s)
  bind := bind

/-- A computation that does not touch the receiver. -/
def lift (r : Res α) : St σ α := fun s => (r, s)
/-- `return e`. -/
def fail (e : GoErr) : St σ α := fun s => (.err e, s)
/-- Assignments. -/
def assign (f : σ → σ) : St σ Unit := fun s => (.ok (), f s)
/-- Reading the receiver. -/
def read : St σ σ := fun s => (.ok s, s)

@[simp] theorem bind_lift_ok (a : α) (f : α → St σ β) (s : σ) : (lift (.ok a) >>= f) s = f a s := rfl
@[simp] theorem bind_lift_err (e : GoErr) (f : α → St σ β) (s : σ) : (lift (.err e) >>= f) s = (.err e, s) := rfl
@[simp] theorem bind_lift_panic (f : α → St σ β) (s : σ) : (lift (.panic : Res α) >>= f) s = (.panic, s) := rfl
@[simp] theorem bind_fail (e : GoErr) (f : α → St σ β) (s : σ) : ((fail e : St σ α) >>= f) s = (.err e, s) := rfl
@[simp] theorem bind_assign (h : σ → σ) (f : Unit → St σ β) (s : σ) : (assign h >>= f) s = f () (h s) := rfl
@[simp] theorem bind_read (f : σ → St σ β) (s : σ) : (read >>= f) s = f s s := rfl
@[simp] theorem bind_pure (a : α) (f : α → St σ β) (s : σ) : ((pure a : St σ α) >>= f) s = f a s := rfl
@[simp] theorem pure_apply (a : α) (s : σ) : (pure a : St σ α) s = (.ok a, s) := rfl
@[simp] theorem fail_apply (e : GoErr) (s : σ) : (fail e : St σ α) s = (.err e, s) := rfl
@[simp] theorem assign_apply (h : σ → σ) (s : σ) : assign h s = (.ok (), h s) := rfl

end St

/-- `IE.UnmarshalBinary`, /repo/ie/ie.go:514-556. `i.ChildIEs, err = ParseMultiIEs(i.Payload)` (549) assigns nil when there
is an error. -/
def IE.unmarshalSt (g : IEType → Bool) (b : Bytes) : St IE Unit := do
  let l := b.length
  if l < 4 then St.fail .unexpectedEOF else do
  let x ← St.lift (slice b 0 2)
  St.assign fun i => { i with typ := dec16 x }
  let y ← St.lift (slice b 2 4)
  St.assign fun i => { i with length := dec16 y }
  let i ← St.read
  let r ← (if isVendor i.typ then
      if l < 6 then St.fail .unexpectedEOF
      else if i.length.toNat < 2 then St.fail .invalidLength
      else do
        let z ← St.lift (slice b 4 6)
        St.assign fun i => { i with eid := dec16 z }
        pure (4 + 2, i.length.toNat - 2)
    else pure (4, i.length.toNat) : St IE (Nat × Nat))
  if l ≤ r.1 then pure ()
  else if l < r.1 + r.2 then St.fail .unexpectedEOF
  else do
    let p ← St.lift (slice b r.1 (r.1 + r.2))
    St.assign fun i => { i with payload := p }
    if g i.typ then
      match parseMulti g p with
      | .ok cs => St.assign fun i => { i with children := cs }
      | .err e => do
        St.assign fun i => { i with children := [] }
        St.fail e
      | .panic => St.lift .panic
    else pure ()

/-- `Header.UnmarshalBinary`, /repo/message/header.go:103-138. -/
def Header.unmarshalSt (b : Bytes) : St Header Unit := do
  let l := b.length
  if l < 8 then St.fail .unexpectedEOF else do
  let f ← St.lift (index b 0)
  St.assign fun h => { h with flags := f }
  let t ← St.lift (index b 1)
  St.assign fun h => { h with typ := t }
  let n ← St.lift (slice b 2 4)
  St.assign fun h => { h with length := dec16 n }
  let h ← St.read
  let offset ← (if h.hasSEID then
      if l < 4 + 8 then St.fail .unexpectedEOF
      else do
        let s ← St.lift (slice b 4 (4 + 8))
        St.assign fun h => { h with seid := dec64 s }
        pure (4 + 8)
    else pure 4 : St Header Nat)
  if l < offset + 4 then St.fail .unexpectedEOF else do
  let q ← St.lift (slice b offset (offset + 3))
  St.assign fun h => { h with seq := uint24To32 q }
  let p ← St.lift (index b (offset + 3))
  St.assign fun h => { h with pri := p }
  if h.length.toNat + (offset + 4) ≠ l then do
    let x ← St.lift (slice b (offset + 4) l)
    St.assign fun h => { h with payload := x }
  else if l < offset + 4 + h.length.toNat then St.fail .unexpectedEOF
  else do
    let x ← St.lift (slice b (offset + 4) (offset + 4 + h.length.toNat))
    St.assign fun h => { h with payload := x }

/-- A message whose `*Header` may be nil. -/
structure MsgP where
  kind : Kind
  header : Option Header
  fields : List (FieldName × Slot)
  ies : List (Option IE)
  deriving DecidableEq

/-- A message with a header. -/
def Msg.ptr (m : Msg) : MsgP := ⟨m.kind, some m.header, m.fields, m.ies⟩

namespace MsgP

/-- The message, if there is a header to read. Every method that reads a field of the header panics without one; see e.g.
/repo/message/header.go:61, :141, :164, :168, :182. -/
def deref (m : MsgP) : Res Msg :=
  match m.header with
  | some h => .ok ⟨m.kind, h, m.fields, m.ies⟩
  | none => .panic

/-- `MarshalLen`, e.g. /repo/message/heartbeat-request.go:122-123, reads the header first. -/
def marshalLen (g : IEType → Bool) (m : MsgP) : Res Nat := m.deref >>= fun m => m.marshalLen g
/-- `Marshal`, e.g. /repo/message/heartbeat-request.go:37-44, calls `MarshalLen` first. -/
def marshal (g : IEType → Bool) (m : MsgP) : Res Bytes := m.deref >>= fun m => m.marshal g
/-- `MarshalTo`, e.g. /repo/message/heartbeat-request.go:47-50, reads `m.Header.Payload` first. -/
def marshalTo (g : IEType → Bool) (m : MsgP) (b : Slice) : Res (MsgP × Slice) :=
  m.deref >>= fun m => m.marshalTo g b >>= fun r => .ok (r.1.ptr, r.2)
/-- `SEID`, /repo/message/header.go:168-173. -/
def seid (m : MsgP) : Res UInt64 := m.deref >>= fun m => .ok m.header.seidVal
/-- `Sequence`, /repo/message/header.go:182-184. -/
def sequence (m : MsgP) : Res UInt32 := m.deref >>= fun m => .ok m.header.seq
/-- `MessageType`, /repo/message/header.go:164-166. -/
def messageType (m : MsgP) : Res UInt8 := m.deref >>= fun m => .ok m.header.typ

/-- `UnmarshalBinary`, e.g. /repo/message/heartbeat-request.go:91-118 and generic.go:91-106. `m.Header, err = ParseHeader(b)`
assigns nil when there is an error, and so does `m.IEs, err = ie.ParseMultiIEs(..)` of Generic. The loop that files the
elements has no way to fail (see `C75_total`); its assignments are made at once here. -/
def unmarshalSt (g : IEType → Bool) (b : Bytes) : St MsgP Unit :=
  match Header.parse b with
  | .err e => do
    St.assign fun m => { m with header := none }
    St.fail e
  | .panic => St.lift .panic
  | .ok h => do
    St.assign fun m => { m with header := some h }
    if h.payload.length < 2 then pure ()
    else do
      let m ← St.read
      match m.kind, parseMulti g h.payload with
      | .generic, .ok xs => St.assign fun m => { m with ies := xs.map some }
      | .generic, .err e => do
        St.assign fun m => { m with ies := [] }
        St.fail e
      | k, .ok xs => do
        let m' ← St.lift (Msg.fileAll k.tab.parseSwitch ⟨m.kind, h, m.fields, m.ies⟩ xs)
        St.assign fun _ => m'.ptr
      | _, .err e => St.fail e
      | _, .panic => St.lift .panic

end MsgP

end Pfcp
