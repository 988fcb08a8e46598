/-
Several goroutines encoding at the same time: `Marshal` of a message as a sequence of accesses to the memory it shares
with other calls on the same message, interleaved one access at a time. Line numbers are those of
/repo/message/heartbeat-request.go unless another file is named; all 24 message types have the same `Marshal` and
`MarshalTo` up to the fields they go through.

Shared and written by an encoding are only the fields `Payload` and `Length` of the message's `*Header` and the array
`Payload` points to. Elements are read, never written (`IE.MarshalTo`, /repo/ie/ie.go:572-595, writes its argument),
so the elements of the message are a constant list here, in wire order and without the nil pointers that are skipped;
the other header fields are constants too.

Simplified: reading or writing a slice variable is one step, and so is writing one element into the array. Both could be
split further, which gives more interleavings; all interleavings used below to show that something goes wrong are
interleavings of the real program.
-/
import Verif.Message.Buffer

namespace Pfcp
namespace Race

/-- What concurrent encodings of one message share. `payload` is the array of `Header.Payload`, none for nil; arrays are
numbered, those from `next` on are not allocated yet. -/
structure Shared where
  payload : Option Nat
  arr : Nat → Bytes
  next : Nat
  length : UInt16

/-- `m.Header.Payload` as a value. -/
def Shared.content (s : Shared) : Bytes := match s.payload with
  | none => []
  | some a => s.arr a

/-- A shared variable. -/
inductive Var where
  | payload
  | array (a : Nat)
  | length
  deriving DecidableEq

/-- A goroutine inside `Marshal`: finished, or about to access a variable; then the effect on the shared memory and what
it does next, both depending on the memory found. -/
inductive Act where
  | done (r : Res Bytes)
  | step (v : Var) (write : Bool) (eff : Shared → Shared) (next : Shared → Act)

/-- Reading `len(h.Payload)`. -/
def rdLen (k : Nat → Act) : Act := .step .payload false id fun s => k s.content.length

variable (g : IEType → Bool) (h : Header) (es : List IE)

/-- Sum of the `MarshalLen()` of the elements, :124-136. -/
def elemsLen : Nat := (es.map (IE.marshalLen g)).sum

/-- The size of the header without payload. -/
def fixed : Nat := if h.hasSEID then 16 else 8

/-- `Header.MarshalTo(b)`, /repo/message/header.go:75-91: reads `Length` (:78), the length of `Payload` in
`h.MarshalLen()` and `Payload` (:88), which is copied from its array. -/
def headerTo (b : Slice) : Act :=
  .step .length false id fun s1 =>
  rdLen fun n =>
  .step .payload false id fun s2 =>
    let finish (p : Bytes) : Act := .done (do
      let b ← { h with length := s1.length, payload := [] }.marshalTo b
      let b ← b.copyAt (fixed h) (fixed h + n) p
      pure b.data)
    match s2.payload with
    | none => finish []
    | some a => .step (.array a) false id fun s3 => finish (s3.arr a)

/-- `Header.SetLength()`, /repo/message/header.go:151-156: reads the length of `Payload`, writes `Length`; with a session,
reads and writes `Length` once more. -/
def setLength (b : Slice) : Act :=
  rdLen fun n =>
  .step .length true (fun s => { s with length := UInt16.ofNat (4 + n) }) fun _ =>
  if h.hasSEID then
    .step .length false id fun s1 =>
    .step .length true (fun s => { s with length := s1.length + 8 }) fun _ => headerTo h b
  else headerTo h b

/-- The elements one after the other, :55-77: `Payload` is read, sliced and written to. -/
def fill (b : Slice) : List IE → Nat → Act
  | [], _ => setLength h b
  | e :: es, off =>
    .step .payload false id fun s1 =>
    match s1.payload with
    | none =>
      match Msg.putIE g e ⟨[], []⟩ off with
      | .ok r => fill b es r.2
      | .err x => .done (.err x)
      | .panic => .done .panic
    | some a =>
      .step (.array a) true
        (fun s => match Msg.putIE g e ⟨s.arr a, []⟩ off with
          | .ok r => { s with arr := fun x => if x = a then r.1.data else s.arr x }
          | _ => s)
        (fun s => match Msg.putIE g e ⟨s.arr a, []⟩ off with
          | .ok r => fill b es r.2
          | .err x => .done (.err x)
          | .panic => .done .panic)

/-- `m.Header.Payload = make(...)`, :52; the array is new. -/
def store (b : Slice) (n : Nat) : Act :=
  .step .payload true
    (fun s => { s with
      payload := some s.next
      arr := fun x => if x = s.next then List.replicate n 0 else s.arr x
      next := s.next + 1 })
    (fun _ => fill g h b es 0)

/-- `m.MarshalLen() - m.Header.MarshalLen()`, :52: the length of `Payload` is read in `Header.MarshalLen` (:122), once more
(:122), and in `Header.MarshalLen` again. `make` panics if the difference is negative. -/
def size (b : Slice) : Act :=
  rdLen fun l1 => rdLen fun l2 => rdLen fun l3 =>
    if fixed h + l1 + elemsLen g es < l2 + (fixed h + l3) then .done .panic
    else store g h es b (fixed h + l1 + elemsLen g es - (l2 + (fixed h + l3)))

/-- `MarshalTo(b)`, :48-81, from the beginning: `Payload` is set to nil unless it is nil, :49-51. -/
def marshalTo (b : Slice) : Act :=
  .step .payload false id fun s =>
    if s.payload.isSome then .step .payload true (fun s => { s with payload := none }) fun _ => size g h es b
    else size g h es b

/-- `Marshal()`, :37-45: `MarshalLen` reads the length of `Payload` twice (:122). -/
def marshal : Act :=
  rdLen fun l1 => rdLen fun l2 =>
    if fixed h + l1 + elemsLen g es < l2 then .done .panic
    else marshalTo g h es (Slice.make (fixed h + l1 + elemsLen g es - l2))

/-! ### Goroutines -/

/-- Goroutines encoding the same message. -/
structure State where
  threads : List Act
  sh : Shared

/-- Goroutine `i` makes its next access, if it is not finished. -/
def State.move (s : State) (i : Nat) : State :=
  match s.threads[i]? with
  | some (.step _ _ eff k) => ⟨s.threads.set i (k s.sh), eff s.sh⟩
  | _ => s

/-- A schedule: which goroutine moves. -/
def State.exec (s : State) (sched : List Nat) : State := sched.foldl State.move s

/-- The access a goroutine is about to make. -/
def Act.access : Act → Option (Var × Bool)
  | .done _ => none
  | .step v w _ _ => some (v, w)

/-- Two goroutines are about to access the same variable, one of them writing. -/
def State.Races (s : State) : Prop :=
  ∃ (i j : Nat) (a b : Act) (v : Var) (w w' : Bool), i < j ∧ s.threads[i]? = some a ∧ s.threads[j]? = some b ∧
    a.access = some (v, w) ∧ b.access = some (v, w') ∧ (w || w') = true

/-- Goroutines encoding each its own message (the messages may have elements in common). -/
def moveOwn (s : List (Act × Shared)) (i : Nat) : List (Act × Shared) :=
  match s[i]? with
  | some (.step _ _ eff k, sh) => s.set i (k sh, eff sh)
  | _ => s

def execOwn (s : List (Act × Shared)) (sched : List Nat) : List (Act × Shared) := sched.foldl moveOwn s

/-! ### A goroutine running alone -/

/-- `n` steps of one goroutine. -/
def adv : Nat → Act → Shared → Act × Shared
  | 0, a, s => (a, s)
  | _ + 1, .done r, s => (.done r, s)
  | n + 1, .step _ _ eff k, s => adv n (k s) (eff s)

theorem adv_add (m n : Nat) (a : Act) (s : Shared) : adv (m + n) a s = adv n (adv m a s).1 (adv m a s).2 := by
  induction m generalizing a s with
  | zero => rw [Nat.zero_add]; rfl
  | succ m ih =>
    cases a with
    | done r =>
      rw [show m + 1 + n = (m + n) + 1 by omega]
      cases n with
      | zero => rfl
      | succ n => rfl
    | step v w e k =>
      rw [show m + 1 + n = (m + n) + 1 by omega]
      exact ih _ _

/-- From here, alone, the goroutine gets there. -/
def Gets (a : Act) (s : Shared) (a' : Act) (s' : Shared) : Prop := ∃ n, adv n a s = (a', s')

theorem Gets.refl (a : Act) (s : Shared) : Gets a s a s := ⟨0, rfl⟩

theorem Gets.trans {a b c : Act} {s t u : Shared} (h1 : Gets a s b t) (h2 : Gets b t c u) : Gets a s c u := by
  obtain ⟨m, h1⟩ := h1
  obtain ⟨n, h2⟩ := h2
  exact ⟨m + n, by rw [adv_add, h1]; exact h2⟩

theorem Gets.step {v : Var} {w : Bool} {eff : Shared → Shared} {k : Shared → Act} {s : Shared} {c : Act} {u : Shared}
    (h : Gets (k s) (eff s) c u) : Gets (.step v w eff k) s c u := by
  obtain ⟨n, h⟩ := h
  exact ⟨n + 1, h⟩

theorem Gets.rdLen {k : Nat → Act} {s : Shared} {c : Act} {u : Shared} (h : Gets (k s.content.length) s c u) :
    Gets (rdLen k) s c u := Gets.step h

/-- Running alone within a program. -/
theorem exec_adv (i : Nat) (n : Nat) (ts : List Act) (s : Shared) (a : Act) (h : ts[i]? = some a) :
    State.exec ⟨ts, s⟩ (List.replicate n i) = ⟨ts.set i (adv n a s).1, (adv n a s).2⟩ := by
  have hi : i < ts.length := (List.getElem?_eq_some_iff.1 h).1
  induction n generalizing ts s a with
  | zero =>
    obtain ⟨hi, e⟩ := List.getElem?_eq_some_iff.1 h
    subst e
    show State.mk ts s = _
    simp [adv]
  | succ n ih =>
    rw [List.replicate_succ]
    show State.exec (State.move ⟨ts, s⟩ i) (List.replicate n i) = _
    unfold State.move
    simp only [h]
    cases a with
    | done r =>
      simp only
      rw [ih ts s (.done r) h hi]
      cases n <;> rfl
    | step v w e k =>
      simp only
      rw [ih _ _ (k s) (by simp [hi]) (by simpa using hi)]
      simp [adv]

theorem exec_append (s : State) (p q : List Nat) : s.exec (p ++ q) = (s.exec p).exec q := by
  unfold State.exec; rw [List.foldl_append]

/-- The first, then the second of two goroutines. -/
theorem exec_first {a b a' : Act} {s s' : Shared} (h : Gets a s a' s') :
    ∃ p, State.exec ⟨[a, b], s⟩ p = ⟨[a', b], s'⟩ := by
  obtain ⟨n, h⟩ := h
  exact ⟨List.replicate n 0, by rw [exec_adv 0 n _ s a rfl, h]; rfl⟩

theorem exec_second {a b b' : Act} {s s' : Shared} (h : Gets b s b' s') :
    ∃ p, State.exec ⟨[a, b], s⟩ p = ⟨[a, b'], s'⟩ := by
  obtain ⟨n, h⟩ := h
  exact ⟨List.replicate n 1, by rw [exec_adv 1 n _ s b rfl, h]; rfl⟩

/-! ### The stages of an encoding -/

theorem fixed_eq : fixed h = Header.fixedLen h.flags := rfl

theorem elemsLen_eq : elemsLen g es = (encList g es).length := by
  unfold elemsLen
  induction es with
  | nil => rfl
  | cons e es ih => simp [encList, Pfcp.marshalLen_eq, ih]

/-- The header as sent with a given length field and body. -/
def sent (len : UInt16) (body : Bytes) : Bytes := { h with length := len, payload := body }.enc

theorem sent_length (len : UInt16) (body : Bytes) : (sent h len body).length = fixed h + body.length := by
  unfold sent; rw [Header.enc_length]; rfl

/-- The last stage: what is sent is what `Length` and `Payload` hold now. -/
theorem headerTo_gets (s : Shared) (b : Slice) (hb : b.data.length = fixed h + s.content.length) :
    Gets (headerTo h b) s (.done (.ok (sent h s.length s.content))) s := by
  unfold headerTo
  refine Gets.step (Gets.rdLen (Gets.step ?_))
  simp only [id]
  have key : (do
      let b ← { h with length := s.length, payload := [] }.marshalTo b
      let b ← b.copyAt (fixed h) (fixed h + s.content.length) s.content
      pure b.data : Res Bytes) = .ok (sent h s.length s.content) := by
    have hl : Header.enc { h with length := s.length, payload := [] } = { h with length := s.length }.fixedPart := by
      simp [Header.enc, Header.fixedPart]
    have hf : (Header.fixedPart { h with length := s.length }).length = fixed h := Header.fixedPart_length _
    rw [Header.marshalTo_eq _ b (by rw [hl, hf]; omega), Res.ok_bind, hl, hf]
    rw [Slice.copyAt_next _ _ _ _ _ _ hf rfl (by simp; omega), Res.ok_bind, Res.pure_eq]
    congr 1
    have : List.drop s.content.length (List.drop (fixed h) b.data) = [] := by
      rw [List.drop_drop]; exact List.drop_of_length_le (by omega)
    simp only [this, List.append_nil]
    rfl
  cases hp : s.payload with
  | none =>
    simp only
    have hc : s.content = [] := by simp [Shared.content, hp]
    rw [hc] at key ⊢
    rw [key]
    exact Gets.refl _ _
  | some a =>
    simp only
    refine Gets.step ?_
    have hc : s.arr a = s.content := by simp [Shared.content, hp]
    simp only [id]
    rw [hc, key]
    exact Gets.refl _ _

/-- The length field that goes with a body of `n` octets. -/
def lengthFor (n : Nat) : UInt16 := UInt16.ofNat (fixed h + n - 4)

theorem setLength_gets (s : Shared) (b : Slice) :
    Gets (setLength h b) s (headerTo h b) { s with length := lengthFor h s.content.length } := by
  unfold setLength
  refine Gets.rdLen (Gets.step ?_)
  by_cases hs : h.hasSEID = true
  · simp only [hs, if_true]
    refine Gets.step (Gets.step ?_)
    simp only [id]
    have : UInt16.ofNat (4 + s.content.length) + 8 = lengthFor h s.content.length := by
      unfold lengthFor fixed
      rw [hs, if_pos rfl, show 16 + s.content.length - 4 = (4 + s.content.length) + 8 by omega,
        UInt16.ofNat_add (4 + s.content.length) 8]
      rfl
    rw [this]
    exact Gets.refl _ _
  · simp only [hs]
    have hs' : h.hasSEID = false := by simpa using hs
    have : UInt16.ofNat (4 + s.content.length) = lengthFor h s.content.length := by
      unfold lengthFor fixed
      rw [hs', if_neg (by simp)]
      congr 1
      omega
    rw [this]
    exact Gets.refl _ _

/-- From `SetLength` on. -/
theorem finish_gets (s : Shared) (b : Slice) (hb : b.data.length = fixed h + s.content.length) :
    Gets (setLength h b) s (.done (.ok (sent h (lengthFor h s.content.length) s.content)))
      { s with length := lengthFor h s.content.length } :=
  (setLength_gets h s b).trans (headerTo_gets h _ b hb)

/-- Shared memory with the array `a` replaced. -/
def Shared.with (s : Shared) (a : Nat) (bs : Bytes) : Shared :=
  { s with arr := fun x => if x = a then bs else s.arr x }

theorem Shared.with_with (s : Shared) (a : Nat) (x y : Bytes) : (s.with a x).with a y = s.with a y := by
  unfold Shared.with
  simp only [Shared.mk.injEq, true_and, and_true]
  funext z
  split <;> rfl

theorem Shared.content_with (s : Shared) (a : Nat) (bs : Bytes) (h : s.payload = some a) :
    (s.with a bs).content = bs := by
  simp [Shared.content, Shared.with, h]

/-- Writing elements behind others. -/
theorem fill_gets (b : Slice) (a : Nat) (es : List IE) (A Z : Bytes) (s : Shared) (hp : s.payload = some a)
    (hZ : (encList g es).length ≤ Z.length) :
    ∀ rest, Gets (fill g h b (es ++ rest) A.length) (s.with a (A ++ Z)) (fill g h b rest (A ++ encList g es).length)
      (s.with a (A ++ encList g es ++ Z.drop (encList g es).length)) := by
  intro rest
  induction es generalizing A Z s with
  | nil =>
    simp only [encList, List.append_nil, List.nil_append, List.length_nil, List.drop_zero]
    exact Gets.refl _ _
  | cons e es ih =>
    rw [List.cons_append]
    simp only [fill]
    refine Gets.step ?_
    have hp' : (s.with a (A ++ Z)).payload = some a := hp
    rw [hp']
    simp only [id]
    simp only [encList, List.length_append] at hZ
    have hput := Msg.putIE_eq g e A Z [] (by omega)
    have harr : (s.with a (A ++ Z)).arr a = A ++ Z := by simp [Shared.with]
    refine Gets.step ?_
    rw [harr, hput]
    simp only
    change Gets _ ((s.with a (A ++ Z)).with a ((A ++ e.enc g) ++ Z.drop (e.enc g).length)) _ _
    rw [Shared.with_with]
    have := ih (A ++ e.enc g) (Z.drop (e.enc g).length) s hp (by rw [List.length_drop]; omega)
    simpa [encList, List.append_assoc, Nat.add_assoc, List.drop_drop] using this

/-- Up to the new array. -/
theorem size_gets (s : Shared) (b : Slice) (hp : s.payload = none) :
    Gets (size g h es b) s (store g h es b (encList g es).length) s := by
  have hc : s.content.length = 0 := by simp [Shared.content, hp]
  unfold size
  refine Gets.rdLen (Gets.rdLen (Gets.rdLen ?_))
  rw [hc, elemsLen_eq, if_neg (by omega), show fixed h + 0 + (encList g es).length - (0 + (fixed h + 0))
    = (encList g es).length by omega]
  exact Gets.refl _ _

/-- `MarshalTo` up to the moment when there is no payload. -/
theorem marshalTo_gets (s : Shared) (b : Slice) :
    Gets (marshalTo g h es b) s (size g h es b) { s with payload := none } := by
  unfold marshalTo
  refine Gets.step ?_
  cases hp : s.payload with
  | none =>
    have : ({ s with payload := none } : Shared) = s := by cases s; cases hp; rfl
    rw [this]
    exact Gets.refl _ _
  | some a =>
    simp only [Option.isSome_some, if_true, id]
    exact Gets.step (Gets.refl _ _)

/-- The buffer that `Marshal` makes. -/
def buffer : Slice := Slice.make (fixed h + (encList g es).length)

theorem buffer_length : (buffer g h es).data.length = fixed h + (encList g es).length := by
  simp [buffer, Slice.make]

theorem marshal_gets (s : Shared) :
    Gets (marshal g h es) s (marshalTo g h es (buffer g h es)) s := by
  unfold marshal
  refine Gets.rdLen (Gets.rdLen ?_)
  rw [elemsLen_eq, if_neg (by omega), show fixed h + s.content.length + (encList g es).length - s.content.length
    = fixed h + (encList g es).length by omega]
  exact Gets.refl _ _

/-- Shared memory right after the new array has been put in place. -/
def Shared.fresh (s : Shared) (n : Nat) : Shared :=
  { s with
    payload := some s.next
    arr := fun x => if x = s.next then List.replicate n 0 else s.arr x
    next := s.next + 1 }

theorem store_gets (s : Shared) (b : Slice) (n : Nat) :
    Gets (store g h es b n) s (fill g h b es 0) (s.fresh n) := Gets.step (Gets.refl _ _)

theorem Shared.fresh_with (s : Shared) (n : Nat) : (s.fresh n).with s.next (List.replicate n 0) = s.fresh n := by
  unfold Shared.fresh Shared.with
  simp only [Shared.mk.injEq, true_and, and_true]
  funext x
  split <;> rfl

theorem Shared.fresh_content (s : Shared) (n : Nat) : (s.fresh n).content = List.replicate n 0 := by
  simp [Shared.fresh, Shared.content]

/-- From the beginning to the empty array of the right size. -/
theorem begin_gets (s : Shared) :
    Gets (marshal g h es) s (fill g h (buffer g h es) es 0)
      (({ s with payload := none } : Shared).fresh (encList g es).length) :=
  (marshal_gets g h es s).trans ((marshalTo_gets g h es s _).trans
    ((size_gets g h es _ _ rfl).trans (store_gets g h es _ _ _)))

/-- All elements at once. -/
theorem fillAll_gets (s : Shared) (a : Nat) (b : Slice) (hp : s.payload = some a)
    (hz : (s.arr a).length = (encList g es).length) :
    Gets (fill g h b es 0) s (setLength h b) (s.with a (encList g es)) := by
  have := fill_gets g h b a es [] (s.arr a) s hp (by omega) []
  rw [List.drop_of_length_le (by omega : (s.arr a).length ≤ (encList g es).length)] at this
  have e : s.with a ([] ++ s.arr a) = s := by
    unfold Shared.with
    cases s with
    | mk p arr n l =>
      simp only [List.nil_append, Shared.mk.injEq, true_and, and_true]
      funext x
      split
      · rename_i h; rw [h]
      · rfl
  rw [e] at this
  simpa [fill] using this

/-- What the message looks like on the wire. -/
def wire : Bytes := sent h (lengthFor h (encList g es).length) (encList g es)

/-- From the empty array to the end. -/
theorem end_gets (s : Shared) (a : Nat) (hp : s.payload = some a) (hz : (s.arr a).length = (encList g es).length) :
    ∃ s', Gets (fill g h (buffer g h es) es 0) s (.done (.ok (wire g h es))) s' := by
  have h1 := fillAll_gets g h es s a (buffer g h es) hp hz
  have hc := Shared.content_with s a (encList g es) hp
  have h2 := finish_gets h (s.with a (encList g es)) (buffer g h es) (by rw [hc]; exact buffer_length g h es)
  rw [hc] at h2
  exact ⟨_, h1.trans h2⟩

theorem wire_eq (m : Msg) : wire g m.header m.elements = m.wire g := by
  unfold wire sent Msg.wire Msg.wireHeader Msg.body lengthFor
  rfl

end Race
end Pfcp
