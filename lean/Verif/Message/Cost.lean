/-
The work done by the message codec, counted in calls: the functions of Verif/Message/Model.lean with the calls
of the element codec counted (Verif/IE/Cost.lean). ARR is /repo/message/association-release-request.go.
-/
import Verif.IE.Cost
import Verif.Message.FileLemmas

namespace Pfcp

/-- A computation that counts calls. The count is kept when it fails. -/
def Counted (α : Type) := Res α × Cost.Work

namespace Counted

protected def pure {α : Type} (a : α) : Counted α := (.ok a, 0)

protected def bind {α β : Type} (x : Counted α) (f : α → Counted β) : Counted β :=
  match x.1 with
  | .ok a => ((f a).1, x.2 + (f a).2)
  | .err e => (.err e, x.2)
  | .panic => (.panic, x.2)

instance : Monad Counted where
  pure := Counted.pure
  bind := Counted.bind

/-- A step that calls nothing that is counted. -/
def free {α : Type} (r : Res α) : Counted α := (r, 0)

/-- A call of the counted element codec. -/
def count {α : Type} (x : Res α × Cost.Work) : Counted α := x

@[simp] theorem count_fst {α : Type} (x : Res α × Cost.Work) : (count x).1 = x.1 := rfl
@[simp] theorem count_snd {α : Type} (x : Res α × Cost.Work) : (count x).2 = x.2 := rfl

/-- `i.MarshalLen()`, /repo/ie/ie.go:598-612. -/
def len (g : IEType → Bool) (i : IE) : Counted Nat := (.ok (i.marshalLen g), ⟨0, Cost.lenCalls g i⟩)

theorem fst_bind {α β : Type} (x : Counted α) (f : α → Counted β) :
    (x >>= f).1 = (x.1 >>= fun a => (f a).1) := by
  show (Counted.bind x f).1 = _
  unfold Counted.bind
  cases x.1 <;> rfl

theorem bind_ok {α β : Type} {x : Counted α} {f : α → Counted β} {b : β} (h : (x >>= f).1 = .ok b) :
    ∃ a, x.1 = .ok a ∧ (f a).1 = .ok b ∧ (x >>= f).2 = x.2 + (f a).2 := by
  have h' : (Counted.bind x f).1 = .ok b := h
  show ∃ a, x.1 = .ok a ∧ (f a).1 = .ok b ∧ (Counted.bind x f).2 = x.2 + (f a).2
  unfold Counted.bind at h' ⊢
  cases hx : x.1 with
  | err e => rw [hx] at h'; cases h'
  | panic => rw [hx] at h'; cases h'
  | ok a => rw [hx] at h'; exact ⟨a, rfl, h', rfl⟩

end Counted

namespace Msg

open Counted

variable (g : IEType → Bool)

/-! ### The counted codec -/

/-- As `lenMany`, /repo/message/association-setup-request.go:265-270. -/
def lenManyC (l : Nat) : List (Option IE) → Counted Nat
  | [] => pure l
  | none :: _ => free .panic
  | some i :: is => do
    let n ← len g i
    lenManyC (l + n) is

/-- As `lenSlot`, ARR:124-129. -/
def lenSlotC (l : Nat) : Slot → Counted Nat
  | .one none => pure l
  | .one (some i) => do
    let n ← len g i
    pure (l + n)
  | .many vs => lenManyC g l vs

/-- As `lenFields`. -/
def lenFieldsC (m : Msg) : List FieldName → Nat → Counted Nat
  | [], l => pure l
  | n :: ns, l => do
    let s ← free (m.get n)
    let l ← lenSlotC g l s
    lenFieldsC m ns l

/-- As `lenSkipNil`, ARR:131-136. -/
def lenSkipNilC (l : Nat) : List (Option IE) → Counted Nat
  | [] => pure l
  | none :: is => lenSkipNilC l is
  | some i :: is => do
    let n ← len g i
    lenSkipNilC (l + n) is

/-- `MarshalLen`, ARR:121-139. -/
def marshalLenC (m : Msg) : Counted Nat := do
  let l ← lenFieldsC g m m.kind.tab.lenOrder (m.header.marshalLen - m.header.payload.length)
  lenSkipNilC g l m.ies

/-- As `putIE`, ARR:55-58. -/
def putIEC (i : IE) (pl : Slice) (off : Nat) : Counted (Slice × Nat) :=
  if off ≤ pl.data.length then do
    let v ← count (Cost.marshalToW g i ⟨pl.data.drop off, pl.spare⟩)
    let n ← len g i
    pure (⟨pl.data.take off ++ v.data, v.spare⟩, off + n)
  else free .panic

/-- As `putMany`, /repo/message/association-setup-request.go:119-124. -/
def putManyC : List (Option IE) → Slice → Nat → Counted (Slice × Nat)
  | [], pl, off => pure (pl, off)
  | none :: _, _, _ => free .panic
  | some i :: is, pl, off => do
    let (pl, off) ← putIEC g i pl off
    putManyC is pl off

/-- As `putSlot`, ARR:54-59. -/
def putSlotC : Slot → Slice → Nat → Counted (Slice × Nat)
  | .one none, pl, off => pure (pl, off)
  | .one (some i), pl, off => putIEC g i pl off
  | .many vs, pl, off => putManyC g vs pl off

/-- As `putFields`. -/
def putFieldsC (m : Msg) : List FieldName → Slice → Nat → Counted (Slice × Nat)
  | [], pl, off => pure (pl, off)
  | n :: ns, pl, off => do
    let s ← free (m.get n)
    let (pl, off) ← putSlotC g s pl off
    putFieldsC m ns pl off

/-- As `putSkipNil`, ARR:67-75. -/
def putSkipNilC : List (Option IE) → Slice → Nat → Counted (Slice × Nat)
  | [], pl, off => pure (pl, off)
  | none :: is, pl, off => putSkipNilC is pl off
  | some i :: is, pl, off => do
    let (pl, off) ← putIEC g i pl off
    putSkipNilC is pl off

/-- `MarshalTo`, ARR:47-79. -/
def marshalToC (m : Msg) (b : Slice) : Counted (Msg × Slice) := do
  let m := { m with header := { m.header with payload := [] } }
  let n ← marshalLenC g m
  let pl := Slice.make (n - m.header.marshalLen)
  let (pl, off) ← putFieldsC g m m.kind.tab.marshalOrder pl 0
  let (pl, _) ← putSkipNilC g m.ies pl off
  let h := { m.header with payload := pl.data }.setLength
  let b ← free (h.marshalTo b)
  pure ({ m with header := h }, b)

/-- `Marshal`, ARR:37-44. -/
def marshalC (m : Msg) : Counted Bytes := do
  let n ← marshalLenC g m
  let (_, b) ← marshalToC g m (Slice.make n)
  pure b.data

/-- `UnmarshalBinary`, ARR:91-118; for Generic, /repo/message/generic.go:91-106. -/
def unmarshalC (m : Msg) (b : Bytes) : Counted Msg := do
  let h ← free (Header.parse b)
  let m := { m with header := h }
  if h.payload.length < 2 then pure m else do
  let ies ← count (Cost.decode g h.payload)
  match m.kind with
  | .generic => pure { m with ies := ies.map some }
  | k => free (fileAll k.tab.parseSwitch m ies)

/-- `message.Parse`, /repo/message/message.go:60-122. -/
def parseC (b : Bytes) : Counted Msg := do
  if b.length < 2 then free (.err .unexpectedEOF) else do
  let t ← free (index b 1)
  unmarshalC g (zero (kindOf t)) b

/-! ### Counting nothing gives the model -/

@[simp] theorem fst_pure {α : Type} (a : α) : (Pure.pure a : Counted α).1 = .ok a := rfl
@[simp] theorem fst_free {α : Type} (r : Res α) : (free r).1 = r := rfl
@[simp] theorem fst_len (i : IE) : (len g i).1 = .ok (i.marshalLen g) := rfl

theorem lenManyC_fst (vs : List (Option IE)) (l : Nat) : (lenManyC g l vs).1 = lenMany g l vs := by
  induction vs generalizing l with
  | nil => rfl
  | cons v vs ih =>
    cases v with
    | none => rfl
    | some i => rw [lenManyC, lenMany, fst_bind, fst_len, Res.ok_bind, ih]

theorem lenSlotC_fst (s : Slot) (l : Nat) : (lenSlotC g l s).1 = lenSlot g l s := by
  cases s with
  | one v => cases v <;> rfl
  | many vs => exact lenManyC_fst g vs l

theorem lenFieldsC_fst (m : Msg) (ns : List FieldName) (l : Nat) : (lenFieldsC g m ns l).1 = lenFields g m ns l := by
  induction ns generalizing l with
  | nil => rfl
  | cons n ns ih =>
    rw [lenFieldsC, lenFields, fst_bind, fst_free]
    congr 1; funext s
    rw [fst_bind, lenSlotC_fst]
    congr 1; funext l
    exact ih l

theorem lenSkipNilC_fst (vs : List (Option IE)) (l : Nat) : (lenSkipNilC g l vs).1 = .ok (lenSkipNil g l vs) := by
  induction vs generalizing l with
  | nil => rfl
  | cons v vs ih =>
    cases v with
    | none => rw [lenSkipNilC, lenSkipNil, ih]
    | some i => rw [lenSkipNilC, lenSkipNil, fst_bind, fst_len, Res.ok_bind, ih]

theorem marshalLenC_fst (m : Msg) : (marshalLenC g m).1 = marshalLen g m := by
  rw [marshalLenC, marshalLen, fst_bind, lenFieldsC_fst]
  congr 1; funext l
  exact lenSkipNilC_fst g m.ies l

theorem putIEC_fst (i : IE) (pl : Slice) (off : Nat) : (putIEC g i pl off).1 = putIE g i pl off := by
  rw [putIEC, putIE]
  split
  · rw [fst_bind, count_fst, Cost.marshalToW_fst]
    rfl
  · rfl

theorem putManyC_fst (vs : List (Option IE)) (pl : Slice) (off : Nat) :
    (putManyC g vs pl off).1 = putMany g vs pl off := by
  induction vs generalizing pl off with
  | nil => rfl
  | cons v vs ih =>
    cases v with
    | none => rfl
    | some i =>
      rw [putManyC, putMany, fst_bind, putIEC_fst]
      congr 1; funext x
      exact ih x.1 x.2

theorem putSlotC_fst (s : Slot) (pl : Slice) (off : Nat) : (putSlotC g s pl off).1 = putSlot g s pl off := by
  cases s with
  | one v =>
    cases v with
    | none => rfl
    | some i => exact putIEC_fst g i pl off
  | many vs => exact putManyC_fst g vs pl off

theorem putFieldsC_fst (m : Msg) (ns : List FieldName) (pl : Slice) (off : Nat) :
    (putFieldsC g m ns pl off).1 = putFields g m ns pl off := by
  induction ns generalizing pl off with
  | nil => rfl
  | cons n ns ih =>
    rw [putFieldsC, putFields, fst_bind, fst_free]
    congr 1; funext s
    rw [fst_bind, putSlotC_fst]
    congr 1; funext x
    exact ih x.1 x.2

theorem putSkipNilC_fst (vs : List (Option IE)) (pl : Slice) (off : Nat) :
    (putSkipNilC g vs pl off).1 = putSkipNil g vs pl off := by
  induction vs generalizing pl off with
  | nil => rfl
  | cons v vs ih =>
    cases v with
    | none => rw [putSkipNilC, putSkipNil, ih]
    | some i =>
      rw [putSkipNilC, putSkipNil, fst_bind, putIEC_fst]
      congr 1; funext x
      exact ih x.1 x.2

theorem marshalToC_fst (m : Msg) (b : Slice) : (marshalToC g m b).1 = marshalTo g m b := by
  rw [marshalToC, marshalTo, fst_bind, marshalLenC_fst]
  congr 1; funext n
  rw [fst_bind, putFieldsC_fst]
  congr 1; funext x
  obtain ⟨pl, off⟩ := x
  dsimp only
  rw [fst_bind, putSkipNilC_fst]
  cases putSkipNil g m.ies pl off with
  | err e => rfl
  | panic => rfl
  | ok y =>
    simp only [Res.ok_bind]
    rw [fst_bind, fst_free]
    rfl

theorem marshalC_fst (m : Msg) : (marshalC g m).1 = marshal g m := by
  rw [marshalC, marshal, marshalSt, fst_bind, marshalLenC_fst]
  cases marshalLen g m with
  | err e => rfl
  | panic => rfl
  | ok n =>
    simp only [Res.ok_bind]
    rw [fst_bind, marshalToC_fst]
    cases marshalTo g m (Slice.make n) <;> rfl

theorem decode_fst (b : Bytes) : (Cost.decode g b).1 = parseMulti g b := (Cost.erase g _).2 b

theorem unmarshalC_fst (m : Msg) (b : Bytes) : (unmarshalC g m b).1 = unmarshal g m b := by
  rw [unmarshalC, unmarshal, fst_bind, fst_free]
  congr 1; funext h
  dsimp only
  split
  · rfl
  · rw [fst_bind, count_fst, decode_fst]
    congr 1; funext ies
    obtain ⟨k, h0, fs, es⟩ := m
    cases k <;> rfl

theorem parseC_fst (b : Bytes) : (parseC g b).1 = parse g b := by
  rw [parseC, parse]
  split
  · rfl
  · rw [fst_bind, fst_free]
    congr 1; funext t
    exact unmarshalC_fst g _ b

/-! ### Work of decoding -/

/-- All counted work of `message.Parse` is that of `ParseMultiIEs` on the payload. -/
theorem parseC_work (b : Bytes) :
    (parseC g b).2 =
      match Header.parse b with
      | .ok h => if h.payload.length < 2 then 0 else (Cost.decode g h.payload).2
      | _ => 0 := by
  have add_zero : ∀ w : Cost.Work, w + 0 = w := fun w => Cost.Work.eq rfl rfl
  have zero_add : ∀ w : Cost.Work, 0 + w = w := fun w => Cost.Work.eq (Nat.zero_add _) (Nat.zero_add _)
  have hun : ∀ m : Msg, (unmarshalC g m b).2 =
      match Header.parse b with
      | .ok h => if h.payload.length < 2 then 0 else (Cost.decode g h.payload).2
      | _ => 0 := by
    intro m
    unfold unmarshalC
    show (Counted.bind (free (Header.parse b)) _).2 = _
    unfold Counted.bind free
    dsimp only
    cases Header.parse b with
    | err e => rfl
    | panic => rfl
    | ok h =>
      dsimp only
      split
      · rfl
      · rw [zero_add]
        show (Counted.bind (count (Cost.decode g h.payload)) _).2 = _
        unfold Counted.bind count
        cases (Cost.decode g h.payload).1 with
        | err e => rfl
        | panic => rfl
        | ok ies =>
          obtain ⟨k, h0, fs, es⟩ := m
          cases k <;> exact add_zero _
  rw [parseC]
  match b with
  | [] => simp [Header.parse_eq, free]
  | [x] => simp [Header.parse_eq, free]
  | f :: t :: rest =>
    rw [if_neg (by simp)]
    show (Counted.bind (free (index (f :: t :: rest) 1)) _).2 = _
    have hidx : index (f :: t :: rest) 1 = .ok t := rfl
    rw [hidx]
    show (0 : Cost.Work) + (unmarshalC g (zero (kindOf t)) (f :: t :: rest)).2 = _
    rw [zero_add, hun]

/-! ### Work of encoding -/

open Cost in
theorem lenCallsList_append (xs ys : List IE) : lenCallsList g (xs ++ ys) = lenCallsList g xs + lenCallsList g ys := by
  induction xs with
  | nil => simp [lenCallsList]
  | cons x xs ih => simp only [List.cons_append, lenCallsList, ih]; omega

open Cost in
theorem depthsList_append (k : Nat) (xs ys : List IE) :
    depthsList g k (xs ++ ys) = depthsList g k xs + depthsList g k ys := by
  induction xs with
  | nil => simp [depthsList]
  | cons x xs ih => simp only [List.cons_append, depthsList, ih]; omega

open Cost in
theorem plainList_append (xs ys : List IE) : plainList g (xs ++ ys) = plainList g xs + plainList g ys := by
  induction xs with
  | nil => simp [plainList]
  | cons x xs ih => simp only [List.cons_append, plainList, ih]; omega

/-- Calls made by asking every element for its length. -/
def askWork (xs : List IE) : Cost.Work := ⟨0, Cost.lenCallsList g xs⟩

/-- Calls made by writing every element and then asking it for its length. -/
def putWork (xs : List IE) : Cost.Work := ⟨Cost.lenCallsList g xs, Cost.depthsList g 1 xs + Cost.plainList g xs⟩

theorem askWork_cons (x : IE) (xs : List IE) : askWork g (x :: xs) = ⟨0, Cost.lenCalls g x⟩ + askWork g xs :=
  Cost.Work.eq rfl rfl

theorem askWork_append (xs ys : List IE) : askWork g (xs ++ ys) = askWork g xs + askWork g ys :=
  Cost.Work.eq rfl (by simp only [askWork, Cost.add_lens]; exact lenCallsList_append g xs ys)

theorem putWork_append (xs ys : List IE) : putWork g (xs ++ ys) = putWork g xs + putWork g ys :=
  Cost.Work.eq (by simp only [putWork, Cost.add_calls]; exact lenCallsList_append g xs ys)
    (by simp only [putWork, Cost.add_lens, depthsList_append, plainList_append]; omega)

theorem askWork_nil : askWork g [] = 0 := rfl
theorem putWork_nil : putWork g [] = 0 := rfl

theorem work_add_zero (w : Cost.Work) : w + 0 = w := Cost.Work.eq rfl rfl
theorem work_zero_add (w : Cost.Work) : 0 + w = w := Cost.Work.eq (Nat.zero_add _) (Nat.zero_add _)
theorem work_assoc (a b c : Cost.Work) : a + b + c = a + (b + c) := Cost.Work.eq (Nat.add_assoc _ _ _) (Nat.add_assoc _ _ _)

theorem lenManyC_work (vs : List (Option IE)) (l a : Nat) (h : (lenManyC g l vs).1 = .ok a) :
    (lenManyC g l vs).2 = askWork g (vs.filterMap id) := by
  induction vs generalizing l with
  | nil => rfl
  | cons v vs ih =>
    cases v with
    | none => cases h
    | some i =>
      rw [lenManyC] at h ⊢
      obtain ⟨n, _, h2, h3⟩ := bind_ok h
      rw [h3, ih _ h2]
      exact (askWork_cons g i _).symm

theorem lenSlotC_work (s : Slot) (l a : Nat) (h : (lenSlotC g l s).1 = .ok a) :
    (lenSlotC g l s).2 = askWork g s.elems := by
  cases s with
  | one v => cases v <;> rfl
  | many vs => exact lenManyC_work g vs l a h

theorem lenFieldsC_work (m : Msg) (suf : List (FieldName × Slot)) (hget : ∀ p ∈ suf, m.get p.1 = .ok p.2) (l a : Nat)
    (h : (lenFieldsC g m (suf.map (·.1)) l).1 = .ok a) :
    (lenFieldsC g m (suf.map (·.1)) l).2 = askWork g (suf.flatMap fun p => p.2.elems) := by
  induction suf generalizing l with
  | nil => rfl
  | cons p suf ih =>
    rw [List.map_cons, lenFieldsC] at h ⊢
    obtain ⟨s, h1, h2, h3⟩ := bind_ok h
    rw [fst_free, hget p (by simp)] at h1
    cases h1
    obtain ⟨l', k1, k2, k3⟩ := bind_ok h2
    rw [h3, k3, lenSlotC_work g p.2 l l' k1, ih (fun q hq => hget q (by simp [hq])) l' k2, List.flatMap_cons,
      askWork_append]
    exact work_zero_add _

theorem lenSkipNilC_work (vs : List (Option IE)) (l : Nat) : (lenSkipNilC g l vs).2 = askWork g (vs.filterMap id) := by
  induction vs generalizing l with
  | nil => rfl
  | cons v vs ih =>
    cases v with
    | none => rw [lenSkipNilC]; exact ih l
    | some i =>
      rw [lenSkipNilC]
      show (⟨0, Cost.lenCalls g i⟩ : Cost.Work) + (lenSkipNilC g (l + i.marshalLen g) vs).2 = _
      rw [ih]
      exact (askWork_cons g i _).symm

theorem marshalLenC_work (m : Msg) (hs : m.Shaped) (a : Nat) (h : (marshalLenC g m).1 = .ok a) :
    (marshalLenC g m).2 = askWork g m.elements := by
  unfold marshalLenC at h ⊢
  obtain ⟨l, h1, h2, h3⟩ := bind_ok h
  rw [h3, lenSkipNilC_work]
  rw [Kind.lenOrder_eq, ← hs.names] at h1 ⊢
  rw [lenFieldsC_work g m m.fields (fun p hp => get_ok m hs.nodup p hp) _ _ h1, elements, askWork_append]

theorem putIEC_work (i : IE) (pl : Slice) (off : Nat) (a : Slice × Nat) (h : (putIEC g i pl off).1 = .ok a) :
    (putIEC g i pl off).2 = putWork g [i] := by
  unfold putIEC at h ⊢
  split at h
  · rename_i hle
    rw [if_pos hle]
    obtain ⟨v, h1, h2, h3⟩ := bind_ok h
    obtain ⟨n, _, k2, k3⟩ := bind_ok h2
    rw [h3, k3, count_snd, (Cost.marshalToW_work g i _).2.2 v h1]
    have hd : Cost.depths g 1 i = Cost.depths g 0 i + Cost.lenCalls g i := Cost.depths_succ g 0 i
    apply Cost.Work.eq
    · simp [putWork, Cost.lenCallsList, len]
      rfl
    · simp only [putWork, Cost.add_lens, Cost.depthsList, Cost.plainList, len]
      show _ + (_ + 0) = _
      omega
  · cases h

theorem putManyC_work (vs : List (Option IE)) (pl : Slice) (off : Nat) (a : Slice × Nat)
    (h : (putManyC g vs pl off).1 = .ok a) : (putManyC g vs pl off).2 = putWork g (vs.filterMap id) := by
  induction vs generalizing pl off with
  | nil => rfl
  | cons v vs ih =>
    cases v with
    | none => cases h
    | some i =>
      rw [putManyC] at h ⊢
      obtain ⟨x, h1, h2, h3⟩ := bind_ok h
      rw [h3, putIEC_work g i pl off x h1]
      rw [ih x.1 x.2 h2, ← putWork_append]
      rfl

theorem putSlotC_work (s : Slot) (pl : Slice) (off : Nat) (a : Slice × Nat) (h : (putSlotC g s pl off).1 = .ok a) :
    (putSlotC g s pl off).2 = putWork g s.elems := by
  cases s with
  | one v =>
    cases v with
    | none => rfl
    | some i => exact putIEC_work g i pl off a h
  | many vs => exact putManyC_work g vs pl off a h

theorem putFieldsC_work (m : Msg) (suf : List (FieldName × Slot)) (hget : ∀ p ∈ suf, m.get p.1 = .ok p.2)
    (pl : Slice) (off : Nat) (a : Slice × Nat) (h : (putFieldsC g m (suf.map (·.1)) pl off).1 = .ok a) :
    (putFieldsC g m (suf.map (·.1)) pl off).2 = putWork g (suf.flatMap fun p => p.2.elems) := by
  induction suf generalizing pl off with
  | nil => rfl
  | cons p suf ih =>
    rw [List.map_cons, putFieldsC] at h ⊢
    obtain ⟨s, h1, h2, h3⟩ := bind_ok h
    rw [fst_free, hget p (by simp)] at h1
    cases h1
    obtain ⟨x, k1, k2, k3⟩ := bind_ok h2
    rw [h3, k3, putSlotC_work g p.2 pl off x k1]
    rw [ih (fun q hq => hget q (by simp [hq])) x.1 x.2 k2, List.flatMap_cons, putWork_append]
    exact work_zero_add _

theorem putSkipNilC_work (vs : List (Option IE)) (pl : Slice) (off : Nat) (a : Slice × Nat)
    (h : (putSkipNilC g vs pl off).1 = .ok a) : (putSkipNilC g vs pl off).2 = putWork g (vs.filterMap id) := by
  induction vs generalizing pl off with
  | nil => rfl
  | cons v vs ih =>
    cases v with
    | none => rw [putSkipNilC] at h ⊢; exact ih pl off h
    | some i =>
      rw [putSkipNilC] at h ⊢
      obtain ⟨x, h1, h2, h3⟩ := bind_ok h
      rw [h3, putIEC_work g i pl off x h1]
      rw [ih x.1 x.2 h2, ← putWork_append]
      rfl

theorem marshalToC_work (m : Msg) (hs : m.Shaped) (b : Slice) (a : Msg × Slice) (h : (marshalToC g m b).1 = .ok a) :
    (marshalToC g m b).2 = askWork g m.elements + putWork g m.elements := by
  unfold marshalToC at h ⊢
  dsimp only at h ⊢
  have hs0 : ({ m with header := { m.header with payload := [] } } : Msg).Shaped := hs
  obtain ⟨n, h1, h2, h3⟩ := bind_ok h
  rw [h3, marshalLenC_work g _ hs0 n h1]
  obtain ⟨x, k1, k2, k3⟩ := bind_ok h2
  rw [k3]
  rw [Kind.marshalOrder_eq, ← hs.names] at k1 ⊢
  rw [putFieldsC_work g _ m.fields (fun p hp => get_ok _ hs0.nodup p hp) _ _ x k1]
  obtain ⟨y, j1, j2, j3⟩ := bind_ok k2
  rw [j3, putSkipNilC_work g m.ies x.1 x.2 y j1]
  obtain ⟨z, i1, i2, i3⟩ := bind_ok j2
  rw [i3]
  show _ + (_ + (_ + ((0 : Cost.Work) + 0))) = _
  rw [work_zero_add, work_add_zero, ← putWork_append]
  rfl

theorem marshalC_work (m : Msg) (hs : m.Shaped) (b : Bytes) (h : (marshalC g m).1 = .ok b) :
    (marshalC g m).2 = askWork g m.elements + (askWork g m.elements + putWork g m.elements) := by
  unfold marshalC at h ⊢
  obtain ⟨n, h1, h2, h3⟩ := bind_ok h
  obtain ⟨x, k1, k2, k3⟩ := bind_ok h2
  rw [h3, k3, marshalLenC_work g m hs n h1, marshalToC_work g m hs _ x k1]
  show _ + (_ + (0 : Cost.Work)) = _
  rw [work_add_zero]

end Msg
end Pfcp
