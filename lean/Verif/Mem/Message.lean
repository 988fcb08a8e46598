/-
Messages in memory: a decoded message holds pointers to elements, whose payloads lie in the receive buffer, as does the payload of
its header. Extends Verif/Mem/Model.lean; the functions mirror those of Verif/Message/Model.lean.
-/
import Verif.Mem.Lemmas
import Verif.Message.Props

namespace Pfcp
namespace Mem

/-- A struct field of a message: a pointer, or a slice of pointers (with an array of its own, which is left out). -/
inductive SlotH where
  | one (v : Option Nat)
  | many (vs : List (Option Nat))

/-- Zero value of a field. -/
def SlotH.zero : Card → SlotH
  | .one => .one none
  | .many => .many []

/-- `m.F = i` or `m.F = append(m.F, i)`, /repo/message/association-setup-request.go:215-240. -/
def SlotH.put (q : Nat) : SlotH → SlotH
  | .one _ => .one (some q)
  | .many vs => .many (vs ++ [some q])

/-- A message in memory. `header` is its `*Header` but for the payload, which is the slice `payload`. -/
structure MsgH where
  kind : Kind
  header : Header
  payload : Option Win
  fields : List (FieldName × SlotH)
  ies : List (Option Nat)

/-- Assigning or appending to field `n`. -/
def MsgH.put (m : MsgH) (n : FieldName) (q : Nat) : Res MsgH :=
  if n ∈ m.fields.map (·.1) then
    .ok { m with fields := m.fields.map fun p => if p.1 = n then (p.1, p.2.put q) else p }
  else .panic

/-- One iteration of the switch loop, /repo/message/association-release-response.go:107-114. -/
def fileH (h : Heap) (cases : List (IEType × FieldName)) (m : MsgH) (q : Nat) : Res MsgH :=
  typeAt h (some q) >>= fun t =>
  match cases.lookup t with
  | some n => m.put n q
  | none => .ok { m with ies := m.ies ++ [some q] }

/-- The loop, /repo/message/association-release-response.go:106-115. -/
def fileAllH (h : Heap) (cases : List (IEType × FieldName)) (m : MsgH) : List Nat → Res MsgH
  | [] => .ok m
  | q :: qs => fileH h cases m q >>= fun m => fileAllH h cases m qs

/-- `UnmarshalBinary` on `&Kind{}` with the slice `w`, /repo/message/association-release-response.go:91-118, for Generic
/repo/message/generic.go:91-106. The header's payload is the rest of the slice after the fixed part, of sixteen octets with session id
and of eight without (/repo/message/header.go:113-137: the two branches of line 128 give the same slice). -/
def unmarshalMsgH (g : IEType → Bool) (extra : Nat → Nat) (h : Heap) (k : Kind) (w : Win) : Res (Heap × MsgH) :=
  h.read (some w) >>= fun b => Header.parse b >>= fun hd =>
  let o := if hd.hasSEID then 16 else 8
  let pw : Win := ⟨w.buf, w.off + o, w.len - o⟩
  let m : MsgH := ⟨k, { hd with payload := [] }, some pw, k.tab.fields.map fun p => (p.1, SlotH.zero p.2), []⟩
  if pw.len < 2 then .ok (h, m)
  else
    parseMultiH g extra (2 * pw.len + 2) h pw >>= fun r =>
    match k with
    | .generic => .ok (r.1, { m with ies := r.2.map some })
    | k => fileAllH r.1 k.tab.parseSwitch m r.2 >>= fun m => .ok (r.1, m)

/-- `message.Parse`, /repo/message/message.go:60-122, of a slice of an existing byte array. -/
def parseMsgH (g : IEType → Bool) (extra : Nat → Nat) (h : Heap) (w : Win) : Res (Heap × MsgH) :=
  h.read (some w) >>= fun b =>
  if b.length < 2 then .err .unexpectedEOF else index b 1 >>= fun t => unmarshalMsgH g extra h (kindOf t) w

/-! ### What a message in memory denotes -/

/-- A function on every entry; the first failure counts. -/
def mapRes {α β : Type} (f : α → Res β) : List α → Res (List β)
  | [] => .ok []
  | x :: xs => f x >>= fun y => mapRes f xs >>= fun ys => .ok (y :: ys)

/-- A pointer that may be nil. -/
def viewO (h : Heap) (n : Nat) : Option Nat → Res (Option IE)
  | none => .ok none
  | some q => viewF h n q >>= fun i => .ok (some i)

def viewSlot (h : Heap) (n : Nat) : SlotH → Res Slot
  | .one v => viewO h n v >>= fun i => .ok (.one i)
  | .many vs => mapRes (viewO h n) vs >>= fun is => .ok (.many is)

/-- The message that a reader sees who follows the pointers. -/
def MsgH.view (h : Heap) (n : Nat) (m : MsgH) : Res Msg :=
  h.read m.payload >>= fun pl =>
  mapRes (fun p => viewSlot h n p.2 >>= fun s => .ok (p.1, s)) m.fields >>= fun fs =>
  mapRes (viewO h n) m.ies >>= fun is =>
  .ok ⟨m.kind, { m.header with payload := pl }, fs, is⟩

/-! ### Lemmas -/

theorem mapRes_ok {α β : Type} (f : α → Res β) : ∀ (l : List α) (ys : List β), mapRes f l = .ok ys ↔ l.map f = ys.map .ok
  | [], ys => by cases ys <;> simp [mapRes]
  | x :: xs, [] => by
    simp only [mapRes, List.map_cons, List.map_nil]
    constructor
    · intro h
      obtain ⟨_, _, h⟩ := Res.bind_eq_ok.1 h
      obtain ⟨_, _, h⟩ := Res.bind_eq_ok.1 h
      cases h
    · intro h; cases h
  | x :: xs, y :: ys => by
    simp only [mapRes, List.map_cons]
    constructor
    · intro h
      obtain ⟨_, h1, h⟩ := Res.bind_eq_ok.1 h
      obtain ⟨_, h2, h⟩ := Res.bind_eq_ok.1 h
      cases h
      rw [h1, (mapRes_ok f xs ys).1 h2]
    · intro h
      injection h with h1 h2
      rw [h1, Res.ok_bind, (mapRes_ok f xs ys).2 h2, Res.ok_bind]

/-- `m`, read in memory `h`, has the fields and extra elements of `v`. -/
structure Sees (h : Heap) (n : Nat) (m : MsgH) (v : Msg) : Prop where
  kind : m.kind = v.kind
  fields : (m.fields.map fun p => viewSlot h n p.2 >>= fun s => Res.ok (p.1, s)) = v.fields.map Res.ok
  ies : m.ies.map (viewO h n) = v.ies.map Res.ok

theorem bindPair {n : FieldName} {r : Res Slot} {q : FieldName × Slot} (h : (r >>= fun s => Res.ok (n, s)) = .ok q) :
    r = .ok q.2 ∧ n = q.1 := by
  obtain ⟨s, h1, h2⟩ := Res.bind_eq_ok.1 h
  cases h2
  exact ⟨h1, rfl⟩

theorem Sees.names {h : Heap} {n : Nat} : ∀ {fs : List (FieldName × SlotH)} {vs : List (FieldName × Slot)},
    (fs.map fun p => viewSlot h n p.2 >>= fun s => Res.ok (p.1, s)) = vs.map Res.ok → fs.map (·.1) = vs.map (·.1)
  | [], [], _ => rfl
  | [], _ :: _, h => by cases h
  | _ :: _, [], h => by cases h
  | f :: fs, v :: vs, hh => by
    simp only [List.map_cons] at hh ⊢
    injection hh with h1 h2
    rw [(bindPair h1).2, Sees.names h2]

theorem viewSlot_put {h : Heap} {n : Nat} {s : SlotH} {v : Slot} (hs : viewSlot h n s = .ok v) {q : Nat} {i : IE}
    (hq : viewF h n q = .ok i) : viewSlot h n (s.put q) = .ok (v.put i) := by
  cases s with
  | one x =>
    obtain ⟨y, _, h2⟩ := Res.bind_eq_ok.1 hs
    cases h2
    simp only [SlotH.put, viewSlot, viewO, hq, Res.ok_bind]
    rfl
  | many xs =>
    obtain ⟨ys, h1, h2⟩ := Res.bind_eq_ok.1 hs
    cases h2
    have h1 := (mapRes_ok _ _ _).1 h1
    have : mapRes (viewO h n) (xs ++ [some q]) = .ok (ys ++ [some i]) := by
      rw [mapRes_ok, List.map_append, List.map_append, h1]
      simp [viewO, hq]
    simp only [SlotH.put, viewSlot, this, Res.ok_bind]
    rfl

theorem fields_put {h : Heap} {n : Nat} {q : Nat} {i : IE} (hq : viewF h n q = .ok i) (nm : FieldName) :
    ∀ {fs : List (FieldName × SlotH)} {vs : List (FieldName × Slot)},
    (fs.map fun p => viewSlot h n p.2 >>= fun s => Res.ok (p.1, s)) = vs.map Res.ok →
    ((fs.map fun p => if p.1 = nm then (p.1, p.2.put q) else p).map fun p => viewSlot h n p.2 >>= fun s => Res.ok (p.1, s)) =
      (vs.map fun p => if p.1 = nm then (p.1, p.2.put i) else p).map Res.ok
  | [], [], _ => rfl
  | [], _ :: _, h => by cases h
  | _ :: _, [], h => by cases h
  | f :: fs, v :: vs, hh => by
    simp only [List.map_cons] at hh ⊢
    injection hh with h1 h2
    rw [fields_put hq nm h2]
    congr 1
    obtain ⟨e1, e2⟩ := bindPair h1
    by_cases hn : f.1 = nm
    · rw [if_pos hn, if_pos (e2 ▸ hn)]
      simp only [viewSlot_put e1 hq, Res.ok_bind, e2]
    · rw [if_neg hn, if_neg (e2 ▸ hn)]
      exact h1

theorem typeAt_view {h : Heap} {n q : Nat} {i : IE} (hv : viewF h n q = .ok i) : typeAt h (some q) = .ok i.typ := by
  cases n with
  | zero => cases hv
  | succ n =>
    unfold viewF at hv
    unfold typeAt
    cases hx : h.nodes[q]? with
    | none => simp only [hx] at hv; cases hv
    | some x =>
      simp only [hx] at hv
      obtain ⟨_, _, hv⟩ := Res.bind_eq_ok.1 hv
      obtain ⟨_, _, hv⟩ := Res.bind_eq_ok.1 hv
      obtain ⟨_, _, hv⟩ := Res.bind_eq_ok.1 hv
      cases hv
      simp only [hx]

theorem typeAt_nodes {h h2 : Heap} (hn : h2.nodes = h.nodes) (q : Option Nat) : typeAt h2 q = typeAt h q := by
  cases q with
  | none => rfl
  | some q => simp only [typeAt, hn]

theorem viewAll_cons {f : Nat → Res IE} {q : Nat} {qs : List Nat} {cs : List IE} (h : viewAll f ((q :: qs).map some) = .ok cs) :
    ∃ c cs', cs = c :: cs' ∧ f q = .ok c ∧ viewAll f (qs.map some) = .ok cs' := by
  rw [List.map_cons, viewAll] at h
  obtain ⟨c, h1, h⟩ := Res.bind_eq_ok.1 h
  obtain ⟨cs', h2, h⟩ := Res.bind_eq_ok.1 h
  cases h
  exact ⟨c, cs', rfl, h1, h2⟩

/-- Filing pointers by the types of what they point to is filing what they denote, also when it is read later. -/
theorem fileAllH_sees {h h2 : Heap} (hn : h2.nodes = h.nodes) {n : Nat} (cases : List (IEType × FieldName)) :
    ∀ (qs : List Nat) (is : List IE) (m : MsgH) (v w : Msg), viewAll (viewF h2 n) (qs.map some) = .ok is → Sees h2 n m v →
      Msg.fileAll cases v is = .ok w → ∃ m', fileAllH h cases m qs = .ok m' ∧ m'.header = m.header ∧ m'.payload = m.payload ∧
        w.header = v.header ∧ Sees h2 n m' w
  | [], is, m, v, w, hv, hs, hw => by
    cases hv
    cases hw
    exact ⟨m, rfl, rfl, rfl, rfl, hs⟩
  | q :: qs, is, m, v, w, hv, hs, hw => by
    obtain ⟨i, is', rfl, hi, his⟩ := viewAll_cons hv
    rw [Msg.fileAll] at hw
    obtain ⟨v', hv', hw⟩ := Res.bind_eq_ok.1 hw
    have ht : typeAt h (some q) = .ok i.typ := (typeAt_nodes hn _).symm.trans (typeAt_view hi)
    have step : ∃ m', fileH h cases m q = .ok m' ∧ m'.header = m.header ∧ m'.payload = m.payload ∧ v'.header = v.header ∧
        Sees h2 n m' v' := by
      unfold fileH
      rw [ht, Res.ok_bind]
      unfold Msg.file at hv'
      cases hl : cases.lookup i.typ with
      | none =>
        simp only [hl] at hv' ⊢
        cases hv'
        refine ⟨_, rfl, rfl, rfl, rfl, hs.kind, hs.fields, ?_⟩
        simp only [List.map_append, hs.ies, List.map_cons, List.map_nil, viewO, hi, Res.ok_bind]
      | some nm =>
        simp only [hl] at hv' ⊢
        unfold Msg.put at hv'
        unfold MsgH.put
        rw [Sees.names hs.fields]
        split at hv'
        · rename_i hmem
          cases hv'
          rw [if_pos hmem]
          exact ⟨_, rfl, rfl, rfl, rfl, hs.kind, fields_put hi nm hs.fields, hs.ies⟩
        · cases hv'
    obtain ⟨m', hm', e1, e2, e3, hs'⟩ := step
    obtain ⟨m'', hm'', f1, f2, f3, hs''⟩ := fileAllH_sees hn cases qs is' m' v' w his hs' hw
    refine ⟨m'', ?_, f1.trans e1, f2.trans e2, f3.trans e3, hs''⟩
    rw [fileAllH, hm', Res.ok_bind, hm'']

theorem Sees.view {h : Heap} {n : Nat} {m : MsgH} {v : Msg} (hs : Sees h n m v) {pl : Bytes} (hp : h.read m.payload = .ok pl) :
    m.view h n = .ok { v with header := { m.header with payload := pl } } := by
  unfold MsgH.view
  rw [hp, Res.ok_bind, (mapRes_ok _ _ _).2 hs.fields, Res.ok_bind, (mapRes_ok _ _ _).2 hs.ies, Res.ok_bind, hs.kind]

theorem Sees.zero (h : Heap) (n : Nat) (k : Kind) (hd hd' : Header) (pw : Option Win) :
    Sees h n ⟨k, hd, pw, k.tab.fields.map fun p => (p.1, SlotH.zero p.2), []⟩ { Msg.zero k with header := hd' } := by
  refine ⟨rfl, ?_, rfl⟩
  simp only [Msg.zero, List.map_map]
  apply List.map_congr_left
  intro p _
  obtain ⟨n, c⟩ := p
  cases c <;> rfl

/-- The payload of a decoded header is what follows the fixed part. -/
theorem payload_drop {b : Bytes} {hd : Header} (hp : Header.parse b = .ok hd) :
    (if hd.hasSEID then 16 else 8) ≤ b.length ∧ hd.payload = b.drop (if hd.hasSEID then 16 else 8) := by
  have hs := (Header.parse_sound _ _ hp).1
  have hlen := Header.enc_length hd
  rw [← hs]
  have hfx : Header.fixedLen hd.flags = if hd.hasSEID then 16 else 8 := rfl
  refine ⟨by rw [hlen, hfx]; omega, ?_⟩
  unfold Header.enc Header.hasSEID
  split <;> rfl

theorem over_typ (g : IEType → Bool) (b : Bytes) : ∀ i : IE, (over g b i).typ = i.typ
  | ⟨_, _, _, _, _⟩ => rfl

theorem overList_types (g : IEType → Bool) : ∀ (cs : List IE) (b : Bytes), (overList g b cs).map (·.typ) = cs.map (·.typ)
  | [], _ => rfl
  | c :: cs, b => by rw [overList, List.map_cons, List.map_cons, over_typ, overList_types g cs]

/-- What decoding a message in memory does, against the decoder on values. -/
theorem decodeMsg (g : IEType → Bool) (extra : Nat → Nat) (h : Heap) (w : Win) (b : Bytes) (hr : h.read (some w) = .ok b) :
    (∀ m, Msg.parse g b = .ok m → ∃ xs, m = Msg.filed m.kind m.header xs ∧ overList g m.header.payload xs = xs ∧
      ∃ h' mh n, parseMsgH g extra h w = .ok (h', mh) ∧ Ext h h' ∧ h'.bufs = h.bufs ∧
        ∀ h2 b2, Same h' h2 → h2.nodes = h'.nodes → h2.read (some w) = .ok b2 →
          mh.view h2 n = .ok (Msg.filed m.kind { m.header with payload := b2.drop (if m.header.hasSEID then 16 else 8) }
            (overList g (b2.drop (if m.header.hasSEID then 16 else 8)) xs))) ∧
    (∀ e, Msg.parse g b = .err e → parseMsgH g extra h w = .err e) := by
  have hl := read_length hr
  rw [Msg.parse_normal]
  unfold parseMsgH
  rw [hr, Res.ok_bind]
  cases hp : Header.parse b with
  | panic => exact ⟨fun m hm => (by cases hm), fun e he => (by cases he)⟩
  | err e' =>
    refine ⟨fun m hm => (by cases hm), fun e he => ?_⟩
    cases he
    by_cases h2 : b.length < 2
    · rw [if_pos h2]
      have : Header.parse b = .err .unexpectedEOF := by
        unfold Header.parse
        rw [if_pos (by omega)]
      rw [this] at hp
      cases hp
      rfl
    · rw [if_neg h2]
      match b, h2 with
      | _ :: t :: _, _ =>
        show (Res.ok t >>= _) = _
        rw [Res.ok_bind]
        unfold unmarshalMsgH
        rw [hr, Res.ok_bind, hp]
        rfl
      | [], h2 => exact absurd (by simp) h2
      | [_], h2 => exact absurd (by simp) h2
  | ok hd =>
    obtain ⟨ho, hpl⟩ := payload_drop hp
    have h2 : ¬ b.length < 2 := by split at ho <;> omega
    rw [if_neg h2]
    have hidx : index b 1 = .ok hd.typ := by
      have hs := (Header.parse_sound _ _ hp).1
      rw [← hs]
      unfold Header.enc
      simp [index]
    rw [hidx, Res.ok_bind]
    unfold unmarshalMsgH
    rw [hr]
    simp only [Res.ok_bind, hp]
    generalize hoff : (if hd.hasSEID = true then 16 else 8) = o at ho hpl
    have hpr : ∀ (h2 : Heap) b2, h2.read (some w) = .ok b2 → h2.read (some ⟨w.buf, w.off + o, w.len - o⟩) = .ok (b2.drop o) := by
      intro h2 b2 hr2
      rw [read_sub hr2 _ _ (by omega), List.take_of_length_le (by simp [read_length hr2])]
    have hplen : hd.payload.length = w.len - o := by rw [hpl, List.length_drop]; omega
    rw [hplen]
    by_cases hsmall : w.len - o < 2
    · simp only [if_pos hsmall]
      refine ⟨fun m hm => ?_, fun e he => (by cases he)⟩
      cases hm
      refine ⟨[], rfl, rfl, h, _, 0, rfl, Ext.refl h, rfl, fun h2 b2 _ _ hr2 => ?_⟩
      have := (Sees.zero h2 0 (kindOf hd.typ) { hd with payload := [] } { hd with payload := b2.drop o }
        (some ⟨w.buf, w.off + o, w.len - o⟩)).view (hpr h2 b2 hr2)
      rw [this]
      show _ = Res.ok (Msg.filed (kindOf hd.typ) _ (overList g _ []))
      rw [overList, Msg.filed_nil]
      show _ = Res.ok { Msg.zero (kindOf hd.typ) with header := { hd with payload := b2.drop (if hd.hasSEID = true then 16 else 8) } }
      rw [hoff]
    · simp only [if_neg hsmall]
      have hd2 := (decode g extra (2 * (w.len - o) + 2)).2 h ⟨w.buf, w.off + o, w.len - o⟩ _ (hpr h b hr)
      rw [hpl]
      have hpm : parseMulti g (b.drop o) = parseMultiF g (2 * (w.len - o) + 2) (b.drop o) := by
        unfold parseMulti
        rw [← hplen, hpl]
      rw [hpm]
      refine ⟨fun m hm => ?_, fun e he => ?_⟩
      · obtain ⟨xs, hx, hm⟩ := Res.bind_eq_ok.1 hm
        cases hm
        obtain ⟨hov, h', qs, hH, hext, hb, hv⟩ := hd2.1 xs hx
        rw [hH, Res.ok_bind]
        refine ⟨xs, rfl, by rw [← hpl] at hov; exact hov, ?_⟩
        have h0 := hv h' _ (Ext.same (Ext.refl h')) (hpr h' b (hext.read hr))
        rw [hov] at h0
        by_cases hk : kindOf hd.typ = .generic
        · rw [hk]
          refine ⟨h', _, 2 * (w.len - o) + 2, rfl, hext, hb, fun h2 b2 hs hn hr2 => ?_⟩
          have hv2 := hv h2 _ hs (hpr h2 b2 hr2)
          have hsee : Sees h2 (2 * (w.len - o) + 2) ⟨.generic, { hd with payload := [] }, some ⟨w.buf, w.off + o, w.len - o⟩,
              Kind.generic.tab.fields.map fun p => (p.1, SlotH.zero p.2), qs.map some⟩
              { Msg.zero .generic with header := { hd with payload := b2.drop o }, ies := (overList g (b2.drop o) xs).map some } := by
            refine ⟨rfl, rfl, ?_⟩
            have key : ∀ (qs : List Nat) (cs : List IE), viewAll (viewF h2 (2 * (w.len - o) + 2)) (qs.map some) = .ok cs →
                (qs.map some).map (viewO h2 (2 * (w.len - o) + 2)) = (cs.map some).map Res.ok := by
              intro qs
              induction qs with
              | nil => intro cs h; cases h; rfl
              | cons q qs ih =>
                intro cs h
                obtain ⟨c, cs', rfl, e1, e2⟩ := viewAll_cons h
                simp only [List.map_cons]
                rw [ih _ e2]
                simp only [viewO, e1, Res.ok_bind]
            exact key qs _ hv2
          rw [hsee.view (hpr h2 b2 hr2)]
          have hk2 : (Msg.filed .generic hd xs).kind = .generic := rfl
          have hh2 : (Msg.filed .generic hd xs).header = hd := rfl
          rw [hk2, hh2, hoff, Msg.filed_generic]
        · have hfile : Msg.fileAll (kindOf hd.typ).tab.parseSwitch { Msg.zero (kindOf hd.typ) with header := hd } xs =
              .ok (Msg.filed (kindOf hd.typ) hd xs) := Msg.fileAll_zero _ _ _
          obtain ⟨mh, hmh, e1, e2, _, _⟩ := fileAllH_sees (h := h') (h2 := h') rfl (kindOf hd.typ).tab.parseSwitch qs xs
            ⟨kindOf hd.typ, { hd with payload := [] }, some ⟨w.buf, w.off + o, w.len - o⟩,
              (kindOf hd.typ).tab.fields.map fun p => (p.1, SlotH.zero p.2), []⟩ _ _ h0 (Sees.zero ..) hfile
          refine ⟨h', mh, 2 * (w.len - o) + 2, ?_, hext, hb, fun h2 b2 hs hn hr2 => ?_⟩
          · split
            · rename_i hg
              exact absurd hg hk
            · rw [hmh]; rfl
          · have hv2 := hv h2 _ hs (hpr h2 b2 hr2)
            have hfile2 : Msg.fileAll (kindOf hd.typ).tab.parseSwitch
                { Msg.zero (kindOf hd.typ) with header := { hd with payload := b2.drop o } } (overList g (b2.drop o) xs) =
                .ok (Msg.filed (kindOf hd.typ) { hd with payload := b2.drop o } (overList g (b2.drop o) xs)) := Msg.fileAll_zero _ _ _
            obtain ⟨mh', hmh', f1, f2, _, hsee⟩ := fileAllH_sees (h := h') (h2 := h2) hn (kindOf hd.typ).tab.parseSwitch qs _
              ⟨kindOf hd.typ, { hd with payload := [] }, some ⟨w.buf, w.off + o, w.len - o⟩,
                (kindOf hd.typ).tab.fields.map fun p => (p.1, SlotH.zero p.2), []⟩ _ _ hv2 (Sees.zero ..) hfile2
            rw [hmh] at hmh'
            cases hmh'
            rw [hsee.view (pl := b2.drop o) (by rw [f2]; exact hpr h2 b2 hr2), f1]
            have hk2 : (Msg.filed (kindOf hd.typ) hd xs).kind = kindOf hd.typ := rfl
            have hh2 : (Msg.filed (kindOf hd.typ) hd xs).header = hd := rfl
            rw [hk2, hh2, hoff]
            rfl
      · rcases Res.bind_eq_err.1 he with he | ⟨_, _, he⟩
        · rw [hd2.2 e he]; rfl
        · cases he

end Mem
end Pfcp
