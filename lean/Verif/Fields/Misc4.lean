/- TraceInformation, MACAddressesDetected and MACAddressesRemoved. -/
import Verif.Fields.Misc3

namespace Pfcp
namespace Fields

/-! ### TraceInformation -/

/-- `TraceInformationFields`, /repo/ie/trace-information.go:42-51. A nil byte slice is empty. -/
structure TraceInformation where
  mcc : Bytes
  mnc : Bytes
  id : Bytes
  eventsLen : UInt8
  events : Bytes
  depth : UInt8
  ifsLen : UInt8
  ifs : Bytes
  ipLen : UInt8
  ip : IP
  deriving DecidableEq

namespace TraceInformation
open Text

/-- `NewTraceInformationFields`, :54-76. -/
def new (mcc mnc id events : Bytes) (depth : UInt8) (ifs : Bytes) (ip : IP) : TraceInformation :=
  match ip.conv4 with
  | some v4 => ⟨mcc, mnc, id, UInt8.ofNat events.length, events, depth, UInt8.ofNat ifs.length, ifs, 4, some v4⟩
  | none => ⟨mcc, mnc, id, UInt8.ofNat events.length, events, depth, UInt8.ofNat ifs.length, ifs, 16, ip⟩

/-- `utils.DecodePLMN(b[0:3])`, :95. -/
def parsePLMN : P (Bytes × Bytes) := fun s o =>
  s.sub o (o + 3) >>= fun x => decodePLMN x.data >>= fun r => .ok (r, o + 3)

/-- `if l < offset {..}; x = b[offset]; offset++`, e.g. :102-106. -/
def parseOctet : P UInt8 := do
  P.need 0
  P.u8

/-- A length octet and as many octets, copied into a nil slice (that is, dropped), e.g. :102-112. -/
def parseDropped : P UInt8 := do
  let n ← parseOctet
  P.need n.toNat
  let _ ← P.bytes n.toNat
  pure n

/-- `UnmarshalBinary` into a zero value, :88-144. (The last field does not advance `offset`, which nothing reads
afterwards.) -/
def parseP : P TraceInformation := do
  P.minLen 6
  let p ← parsePLMN
  let id ← P.bytes 3
  let n1 ← parseDropped
  let depth ← parseOctet
  let n2 ← parseDropped
  let n3 ← parseDropped
  pure ⟨p.1, p.2, id, n1, [], depth, n2, [], n3, none⟩

/-- `copy(b[0:3], plmn)`, :162-166. -/
def plmnW (mcc mnc : Bytes) : W := fun b o => encodePLMN mcc mnc >>= fun v => W.copy 3 v b o

/-- `MarshalTo`, :156-212. -/
def marshalW (f : TraceInformation) : W :=
  W.minLen 6 ;; plmnW f.mcc f.mnc ;; W.copy 3 f.id ;;
  W.need 0 ;; W.u8 f.eventsLen ;; W.need f.eventsLen.toNat ;; W.copy f.eventsLen.toNat f.events ;;
  W.need 0 ;; W.u8 f.depth ;;
  W.need 0 ;; W.u8 f.ifsLen ;; W.need f.ifsLen.toNat ;; W.copy f.ifsLen.toNat f.ifs ;;
  W.need 0 ;; W.u8 f.ipLen ;; W.need f.ipLen.toNat ;; W.copy f.ipLen.toNat f.ip.val

/-- `MarshalLen`, :215-222. -/
def marshalLen (f : TraceInformation) : Nat :=
  let l := 3 + 3 + 1 + 1 + 1 + 1
  let l := l + f.eventsLen.toNat
  let l := l + f.ifsLen.toNat
  l + f.ipLen.toNat

/-- `ParseTraceInformationFields` :79-85 and `Marshal` :147-153. -/
def codec : Codec TraceInformation := ⟨parseP.run, fun f => f.marshalW.marshal f.marshalLen⟩

/-- What the encoder writes behind the PLMN identity `p`. -/
def enc (p : Bytes) (f : TraceInformation) : Bytes :=
  p ++ (f.id ++ (([f.eventsLen] ++ f.events) ++ ([f.depth] ++ (([f.ifsLen] ++ f.ifs) ++ (([f.ipLen] ++ f.ip.val) ++ [])))))

def Agree (f : TraceInformation) : Prop :=
  f.id.length = 3 ∧ f.events.length = f.eventsLen.toNat ∧ f.ifs.length = f.ifsLen.toNat ∧
  f.ip.val.length = f.ipLen.toNat

theorem enc_length {p : Bytes} (hp : p.length = 3) (f : TraceInformation) (h : f.Agree) :
    (f.enc p).length = f.marshalLen := by
  obtain ⟨h1, h2, h3, h4⟩ := h
  simp only [enc, marshalLen, List.length_append, h1, h2, h3, h4, hp, List.length_cons, List.length_nil]
  omega

theorem emits {p : Bytes} (hp : p.length = 3) (f : TraceInformation) (h : f.Agree)
    (he : encodePLMN f.mcc f.mnc = .ok p) : codec.marshal f = .ok (f.enc p) := by
  show f.marshalW.marshal f.marshalLen = _
  rw [← enc_length hp f h]
  obtain ⟨h1, h2, h3, h4⟩ := h
  have hplmn : W.Emits (plmnW f.mcc f.mnc) p := by
    intro pre n hn
    unfold plmnW
    rw [he, Res.ok_bind]
    exact W.Emits.copy p hp pre n hn
  unfold enc
  simp only [List.append_assoc]
  refine W.Emits.marshal_minLen (by simp [h1, hp]; omega) (W.Emits.seq hplmn (W.Emits.seq (W.Emits.copy _ h1) ?_))
  refine W.Emits.need (Nat.zero_le _) (W.Emits.seq (W.Emits.u8 _) (W.Emits.need (by simp [h2])
    (W.Emits.seq (W.Emits.copy _ h2) ?_)))
  refine W.Emits.need (Nat.zero_le _) (W.Emits.seq (W.Emits.u8 _) ?_)
  refine W.Emits.need (Nat.zero_le _) (W.Emits.seq (W.Emits.u8 _) (W.Emits.need (by simp [h3])
    (W.Emits.seq (W.Emits.copy _ h3) ?_)))
  exact W.Emits.need (Nat.zero_le _) (W.Emits.seq (W.Emits.u8 _) (W.Emits.need (by simp [h4])
    (W.Emits.tail (W.Emits.copy _ h4))))

theorem reads_octet (x : UInt8) : P.Reads parseOctet [x] x := P.Reads.need (Nat.zero_le _) (P.Reads.u8 x)

theorem reads_dropped (n : UInt8) (b : Bytes) (h : b.length = n.toNat) : P.Reads parseDropped ([n] ++ b) n := by
  refine P.Reads.bind (reads_octet n) (P.Reads.need (by omega) ?_)
  exact P.Reads.map (fun _ => n) (P.Reads.bytes b h)

theorem reads_plmn (p : Bytes) (hp : p.length = 3) {r : Bytes × Bytes} (h : decodePLMN p = .ok r) :
    P.Reads parsePLMN p r := by
  intro pre post sp
  have h1 := P.Reads.bytes p hp pre post sp
  unfold P.bytes at h1
  unfold parsePLMN
  cases hx : Slice.sub ⟨pre ++ p ++ post, sp⟩ pre.length (pre.length + 3) with
  | panic => rw [hx] at h1; cases h1
  | err e => rw [hx] at h1; cases h1
  | ok x =>
    rw [hx, Res.ok_bind] at h1
    simp only [Res.ok.injEq, Prod.mk.injEq] at h1
    rw [Res.ok_bind, h1.1, h, Res.ok_bind, hp]

/-- The part up to the trace reference. -/
theorem reads_head (p id : Bytes) (hp : p.length = 3) (hi : id.length = 3) :
    ∃ r, decodePLMN p = .ok r ∧ P.Reads (parsePLMN >>= fun p => P.bytes 3 >>= fun id => (pure (p, id) : P _)) (p ++ id)
      (r, id) := by
  match p, hp with
  | [x, y, z], _ =>
    refine ⟨_, rfl, ?_⟩
    exact P.Reads.bind (reads_plmn _ rfl rfl) (P.Reads.map (fun id => (_, id)) (P.Reads.bytes id hi))

theorem reads (p : Bytes) (hp : p.length = 3) (f : TraceInformation) (h : f.Agree) {r : Bytes × Bytes}
    (hd : decodePLMN p = .ok r) (tail sp : Bytes) :
    codec.parse ⟨f.enc p ++ tail, sp⟩ = .ok ⟨r.1, r.2, f.id, f.eventsLen, [], f.depth, f.ifsLen, [], f.ipLen, none⟩ := by
  obtain ⟨h1, h2, h3, h4⟩ := h
  refine P.Reads.run_minLen (by simp [enc, hp, h1]; omega) ?_ tail sp
  refine P.Reads.bind (reads_plmn p hp hd) ?_
  refine P.Reads.bind (P.Reads.bytes _ h1) ?_
  refine P.Reads.bind (reads_dropped _ _ h2) ?_
  refine P.Reads.bind (reads_octet _) ?_
  refine P.Reads.bind (reads_dropped _ _ h3) ?_
  refine P.Reads.bind (reads_dropped _ _ h4) ?_
  exact P.Reads.pure _

/-! #### Where it panics -/

theorem octet_eq (pre r sp : Bytes) : parseOctet ⟨pre ++ r, sp⟩ pre.length = match r with
    | [] => .panic
    | x :: _ => .ok (x, pre.length + 1) := by
  unfold parseOctet
  rw [P.bind_ok (a := ()) (o' := pre.length) (by unfold P.need; exact if_neg (by simp))]
  unfold P.u8 Slice.idx
  cases r with
  | nil => simp
  | cons x t => simp

/-- Everything a length-prefixed field can do. -/
theorem dropped_eq (pre r sp : Bytes) : parseDropped ⟨pre ++ r, sp⟩ pre.length = match r with
    | [] => .panic
    | n :: t => if t.length < n.toNat then .err .unexpectedEOF else .ok (n, pre.length + 1 + n.toNat) := by
  unfold parseDropped
  have h := octet_eq pre r sp
  cases r with
  | nil => exact P.bind_panic h
  | cons n t =>
    rw [P.bind_ok h]
    simp only
    by_cases c : t.length < n.toNat
    · rw [if_pos c]
      apply P.bind_err
      unfold P.need
      exact if_pos (by simp; omega)
    · rw [if_neg c, P.bind_ok (a := ()) (o' := pre.length + 1)
        (by unfold P.need; exact if_neg (by simp; omega))]
      apply P.bind_ok (a := ((pre ++ n :: t).take (pre.length + 1 + n.toNat)).drop (pre.length + 1))
      unfold P.bytes
      rw [P.sub_data _ _ _ _ (by omega) (by simp; omega)]
      rfl

/-- The bytes end exactly where an octet is to be read: before the events, the depth, the interfaces or the address. -/
inductive Stops : Bytes → Prop
  | events : Stops []
  | depth (n1 : UInt8) (ev : Bytes) : ev.length = n1.toNat → Stops (n1 :: ev)
  | ifs (n1 : UInt8) (ev : Bytes) (d : UInt8) : ev.length = n1.toNat → Stops (n1 :: ev ++ [d])
  | ip (n1 : UInt8) (ev : Bytes) (d n2 : UInt8) (fs : Bytes) : ev.length = n1.toNat → fs.length = n2.toNat →
      Stops (n1 :: ev ++ d :: n2 :: fs)

/-- The decoder behind the trace reference. -/
def parseTail (p : Bytes × Bytes) (id : Bytes) : P TraceInformation := do
  let n1 ← parseDropped
  let depth ← parseOctet
  let n2 ← parseDropped
  let n3 ← parseDropped
  pure ⟨p.1, p.2, id, n1, [], depth, n2, [], n3, none⟩

theorem tail_panic (p : Bytes × Bytes) (id : Bytes) (pre r sp : Bytes) :
    parseTail p id ⟨pre ++ r, sp⟩ pre.length = .panic ↔ Stops r := by
  have adv : ∀ (pre : Bytes) (n : UInt8) (t : Bytes), ¬ t.length < n.toNat →
      pre ++ n :: t = (pre ++ n :: t.take n.toNat) ++ t.drop n.toNat ∧
      pre.length + 1 + n.toNat = (pre ++ n :: t.take n.toNat).length := by
    intro pre n t h
    constructor
    · simp
    · simp; omega
  have stop1 : ∀ {n : UInt8} {t : Bytes}, Stops (n :: t) → n.toNat ≤ t.length := by
    intro n t h
    generalize hg : n :: t = x at h
    cases h with
    | events => cases hg
    | depth n1 ev h1 => cases hg; omega
    | ifs n1 ev d h1 => cases hg; simp; omega
    | ip n1 ev d n2 fs h1 h2 => cases hg; simp; omega
  unfold parseTail
  have h1 := dropped_eq pre r sp
  cases r with
  | nil => exact ⟨fun _ => .events, fun _ => P.bind_panic h1⟩
  | cons n1 t =>
    simp only at h1
    by_cases c1 : t.length < n1.toNat
    · rw [if_pos c1] at h1
      rw [P.bind_err h1]
      exact ⟨fun h => (by cases h), fun h => by have := stop1 h; omega⟩
    rw [if_neg c1] at h1
    rw [P.bind_ok h1]
    obtain ⟨e1, e2⟩ := adv pre n1 t c1
    rw [e1, e2]
    have hev : (t.take n1.toNat).length = n1.toNat := by simp; omega
    generalize hpre1 : pre ++ n1 :: t.take n1.toNat = pre1
    have ht : n1 :: t = n1 :: t.take n1.toNat ++ t.drop n1.toNat := by simp
    rw [ht]
    -- a field of known length determines the rest
    have inj : ∀ {a b a' b' : Bytes}, a.length = a'.length → n1 :: a ++ b = n1 :: a' ++ b' → a = a' ∧ b = b' := by
      intro a b a' b' hl he
      simp only [List.cons_append, List.cons.injEq, true_and] at he
      exact List.append_inj he hl
    generalize t.take n1.toNat = ev at hev ⊢
    generalize t.drop n1.toNat = r2
    clear e1 e2 ht hpre1 h1 c1 t
    have h2 := octet_eq pre1 r2 sp
    cases r2 with
    | nil =>
      rw [P.bind_panic h2, List.append_nil]
      exact ⟨fun _ => .depth n1 ev hev, fun _ => rfl⟩
    | cons d r3 =>
      rw [P.bind_ok h2]
      rw [show pre1 ++ d :: r3 = (pre1 ++ [d]) ++ r3 by simp,
        show pre1.length + 1 = (pre1 ++ [d]).length by simp]
      have h3 := dropped_eq (pre1 ++ [d]) r3 sp
      have back : Stops (n1 :: ev ++ d :: r3) → r3 = [] ∨ ∃ n2 fs, r3 = n2 :: fs ∧ fs.length = n2.toNat := by
        intro h
        generalize hg : n1 :: ev ++ d :: r3 = x at h
        cases h with
        | events => cases hg
        | depth n1' ev' h1 =>
          simp only [List.cons_append, List.cons.injEq] at hg
          obtain ⟨rfl, hg⟩ := hg
          have := congrArg List.length hg
          simp at this
          omega
        | ifs n1' ev' d' h1 =>
          simp only [List.cons_append, List.cons.injEq] at hg
          obtain ⟨rfl, hg⟩ := hg
          obtain ⟨_, hg⟩ := List.append_inj hg (by omega)
          cases hg
          exact Or.inl rfl
        | ip n1' ev' d' n2 fs h1 hl =>
          simp only [List.cons_append, List.cons.injEq] at hg
          obtain ⟨rfl, hg⟩ := hg
          obtain ⟨_, hg⟩ := List.append_inj hg (by omega)
          cases hg
          exact Or.inr ⟨n2, fs, rfl, hl⟩
      cases r3 with
      | nil =>
        rw [P.bind_panic h3]
        exact ⟨fun _ => .ifs n1 ev d hev, fun _ => rfl⟩
      | cons n2 t =>
        simp only at h3
        by_cases c2 : t.length < n2.toNat
        · rw [if_pos c2] at h3
          rw [P.bind_err h3]
          refine ⟨fun h => (by cases h), fun h => ?_⟩
          rcases back h with h | ⟨n2', fs, h, hl⟩
          · cases h
          · cases h; omega
        rw [if_neg c2] at h3
        rw [P.bind_ok h3]
        obtain ⟨e1, e2⟩ := adv (pre1 ++ [d]) n2 t c2
        rw [e1, e2]
        have h4 := dropped_eq ((pre1 ++ [d]) ++ n2 :: t.take n2.toNat) (t.drop n2.toNat) sp
        cases hr : t.drop n2.toNat with
        | nil =>
          rw [hr] at h4
          rw [P.bind_panic h4]
          have hl : t.length = n2.toNat := by
            have := congrArg List.length hr
            simp at this
            omega
          exact ⟨fun _ => .ip n1 ev d n2 t hev hl, fun _ => rfl⟩
        | cons n3 r5 =>
          rw [hr] at h4
          simp only at h4
          have hno : ¬ Stops (n1 :: ev ++ d :: n2 :: t) := by
            intro h
            rcases back h with h | ⟨n2', fs, h, hl⟩
            · cases h
            · cases h
              have := congrArg List.length hr
              simp at this
              omega
          by_cases c3 : r5.length < n3.toNat
          · rw [if_pos c3] at h4
            rw [P.bind_err h4]
            exact ⟨fun h => (by cases h), fun h => absurd h hno⟩
          · rw [if_neg c3] at h4
            rw [P.bind_ok h4]
            exact ⟨fun h => (by cases h), fun h => absurd h hno⟩

theorem parse_eq (p id r sp : Bytes) (hp : p.length = 3) (hi : id.length = 3) : ∃ x,
    codec.parse ⟨(p ++ id) ++ r, sp⟩ = match parseTail x id ⟨(p ++ id) ++ r, sp⟩ (p ++ id).length with
      | .ok (a, _) => .ok a
      | .err e => .err e
      | .panic => .panic := by
  obtain ⟨x, hx⟩ : ∃ x, decodePLMN p = .ok x := by
    match p, hp with
    | [x, y, z], _ => exact ⟨_, rfl⟩
  refine ⟨x, ?_⟩
  have e0 : codec.parse ⟨(p ++ id) ++ r, sp⟩
      = P.run (parsePLMN >>= fun p => P.bytes 3 >>= fun id => parseTail p id) ⟨(p ++ id) ++ r, sp⟩ :=
    P.run_minLen_eq (n := 6) (by simp; omega)
  rw [e0]
  have h1 := reads_plmn p hp hx [] (id ++ r) sp
  have h2 := P.Reads.bytes id hi p r sp
  simp only [List.nil_append, List.length_nil, Nat.zero_add] at h1
  rw [← List.append_assoc] at h1
  have e : (parsePLMN >>= fun p => P.bytes 3 >>= fun id => parseTail p id) ⟨(p ++ id) ++ r, sp⟩ 0
      = parseTail x id ⟨(p ++ id) ++ r, sp⟩ (p ++ id).length := by
    rw [P.bind_ok h1, P.bind_ok h2, List.length_append]
  rw [← e]
  unfold P.run
  cases (parsePLMN >>= fun p => P.bytes 3 >>= fun id => parseTail p id) ⟨(p ++ id) ++ r, sp⟩ 0 <;> rfl

theorem loc_plmn {k : Nat} : P.Loc (k + 3) parsePLMN k := by
  intro d sp o ho
  constructor
  · intro sp'
    unfold parsePLMN
    rw [P.sub_data _ _ _ _ (by omega) (by omega), P.sub_data _ _ _ _ (by omega) (by omega)]
    rfl
  · intro a o' h
    unfold parsePLMN at h
    rw [P.sub_data _ _ _ _ (by omega) (by omega), Res.ok_bind] at h
    cases hx : decodePLMN ((d.take (o + 3)).drop o) with
    | panic => simp only [hx] at h; cases h
    | err e => simp only [hx] at h; cases h
    | ok x => simp only [hx, Res.ok_bind, Res.ok.injEq, Prod.mk.injEq] at h; omega

theorem loc_octet {k : Nat} : P.Loc k parseOctet 0 := P.Loc.bind (P.Good.need 0).loc fun _ => P.Loc.u8

theorem loc_dropped {k : Nat} : P.Loc k parseDropped 0 :=
  P.Loc.bind loc_octet fun n => P.Loc.bind (P.Good.need n.toNat).loc fun _ =>
    P.Loc.bind (m := 0) (P.Loc.weaken (P.Good.bytes (k := 0) n.toNat).loc (by omega) (Nat.le_refl _)) fun _ =>
    (P.Good.pure _ (Nat.le_refl _)).loc

theorem loc (d sp sp' : Bytes) : codec.parse ⟨d, sp⟩ = codec.parse ⟨d, sp'⟩ :=
  P.Loc.run (n := 6) (m := 0) (P.Loc.bind (loc_plmn (k := 3)) fun _ =>
    P.Loc.bind (P.Good.bytes (k := 0) 3).loc fun _ => P.Loc.bind loc_dropped fun _ => P.Loc.bind loc_octet fun _ =>
    P.Loc.bind loc_dropped fun _ => P.Loc.bind loc_dropped fun _ => (P.Good.pure _ (Nat.le_refl _)).loc) d sp sp'

end TraceInformation

/-! ### MACAddressesDetected and MACAddressesRemoved

The two files are the same up to names; the line numbers are those of /repo/ie/mac-address-detected.go
(/repo/ie/mac-address-removed.go: 11 lines earlier). -/

/-- `MACAddressesDetectedFields`, :75-82 (`MACAddressesRemovedFields`, /repo/ie/mac-address-removed.go:64-71). -/
structure MACAddresses where
  n : UInt8
  macs : List Bytes
  ctagLen : UInt8
  ctag : Bytes
  stagLen : UInt8
  stag : Bytes
  deriving DecidableEq

namespace MACAddresses

/-- `NewMACAddressesDetectedFields`, :85-95, given the payloads of its element arguments; `none` stands for a nil
element, whose payload cannot be read: a panic. -/
def new (ctag stag : Option Bytes) (macs : List Bytes) : Res MACAddresses :=
  match ctag, stag with
  | some ct, some st =>
    .ok ⟨UInt8.ofNat macs.length, macs, UInt8.ofNat ct.length, ct, UInt8.ofNat st.length, st⟩
  | _, _ => .panic

/-- The loop of `UnmarshalBinary`, :116-122, `k` rounds of it. -/
def parseMacs : Nat → P (List Bytes)
  | 0 => pure []
  | k + 1 => do
    let m ← P.field 6
    let r ← parseMacs k
    pure (m :: r)

/-- A tag, :124-132: `offset` stays, and `copy` into a nil slice copies nothing. -/
def parseTag : P UInt8 := do
  P.need 0
  let n ← P.peek 0
  P.need n.toNat
  let _ ← P.peekBytes n.toNat
  pure n

/-- `UnmarshalBinary` into a zero value, :107-145. The loop condition is `i <= N`: one round more than there are
addresses. -/
def parseP : P MACAddresses := do
  P.minLen 1
  let n ← P.u8
  let macs ← parseMacs (n.toNat + 1)
  let ct ← parseTag
  let st ← parseTag
  pure ⟨n, macs, ct, [], st, []⟩

/-- The loop of `MarshalTo`, :166-169. -/
def macsW : List Bytes → W
  | [] => W.nop
  | m :: r => W.copy 6 m ;; macsW r

/-- `MarshalTo`, :157-181. -/
def marshalW (f : MACAddresses) : W :=
  W.minLen 1 ;; W.u8 f.n ;; macsW f.macs ;; W.u8 f.ctagLen ;; W.copy f.ctagLen.toNat f.ctag ;;
  W.u8 f.stagLen ;; W.copy f.stagLen.toNat f.stag

/-- `MarshalLen`, :184-191. -/
def marshalLen (f : MACAddresses) : Nat :=
  let l := 3
  let l := l + f.n.toNat * 6
  let l := l + f.ctagLen.toNat
  l + f.stagLen.toNat

/-- `ParseMACAddressesDetectedFields` :98-104 and `Marshal` :148-154. -/
def codec : Codec MACAddresses := ⟨parseP.run, fun f => f.marshalW.marshal f.marshalLen⟩

/-- `NewMACAddressesDetected`, :13-22, up to the payload. -/
def build (ctag stag : Option Bytes) (macs : List Bytes) : Res Bytes := new ctag stag macs >>= codec.marshal

def enc (f : MACAddresses) : Bytes :=
  [f.n] ++ (f.macs.flatten ++ ([f.ctagLen] ++ (f.ctag ++ ([f.stagLen] ++ (f.stag ++ [])))))

def Agree (f : MACAddresses) : Prop :=
  f.macs.length = f.n.toNat ∧ (∀ m ∈ f.macs, m.length = 6) ∧ f.ctag.length = f.ctagLen.toNat ∧
  f.stag.length = f.stagLen.toNat

theorem flatten_length {macs : List Bytes} (h : ∀ m ∈ macs, m.length = 6) : macs.flatten.length = macs.length * 6 := by
  induction macs with
  | nil => rfl
  | cons m r ih =>
    rw [List.flatten_cons, List.length_append, h m (List.mem_cons_self ..),
      ih fun x hx => h x (List.mem_cons_of_mem _ hx), List.length_cons]
    omega

theorem enc_length (f : MACAddresses) (h : f.Agree) : f.enc.length = f.marshalLen := by
  obtain ⟨h1, h2, h3, h4⟩ := h
  simp only [enc, marshalLen, List.length_append, flatten_length h2, h1, h3, h4, List.length_cons, List.length_nil]
  omega

theorem emits_macs {macs : List Bytes} (h : ∀ m ∈ macs, m.length = 6) : W.Emits (macsW macs) macs.flatten := by
  induction macs with
  | nil => exact W.Emits.nop
  | cons m r ih =>
    rw [List.flatten_cons]
    exact W.Emits.seq (W.Emits.copy m (h m (List.mem_cons_self ..))) (ih fun x hx => h x (List.mem_cons_of_mem _ hx))

theorem emits (f : MACAddresses) (h : f.Agree) : codec.marshal f = .ok f.enc := by
  show f.marshalW.marshal f.marshalLen = _
  rw [← enc_length f h]
  obtain ⟨h1, h2, h3, h4⟩ := h
  exact W.Emits.marshal_minLen (by simp [enc]) (W.Emits.seq (W.Emits.u8 _) (W.Emits.seq (emits_macs h2)
    (W.Emits.seq (W.Emits.u8 _) (W.Emits.seq (W.Emits.copy _ h3) (W.Emits.seq (W.Emits.u8 _)
      (W.Emits.tail (W.Emits.copy _ h4)))))))

/-- The loop on any bytes. -/
theorem macs_eq (k : Nat) : ∀ (pre r sp : Bytes), parseMacs k ⟨pre ++ r, sp⟩ pre.length =
    if r.length < 6 * k then .err .unexpectedEOF
    else .ok ((List.range k).map (fun i => (r.drop (6 * i)).take 6), pre.length + 6 * k) := by
  induction k with
  | zero => intro pre r sp; rw [if_neg (by omega)]; rfl
  | succ k ih =>
    intro pre r sp
    unfold parseMacs P.field
    by_cases c : r.length < 6
    · rw [if_pos (by omega)]
      apply P.bind_err
      apply P.bind_err
      unfold P.need
      exact if_pos (by simp; omega)
    · have h6 : (r.take 6).length = 6 := by simp; omega
      have h1 := P.Reads.field (r.take 6) h6 pre (r.drop 6) sp
      rw [List.append_assoc, List.take_append_drop] at h1
      unfold P.field at h1
      rw [P.bind_ok h1]
      have h2 := ih (pre ++ r.take 6) (r.drop 6) sp
      rw [List.append_assoc, List.take_append_drop, List.length_append] at h2
      by_cases c2 : r.length < 6 * (k + 1)
      · rw [if_pos c2]
        rw [if_pos (by simp; omega)] at h2
        exact P.bind_err h2
      · rw [if_neg c2]
        rw [if_neg (by simp; omega)] at h2
        rw [P.bind_ok h2]
        show Res.ok (_ :: _, _) = _
        rw [List.range_succ_eq_map, List.map_cons, List.map_map]
        simp only [Nat.mul_zero, List.drop_zero]
        congr 2
        · congr 1
          apply List.map_congr_left
          intro i _
          simp only [Function.comp, List.drop_drop]
          congr 2
          omega
        · omega

/-- What a tag can do. -/
theorem tag_eq (pre r sp : Bytes) : parseTag ⟨pre ++ r, sp⟩ pre.length = match r with
    | [] => .panic
    | n :: t => if t.length + 1 < n.toNat then .err .unexpectedEOF else .ok (n, pre.length) := by
  unfold parseTag
  rw [P.bind_ok (a := ()) (o' := pre.length) (by unfold P.need; exact if_neg (by simp))]
  cases r with
  | nil => apply P.bind_panic; unfold P.peek Slice.idx; simp
  | cons n t =>
    rw [P.bind_ok (a := n) (o' := pre.length) (by unfold P.peek Slice.idx; simp)]
    by_cases c : t.length + 1 < n.toNat
    · simp only
      rw [if_pos c]
      apply P.bind_err
      unfold P.need
      exact if_pos (by simp; omega)
    · simp only
      rw [if_neg c, P.bind_ok (a := ()) (o' := pre.length) (by unfold P.need; exact if_neg (by simp; omega))]
      apply P.bind_ok (a := ((pre ++ n :: t).take (pre.length + n.toNat)).drop pre.length)
      unfold P.peekBytes
      rw [P.sub_data _ _ _ _ (by omega) (by simp; omega)]
      rfl

/-- All that the decoder does. -/
theorem parse_eq (n : UInt8) (r sp : Bytes) : codec.parse ⟨n :: r, sp⟩ =
    if r.length < 6 * (n.toNat + 1) then .err .unexpectedEOF
    else match r.drop (6 * (n.toNat + 1)) with
      | [] => .panic
      | t :: rest => if rest.length + 1 < t.toNat then .err .unexpectedEOF
        else .ok ⟨n, (List.range (n.toNat + 1)).map (fun i => (r.drop (6 * i)).take 6), t, [], t, []⟩ := by
  rw [show codec.parse ⟨n :: r, sp⟩ = _ from P.run_minLen_eq (n := 1) (by simp)]
  unfold P.run
  rw [P.bind_ok (a := n) (o' := 1) (by rfl)]
  have h1 := macs_eq (n.toNat + 1) [n] r sp
  simp only [List.singleton_append, List.length_singleton] at h1
  by_cases c : r.length < 6 * (n.toNat + 1)
  · rw [if_pos c] at h1 ⊢
    rw [P.bind_err h1]
  · rw [if_neg c] at h1 ⊢
    rw [P.bind_ok h1]
    have hs : n :: r = (n :: r.take (6 * (n.toNat + 1))) ++ r.drop (6 * (n.toNat + 1)) := by simp
    have hl : 1 + 6 * (n.toNat + 1) = (n :: r.take (6 * (n.toNat + 1))).length := by simp; omega
    have h2 := tag_eq (n :: r.take (6 * (n.toNat + 1))) (r.drop (6 * (n.toNat + 1))) sp
    rw [← hs, ← hl] at h2
    cases hr : r.drop (6 * (n.toNat + 1)) with
    | nil => rw [hr] at h2; rw [P.bind_panic h2]
    | cons t rest =>
      rw [hr] at h2
      simp only at h2 ⊢
      by_cases c2 : rest.length + 1 < t.toNat
      · rw [if_pos c2] at h2 ⊢
        rw [P.bind_err h2]
      · rw [if_neg c2] at h2 ⊢
        rw [P.bind_ok h2, P.bind_ok h2]
        rfl

/-! #### Filling a buffer -/

/-- `w` advances by `k` octets where there is room for them, and panics where there is not. -/
def _root_.Pfcp.W.Fills (w : W) (k : Nat) : Prop := ∀ (d : Bytes) (o : Nat), o ≤ d.length →
  if o + k ≤ d.length then ∃ d' : Bytes, w ⟨d, []⟩ o = .ok (⟨d', []⟩, o + k) ∧ d'.length = d.length
  else w ⟨d, []⟩ o = .panic

theorem fills_nop : W.Fills W.nop 0 := by
  intro d o h
  rw [if_pos (by omega)]
  exact ⟨d, rfl, rfl⟩

theorem fills_seq {p q : W} {a b : Nat} (hp : W.Fills p a) (hq : W.Fills q b) : W.Fills (p ;; q) (a + b) := by
  intro d o h
  have h1 := hp d o h
  unfold W.seq
  by_cases c1 : o + a ≤ d.length
  · rw [if_pos c1] at h1
    obtain ⟨d1, e1, l1⟩ := h1
    rw [e1, Res.ok_bind]
    have h2 := hq d1 (o + a) (by omega)
    by_cases c2 : o + (a + b) ≤ d.length
    · rw [if_pos c2]
      rw [if_pos (by omega)] at h2
      obtain ⟨d2, e2, l2⟩ := h2
      exact ⟨d2, by simp only; rw [e2, Nat.add_assoc], by omega⟩
    · rw [if_neg c2]
      rw [if_neg (by omega)] at h2
      exact h2
  · rw [if_neg c1] at h1
    rw [if_neg (by omega), h1]
    rfl

theorem fills_u8 (v : UInt8) : W.Fills (W.u8 v) 1 := by
  intro d o h
  unfold W.u8 Slice.set
  by_cases c : o < d.length
  · rw [if_pos (by omega), if_pos c]
    exact ⟨_, rfl, by simp⟩
  · rw [if_neg (by omega), if_neg c]
    rfl

theorem fills_copy (k : Nat) (bs : Bytes) : W.Fills (W.copy k bs) k := by
  intro d o h
  unfold W.copy Slice.copyAt Slice.cap
  simp only [List.length_nil]
  by_cases c : o + k ≤ d.length
  · rw [if_pos c, if_pos (by omega), Res.ok_bind]
    refine ⟨_, by unfold Slice.overwrite; simp only [List.append_nil]; congr 2
                  ; exact congrArg _ (List.drop_of_length_le (by simp; omega)), ?_⟩
    simp
    omega
  · rw [if_neg c, if_neg (by omega)]
    rfl

theorem fills_macs (macs : List Bytes) : W.Fills (macsW macs) (6 * macs.length) := by
  induction macs with
  | nil => exact fills_nop
  | cons m r ih =>
    rw [List.length_cons, show 6 * (r.length + 1) = 6 + 6 * r.length by omega]
    exact fills_seq (fills_copy 6 m) ih

/-- `Marshal` succeeds exactly if `MarshalLen` is large enough, and panics otherwise. -/
theorem marshal_room (f : MACAddresses) :
    if 3 + 6 * f.macs.length + f.ctagLen.toNat + f.stagLen.toNat ≤ f.marshalLen then ∃ w, codec.marshal f = .ok w
    else codec.marshal f = .panic := by
  have h := fills_seq (fills_u8 f.n) (fills_seq (fills_macs f.macs) (fills_seq (fills_u8 f.ctagLen)
    (fills_seq (fills_copy f.ctagLen.toNat f.ctag) (fills_seq (fills_u8 f.stagLen)
      (fills_copy f.stagLen.toNat f.stag))))) (List.replicate f.marshalLen 0) 0 (Nat.zero_le _)
  have hm : 1 ≤ f.marshalLen := by unfold marshalLen; simp only; omega
  have e : codec.marshal f = (((W.u8 f.n ;; macsW f.macs ;; W.u8 f.ctagLen ;; W.copy f.ctagLen.toNat f.ctag ;;
      W.u8 f.stagLen ;; W.copy f.stagLen.toNat f.stag) ⟨List.replicate f.marshalLen 0, []⟩ 0
        >>= fun r => .ok r.1) >>= fun s : Slice => .ok s.data) := by
    show W.marshal (W.minLen 1 ;; _) _ = _
    unfold W.marshal W.run Slice.make
    conv => lhs; unfold W.seq W.minLen
    simp only
    rw [if_neg (by simp; omega), Res.ok_bind]
    rfl
  rw [e]
  simp only [List.length_replicate] at h
  by_cases c : 3 + 6 * f.macs.length + f.ctagLen.toNat + f.stagLen.toNat ≤ f.marshalLen
  · rw [if_pos c]
    rw [if_pos (by omega)] at h
    obtain ⟨d', e', _⟩ := h
    exact ⟨d', by rw [e']; rfl⟩
  · rw [if_neg c]
    rw [if_neg (by omega)] at h
    rw [h]
    rfl

end MACAddresses
end Fields
end Pfcp
