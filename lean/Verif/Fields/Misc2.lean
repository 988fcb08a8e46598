/-
OuterHeaderCreation, PMFAddressInformation, RedirectInformation, UserID.
-/
import Verif.Fields.Misc
import Verif.Text.Props

namespace Pfcp

namespace W

/-- `binary.BigEndian.PutUintN(b[offset:offset+n], v)` without advancing. -/
def putStay (bs : Bytes) : W := fun s o => s.putAt o (o + bs.length) bs >>= fun s => .ok (s, o)

/-- Like `Emits`, wherever `offset` ends up. -/
def Ends (w : W) (bs : Bytes) : Prop :=
  ∀ pre n, bs.length ≤ n → ∃ o', w ⟨pre ++ List.replicate n 0, []⟩ pre.length
    = .ok (⟨pre ++ bs ++ List.replicate (n - bs.length) 0, []⟩, o')

theorem Emits.ends {w : W} {bs : Bytes} (h : Emits w bs) : Ends w bs := fun pre n hn => ⟨_, h pre n hn⟩

theorem Emits.seqEnd {p q : W} {a b : Bytes} (hp : Emits p a) (hq : Ends q b) : Ends (p ;; q) (a ++ b) := by
  intro pre n h
  rw [List.length_append] at h
  have h1 := hp pre n (by omega)
  obtain ⟨o', h2⟩ := hq (pre ++ a) (n - a.length) (by omega)
  refine ⟨o', ?_⟩
  unfold W.seq
  rw [h1, Res.ok_bind]
  simp only
  rw [← List.length_append, h2, List.length_append]
  simp only [List.append_assoc]
  rw [show n - a.length - b.length = n - (a.length + b.length) by omega]

theorem Ends.marshal_minLen {w : W} {bs : Bytes} {n : Nat} (hn : n ≤ bs.length) (h : Ends w bs) :
    (W.minLen n ;; w).marshal bs.length = .ok bs := by
  have h1 : (W.minLen n ;; w) (Slice.make bs.length) 0 = w (Slice.make bs.length) 0 := by
    unfold W.seq W.minLen Slice.make
    simp only [List.length_replicate]
    rw [if_neg (by omega), Res.ok_bind]
  obtain ⟨o', h2⟩ := h [] bs.length (Nat.le_refl _)
  simp only [List.nil_append, List.length_nil, Nat.sub_self, List.replicate_zero, List.append_nil] at h2
  unfold W.marshal W.run
  rw [h1]
  unfold Slice.make
  rw [h2]
  rfl

theorem Ends.putStay (bs : Bytes) : Ends (W.putStay bs) bs := by
  intro pre n h
  have := Emits.put bs pre n h
  unfold W.put at this
  unfold W.putStay
  cases hs : Slice.putAt ⟨pre ++ List.replicate n 0, []⟩ pre.length (pre.length + bs.length) bs with
  | panic => rw [hs] at this; cases this
  | err e => rw [hs] at this; cases this
  | ok s =>
    rw [hs] at this
    cases this
    exact ⟨_, rfl⟩

/-- Overwriting a part of the buffer by as many bytes. -/
theorem overwrite_mid (pre mid post bs : Bytes) (h : mid.length = bs.length) :
    Slice.overwrite ⟨pre ++ mid ++ post, []⟩ pre.length bs = ⟨pre ++ bs ++ post, []⟩ := by
  unfold Slice.overwrite
  simp only [List.append_nil]
  have e1 : (pre ++ mid ++ post).take pre.length = pre := by simp
  have e2 : (pre ++ mid ++ post).drop (pre.length + bs.length) = post := by
    rw [← h, ← List.length_append, List.drop_left]
  rw [e1, e2]
  have e3 : (pre ++ bs ++ post).length = (pre ++ mid ++ post).length := by simp; omega
  rw [List.take_of_length_le (by omega), List.drop_of_length_le (by omega)]

/-- What is written without advancing is overwritten by what follows, if that is longer. -/
theorem Emits.over (a b : Bytes) {n : Nat} (hb : b.length = n) (hl : a.length ≤ n) : Emits (W.putStay a ;; W.copy n b) b := by
  subst hb
  intro pre n h
  have h1 := overwrite_zero pre n a (by omega)
  unfold W.seq W.putStay Slice.putAt Slice.cap
  simp only [List.length_append, List.length_replicate, List.length_nil]
  rw [if_pos (by omega), Res.ok_bind, Res.ok_bind, h1]
  simp only
  unfold W.copy Slice.copyAt Slice.cap
  simp only [List.length_append, List.length_replicate, List.length_nil]
  rw [if_pos (by omega), Res.ok_bind, List.take_of_length_le (by omega)]
  have e : List.replicate (n - a.length) (0 : UInt8)
      = List.replicate (b.length - a.length) 0 ++ List.replicate (n - b.length) 0 := by
    rw [List.replicate_append_replicate]; congr 1; omega
  rw [e, show pre ++ a ++ (List.replicate (b.length - a.length) 0 ++ List.replicate (n - b.length) 0)
    = pre ++ (a ++ List.replicate (b.length - a.length) 0) ++ List.replicate (n - b.length) 0 by simp,
    overwrite_mid _ _ _ _ (by simp; omega)]

end W

namespace Fields

/-! ### OuterHeaderCreation -/

/-- `OuterHeaderCreationFields`, /repo/ie/outer-header-creation.go:302-310. -/
structure OuterHeaderCreation where
  desc : UInt16
  teid : UInt32
  v4 : IP
  v6 : IP
  port : UInt16
  ctag : UInt32
  stag : UInt32
  deriving DecidableEq

namespace OuterHeaderCreation

/-- `uint8((desc & 0xff00) >> 8)`, e.g. :316. -/
def hiOctet (desc : UInt16) : UInt8 := ((desc &&& 0xff00) >>> 8).toUInt8
/-- `uint8(desc & 0xff)`, :397. -/
def loOctet (desc : UInt16) : UInt8 := (desc &&& 0xff).toUInt8

/-- `HasTEID`, :498-504. -/
def hasTEID (o : UInt8) : Bool := has1stBit o || has2ndBit o
/-- `HasIPv4`, :507-513. -/
def hasIPv4 (o : UInt8) : Bool := has1stBit o || has3rdBit o || has5thBit o
/-- `HasIPv6`, :516-522. -/
def hasIPv6 (o : UInt8) : Bool := has2ndBit o || has4thBit o || has6thBit o
/-- `HasPortNumber`, :525-531. -/
def hasPort (o : UInt8) : Bool := has3rdBit o || has4thBit o
/-- `HasCTag`, :534-540. -/
def hasCTag (o : UInt8) : Bool := has7thBit o
/-- `HasSTag`, :543-549. -/
def hasSTag (o : UInt8) : Bool := has8thBit o

/-- `NewOuterHeaderCreationFields`, :313-343. `net.ParseIP` is outside the model: the address arguments are its
results. -/
def new (desc : UInt16) (teid : UInt32) (v4 v6 : IP) (port : UInt16) (ctag stag : UInt32) : OuterHeaderCreation :=
  let oct5 := hiOctet desc
  { desc := desc
    teid := if hasTEID oct5 then teid else 0
    v4 := if hasIPv4 oct5 then v4.conv4 else none
    v6 := if hasIPv6 oct5 then v6.conv16 else none
    port := if hasPort oct5 then port else 0
    ctag := if hasCTag oct5 then ctag else 0
    stag := if hasSTag oct5 then stag else 0 }

/-- `binary.BigEndian.Uint32(b[offset : offset+3])` behind its length check, :398-402: the three-byte slice is too
short for `Uint32`, which panics. -/
def parseTag : P UInt32 := do
  P.need 3
  let _ ← P.bytes 3
  P.boom

/-- The description and its first octet, :361-364. -/
def parseDesc : P (UInt8 × UInt16) := do
  let oct5 ← P.peek 0
  let desc ← P.u16
  pure (oct5, desc)

/-- `UnmarshalBinary` into a zero value, :355-413. -/
def parseP : P OuterHeaderCreation := do
  P.minLen 2
  let (oct5, desc) ← parseDesc
  let teid ← P.opt (hasTEID oct5) P.f32 0
  let v4 ← P.opt (hasIPv4 oct5) (P.ip 4) none
  let v6 ← P.opt (hasIPv6 oct5) (P.ip 16) none
  let port ← P.opt (hasPort oct5) P.f16 0
  let ctag ← P.opt (has7thBit (loOctet desc)) parseTag 0
  let stag ← P.opt (has8thBit (loOctet desc)) parseTag 0
  pure ⟨desc, teid, v4, v6, port, ctag, stag⟩

/-- The low three octets of a tag, `p[1:4]`, :456-458. -/
def tag24 (t : UInt32) : Bytes := (be32 t).drop 1

/-- The end of `MarshalTo`, :451-466; the port does not advance `offset`, nor does the S-TAG. -/
def marshalEnd (f : OuterHeaderCreation) : W :=
  W.opt (hasPort (hiOctet f.desc)) (W.putStay (be16 f.port)) ;;
  W.opt (hasCTag (hiOctet f.desc)) (W.copy 3 (tag24 f.ctag)) ;;
  W.opt (hasSTag (hiOctet f.desc)) (W.copy 3 (tag24 f.stag))

/-- `MarshalTo`, :425-469. -/
def marshalW (f : OuterHeaderCreation) : W :=
  W.minLen 2 ;; W.put (be16 f.desc) ;;
  W.opt (hasTEID (hiOctet f.desc)) (W.put (be32 f.teid)) ;;
  W.opt (hasIPv4 (hiOctet f.desc)) (W.copy 4 f.v4.val) ;;
  W.opt (hasIPv6 (hiOctet f.desc)) (W.copy 16 f.v6.val) ;;
  marshalEnd f

/-- `MarshalLen`, :472-495. -/
def marshalLen (f : OuterHeaderCreation) : Nat :=
  let l := 2
  let l := if hasTEID (hiOctet f.desc) then l + 4 else l
  let l := if hasIPv4 (hiOctet f.desc) then l + 4 else l
  let l := if hasIPv6 (hiOctet f.desc) then l + 16 else l
  let l := if hasPort (hiOctet f.desc) then l + 2 else l
  let l := if hasCTag (hiOctet f.desc) then l + 3 else l
  if hasSTag (hiOctet f.desc) then l + 3 else l

/-- `ParseOuterHeaderCreationFields` :346-352 and `Marshal` :416-422. -/
def codec : Codec OuterHeaderCreation := ⟨parseP.run, fun f => f.marshalW.marshal f.marshalLen⟩

/-- What the encoder writes, up to the addresses. -/
def head (f : OuterHeaderCreation) : Bytes :=
  be16 f.desc ++ ((if hasTEID (hiOctet f.desc) then be32 f.teid else []) ++ (f.v4.val ++ f.v6.val))
/-- The rest: a tag overwrites the port, and the two octets meant for the port stay zero at the end. -/
def tail (f : OuterHeaderCreation) : Bytes :=
  let p := hasPort (hiOctet f.desc)
  let c := hasCTag (hiOctet f.desc)
  let s := hasSTag (hiOctet f.desc)
  if c || s then
    (if c then tag24 f.ctag else []) ++ ((if s then tag24 f.stag else []) ++ (if p then [0, 0] else []))
  else if p then be16 f.port else []
def enc (f : OuterHeaderCreation) : Bytes := f.head ++ f.tail

/-- The addresses are those announced. -/
def Agree (f : OuterHeaderCreation) : Prop :=
  (hasIPv4 (hiOctet f.desc) = f.v4.isSome ∧ f.v4.Len 4) ∧ (hasIPv6 (hiOctet f.desc) = f.v6.isSome ∧ f.v6.Len 16)

theorem tag24_length (t : UInt32) : (tag24 t).length = 3 := by simp [tag24]

theorem tail_length (f : OuterHeaderCreation) : f.tail.length = (if hasPort (hiOctet f.desc) then 2 else 0) +
    (if hasCTag (hiOctet f.desc) then 3 else 0) + (if hasSTag (hiOctet f.desc) then 3 else 0) := by
  unfold tail
  cases hasPort (hiOctet f.desc) <;> cases hasCTag (hiOctet f.desc) <;> cases hasSTag (hiOctet f.desc) <;>
    simp [tag24_length]

theorem head_length (f : OuterHeaderCreation) (h : f.Agree) : f.head.length = 2 +
    (if hasTEID (hiOctet f.desc) then 4 else 0) + (if hasIPv4 (hiOctet f.desc) then 4 else 0) +
    (if hasIPv6 (hiOctet f.desc) then 16 else 0) := by
  obtain ⟨⟨h1, h2⟩, h3, h4⟩ := h
  simp only [head, List.length_append, h2.val, h4.val, apply_ite List.length, be16_length, be32_length,
    List.length_nil, h1, h3]
  omega

theorem enc_length (f : OuterHeaderCreation) (h : f.Agree) : f.enc.length = f.marshalLen := by
  simp only [enc, marshalLen, List.length_append, head_length f h, tail_length, ite_len]
  omega

theorem seq_assoc (p q r : W) : ((p ;; q) ;; r) = (p ;; q ;; r) := by
  funext s o
  show Res.bind (Res.bind (p s o) fun r => q r.1 r.2) (fun x => r x.1 x.2) = Res.bind (p s o) fun x =>
    Res.bind (q x.1 x.2) fun y => r y.1 y.2
  cases p s o <;> rfl
theorem nop_seq (p : W) : (W.nop ;; p) = p := by funext s o; rfl

theorem ends_zeros {w : W} {a : Bytes} (h : W.Emits w a) (k : Nat) : W.Ends w (a ++ List.replicate k 0) := by
  intro pre n hn
  simp only [List.length_append, List.length_replicate] at hn ⊢
  refine ⟨pre.length + a.length, ?_⟩
  rw [h pre n (by omega)]
  have e : List.replicate (n - a.length) (0 : UInt8) = List.replicate k 0 ++ List.replicate (n - (a.length + k)) 0 := by
    rw [List.replicate_append_replicate]; congr 1; omega
  rw [e]
  simp only [List.append_assoc]

theorem emits_end (f : OuterHeaderCreation) : W.Ends f.marshalEnd f.tail := by
  unfold marshalEnd tail
  have hc := W.Emits.copy (tag24 f.ctag) (tag24_length _)
  have hs := W.Emits.copy (tag24 f.stag) (tag24_length _)
  have oc := W.Emits.over (be16 f.port) (tag24 f.ctag) (tag24_length _) (by simp)
  have os := W.Emits.over (be16 f.port) (tag24 f.stag) (tag24_length _) (by simp)
  cases hasPort (hiOctet f.desc) <;> cases hasCTag (hiOctet f.desc) <;> cases hasSTag (hiOctet f.desc) <;>
    simp only [W.opt, if_true, if_false, Bool.false_eq_true, nop_seq, Bool.or_false, Bool.or_true, Bool.or_self,
      List.nil_append, List.append_nil]
  · exact W.Emits.nop.ends
  · exact hs.ends
  · simpa using (W.Emits.seq hc W.Emits.nop).ends
  · exact (W.Emits.seq hc hs).ends
  · intro pre n h
    obtain ⟨o', h1⟩ := W.Ends.putStay (be16 f.port) pre n h
    refine ⟨o', ?_⟩
    unfold W.seq W.nop
    rw [h1]
    rfl
  · exact ends_zeros os 2
  · have := ends_zeros (W.Emits.seq oc W.Emits.nop) 2
    rw [seq_assoc, List.append_nil] at this
    exact this
  · have := ends_zeros (W.Emits.seq oc hs) 2
    rw [seq_assoc, List.append_assoc] at this
    exact this

theorem emits (f : OuterHeaderCreation) (h : f.Agree) : codec.marshal f = .ok f.enc := by
  show f.marshalW.marshal f.marshalLen = _
  rw [← enc_length f h]
  obtain ⟨⟨h1, h2⟩, h3, h4⟩ := h
  refine W.Ends.marshal_minLen (by simp [enc, head]) ?_
  unfold enc head
  simp only [List.append_assoc]
  exact W.Emits.seqEnd (W.Emits.put _) (W.Emits.seqEnd (W.Emits.optIf fun _ => W.Emits.put _)
    (W.Emits.seqEnd (W.Emits.raw h1 h2) (W.Emits.seqEnd (W.Emits.raw h3 h4) (emits_end f))))

/-! #### The description octets -/

theorem be16_eq (d : UInt16) : be16 d = [hiOctet d, loOctet d] := by
  have e1 : (d.toNat &&& 65280) >>> 8 % 256 = d.toNat / 256 % 256 := by
    have h := d.toNat_lt
    rw [show (65280 : Nat) = (2 ^ 8 - 1) <<< 8 by decide, Nat.shiftRight_and_distrib, Nat.shiftLeft_shiftRight,
      Nat.and_two_pow_sub_one_eq_mod, Nat.shiftRight_eq_div_pow]
    omega
  have h1 : hiOctet d = UInt8.ofNat (d.toNat / 256 ^ 1) := by
    apply UInt8.toNat_inj.1
    simp only [hiOctet, UInt16.toNat_toUInt8, UInt16.toNat_shiftRight, UInt16.toNat_and, UInt8.toNat_ofNat']
    exact e1
  have h2 : loOctet d = UInt8.ofNat (d.toNat / 256 ^ 0) := by
    apply UInt8.toNat_inj.1
    simp only [loOctet, UInt16.toNat_toUInt8, UInt16.toNat_and, UInt8.toNat_ofNat']
    show (d.toNat &&& 255) % 256 = d.toNat / 1 % 256
    rw [show (255 : Nat) = 2 ^ 8 - 1 by decide, Nat.and_two_pow_sub_one_eq_mod]
    omega
  rw [h1, h2]
  rfl

theorem octets (a b : UInt8) : hiOctet (dec16 [a, b]) = a ∧ loOctet (dec16 [a, b]) = b := by
  have h := be16_eq (dec16 [a, b])
  rw [be16_dec16 _ rfl] at h
  simp only [List.cons.injEq, and_true] at h
  exact ⟨h.1.symm, h.2.symm⟩

theorem reads_desc (d : UInt16) : P.Reads parseDesc (be16 d) (hiOctet d, d) := by
  intro pre post sp
  have h := P.Reads.u16 d pre post sp
  have h1 : P.peek 0 ⟨pre ++ be16 d ++ post, sp⟩ pre.length = .ok (hiOctet d, pre.length) := by
    unfold P.peek Slice.idx
    rw [be16_eq]
    simp
  unfold parseDesc
  rw [P.bind_ok h1, P.bind_ok h]
  rfl

theorem takes_desc {k : Nat} : P.Takes (k + 2) parseDesc k (fun x w => w = be16 x.2 ∧ x.1 = hiOctet x.2) := by
  intro d sp o a o' ho h
  unfold parseDesc at h
  obtain ⟨x, o1, h1, h⟩ := P.bind_inv h
  obtain ⟨y, o2, h2, h⟩ := P.bind_inv h
  cases h
  have e1 : o1 = o := by
    unfold P.peek at h1
    cases hx : Slice.idx ⟨d, sp⟩ (o + 0) with
    | panic => rw [hx] at h1; cases h1
    | err e => rw [hx] at h1; cases h1
    | ok z => rw [hx] at h1; cases h1; rfl
  subst e1
  obtain ⟨w, post, e2, e3, e4, e5⟩ := P.Takes.u16 (k := k) d sp o1 y o' ho h2
  refine ⟨w, post, e2, e3, ⟨e4, ?_⟩, e5⟩
  have hx : d[o1]? = some (hiOctet y) := by
    rw [← Nat.add_zero o1, ← List.getElem?_drop, e2, e4, be16_eq]
    rfl
  unfold P.peek Slice.idx at h1
  simp only [Nat.add_zero, hx, Res.ok_bind] at h1
  cases h1
  rfl

theorem loc_tag {k : Nat} : P.Loc k parseTag 0 := by
  refine P.Loc.bind (P.Good.need 3).loc fun _ => P.Loc.bind (P.Good.bytes (k := 0) 3).loc fun _ => ?_
  intro d sp o _
  exact ⟨fun _ => rfl, by intro a o' h; cases h⟩

theorem loc_desc {k : Nat} : P.Loc (k + 2) parseDesc k :=
  P.Loc.bind (P.Loc.peek 0) fun _ => P.Loc.bind P.Good.u16.loc fun _ => (P.Good.pure _ (Nat.le_refl _)).loc

theorem good_desc {k : Nat} : P.Good (k + 2) parseDesc k :=
  P.Good.bind (P.Good.peek 0 (by omega)) fun _ => P.Good.bind P.Good.u16 fun _ => P.Good.pure _ (Nat.le_refl _)

/-- Whatever follows the description, no tag bits in its second octet: no panic. -/
def parseBody (oct5 : UInt8) (desc : UInt16) : P OuterHeaderCreation := do
  let teid ← P.opt (hasTEID oct5) P.f32 0
  let v4 ← P.opt (hasIPv4 oct5) (P.ip 4) none
  let v6 ← P.opt (hasIPv6 oct5) (P.ip 16) none
  let port ← P.opt (hasPort oct5) P.f16 0
  let ctag ← P.opt (has7thBit (loOctet desc)) parseTag 0
  let stag ← P.opt (has8thBit (loOctet desc)) parseTag 0
  pure ⟨desc, teid, v4, v6, port, ctag, stag⟩

theorem parseP_eq : parseP = (P.minLen 2 >>= fun _ => parseDesc >>= fun x => parseBody x.1 x.2) := rfl

theorem run_body (x b : UInt8) (r sp : Bytes) : codec.parse ⟨x :: b :: r, sp⟩ =
    match parseBody x (dec16 [x, b]) ⟨x :: b :: r, sp⟩ 2 with
    | .ok (a, _) => .ok a
    | .err e => .err e
    | .panic => .panic := by
  have hd : parseDesc ⟨x :: b :: r, sp⟩ 0 = .ok ((x, dec16 [x, b]), 2) := by
    unfold parseDesc
    rw [P.bind_ok (a := x) (o' := 0) (by rfl), P.bind_ok (a := dec16 [x, b]) (o' := 2)]
    · rfl
    · unfold P.u16
      rw [P.bind_ok (a := [x, b]) (o' := 2)]
      · rfl
      · unfold P.bytes
        rw [P.sub_data _ _ _ _ (by omega) (by simp)]
        rfl
  have e : (parseDesc >>= fun x => parseBody x.1 x.2) ⟨x :: b :: r, sp⟩ 0
      = parseBody x (dec16 [x, b]) ⟨x :: b :: r, sp⟩ 2 := P.bind_ok hd
  rw [← e]
  refine (P.run_minLen_eq (f := fun _ => parseDesc >>= fun x => parseBody x.1 x.2) (n := 2) (s := ⟨x :: b :: r, sp⟩)
    (by simp)).trans ?_
  unfold P.run
  cases (parseDesc >>= fun x => parseBody x.1 x.2) ⟨x :: b :: r, sp⟩ 0 <;> rfl

theorem loc_body {k : Nat} (o : UInt8) (d : UInt16) : P.Loc k (parseBody o d) 0 :=
  P.Loc.bind (P.Loc.opt P.Good.f32.loc (Nat.zero_le _)) fun _ =>
  P.Loc.bind (P.Loc.opt P.Good.ip.loc (Nat.zero_le _)) fun _ => P.Loc.bind (P.Loc.opt P.Good.ip.loc (Nat.zero_le _)) fun _ =>
  P.Loc.bind (P.Loc.opt P.Good.f16.loc (Nat.zero_le _)) fun _ => P.Loc.bind (P.Loc.opt loc_tag (Nat.zero_le _)) fun _ =>
  P.Loc.bind (P.Loc.opt loc_tag (Nat.zero_le _)) fun _ => (P.Good.pure _ (Nat.le_refl _)).loc

theorem loc (d sp sp' : Bytes) : codec.parse ⟨d, sp⟩ = codec.parse ⟨d, sp'⟩ :=
  P.Loc.run (m := 0) (P.Loc.bind (loc_desc (k := 0)) fun _ => loc_body _ _) d sp sp'

theorem good_body {k : Nat} (o : UInt8) (d : UInt16) (h7 : has7thBit (loOctet d) = false)
    (h8 : has8thBit (loOctet d) = false) : P.Good k (parseBody o d) 0 := by
  unfold parseBody
  rw [h7, h8]
  simp only [P.opt_false, P.bind_pure']
  good

theorem reads_body (f : OuterHeaderCreation) (h : f.Agree) (h7 : has7thBit (loOctet f.desc) = false)
    (h8 : has8thBit (loOctet f.desc) = false) :
    P.Reads (parseBody (hiOctet f.desc) f.desc)
      ((if hasTEID (hiOctet f.desc) then be32 f.teid else []) ++ (f.v4.val ++ (f.v6.val ++
        ((if hasPort (hiOctet f.desc) then be16 f.port else []) ++ []))))
      ⟨f.desc, if hasTEID (hiOctet f.desc) then f.teid else 0, f.v4, f.v6,
        if hasPort (hiOctet f.desc) then f.port else 0, 0, 0⟩ := by
  obtain ⟨⟨h1, h2⟩, h3, h4⟩ := h
  unfold parseBody
  rw [h7, h8]
  simp only [P.opt_false, P.bind_pure']
  exact P.Reads.bind (P.Reads.optIte fun _ => P.Reads.f32 _) (P.Reads.bind (P.Reads.raw h1 h2)
    (P.Reads.bind (P.Reads.raw h3 h4) (P.Reads.bind (P.Reads.optIte fun _ => P.Reads.f16 _) (P.Reads.pure _))))

/-- No decoded value has a tag. -/
theorem body_no_tag (o : UInt8) (d : UInt16) (s : Slice) (n n' : Nat) (v : OuterHeaderCreation)
    (h : parseBody o d s n = .ok (v, n')) :
    v.ctag = 0 ∧ v.stag = 0 ∧ has7thBit (loOctet d) = false ∧ has8thBit (loOctet d) = false ∧ v.desc = d := by
  have key : ∀ s n x n', parseTag s n ≠ .ok (x, n') := by
    intro s n x n' h
    obtain ⟨_, _, _, h⟩ := P.bind_inv h
    obtain ⟨_, _, _, h⟩ := P.bind_inv h
    cases h
  unfold parseBody at h
  obtain ⟨teid, _, _, h⟩ := P.bind_inv h
  obtain ⟨v4, _, _, h⟩ := P.bind_inv h
  obtain ⟨v6, _, _, h⟩ := P.bind_inv h
  obtain ⟨port, _, _, h⟩ := P.bind_inv h
  obtain ⟨ct, _, h1, h⟩ := P.bind_inv h
  obtain ⟨st, _, h2, h⟩ := P.bind_inv h
  cases h
  cases h7 : has7thBit (loOctet d)
  · cases h8 : has8thBit (loOctet d)
    · rw [h7] at h1; rw [h8] at h2
      cases h1; cases h2
      exact ⟨rfl, rfl, rfl, rfl, rfl⟩
    · rw [h8] at h2; exact absurd h2 (key _ _ _ _)
  · rw [h7] at h1; exact absurd h1 (key _ _ _ _)

theorem parse_body (s : Slice) (v : OuterHeaderCreation) (h : codec.parse s = .ok v) :
    ∃ o d n n', parseBody o d s n = .ok (v, n') := by
  obtain ⟨_, h⟩ := P.run_inv h
  rw [parseP_eq] at h
  obtain ⟨_, _, _, h⟩ := P.bind_inv h
  obtain ⟨x, _, _, h⟩ := P.bind_inv h
  exact ⟨_, _, _, _, h⟩

theorem takes_body {k : Nat} (d : UInt16) : P.Takes k (parseBody (hiOctet d) d) 0
    (fun v w => v.desc = d ∧ w = (if hasTEID (hiOctet d) then be32 v.teid else []) ++ (v.v4.val ++ (v.v6.val ++
      ((if hasPort (hiOctet d) then be16 v.port else []) ++ []))) ∧ v.Agree) := by
  intro b sp o v o' ho h
  obtain ⟨h1, h2, h7, h8, hd⟩ := body_no_tag _ _ _ _ _ _ h
  subst hd
  revert h
  revert o'
  revert v
  suffices hk : ∀ d : UInt16, has7thBit (loOctet d) = false → has8thBit (loOctet d) = false →
      P.Takes k (parseBody (hiOctet d) d) 0 (fun v w => v.desc = d ∧
        w = (if hasTEID (hiOctet d) then be32 v.teid else []) ++ (v.v4.val ++ (v.v6.val ++
      ((if hasPort (hiOctet d) then be16 v.port else []) ++ []))) ∧ v.Agree) by
    intro v h1 h2 h7 h8 o' h
    exact hk v.desc h7 h8 b sp o v o' ho h
  intro d h7 h8
  unfold parseBody
  rw [h7, h8]
  simp only [P.opt_false, P.bind_pure']
  refine P.Takes.weaken (P.Takes.bind (P.Takes.optIf P.Takes.f32) fun _ => P.Takes.bind P.Takes.raw fun _ =>
    P.Takes.bind P.Takes.raw fun _ => P.Takes.bind (P.Takes.optIf P.Takes.f16) fun _ => P.Takes.pure _) ?_
  rintro v w ⟨teid, _, _, rfl, ⟨v4, _, _, ⟨rfl, a1, a2⟩, ⟨v6, _, _, ⟨rfl, b1, b2⟩, ⟨port, _, _, rfl, ⟨rfl, rfl⟩,
    rfl⟩, rfl⟩, rfl⟩, rfl⟩
  exact ⟨rfl, rfl, ⟨a1.symm, a2⟩, b1.symm, b2⟩

/-- Whatever the octet, the body takes bytes from the front of what is left. -/
theorem takes_any {k : Nat} (o : UInt8) (d : UInt16) : P.Takes k (parseBody o d) 0 (fun _ _ => True) := by
  intro b sp n v n' hn h
  obtain ⟨_, _, h7, h8, _⟩ := body_no_tag _ _ _ _ _ _ h
  unfold parseBody at h
  rw [h7, h8] at h
  simp only [P.opt_false, P.bind_pure'] at h
  exact P.Takes.weaken (k := k) (m := 0) (P.Takes.bind (P.Takes.optIf P.Takes.f32) fun _ => P.Takes.bind P.Takes.raw
    fun _ => P.Takes.bind P.Takes.raw fun _ => P.Takes.bind (P.Takes.optIf P.Takes.f16) fun _ => P.Takes.pure _)
    (fun _ _ _ => trivial) b sp n v n' hn h

end OuterHeaderCreation
end Fields
end Pfcp
