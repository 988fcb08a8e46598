/- PMFAddressInformation, RedirectInformation, UserID. -/
import Verif.Fields.Misc2

namespace Pfcp
namespace Fields

/-! ### PMFAddressInformation -/

/-- `PMFAddressInformationFields`, /repo/ie/pmf-address-information.go:63-71. -/
structure PMFAddressInformation where
  flags : UInt8
  v4 : IP
  v6 : IP
  port1 : UInt16
  port2 : UInt16
  mac1 : IP
  mac2 : IP
  deriving DecidableEq

namespace PMFAddressInformation

/-- `HasIPv6`, :106-108. -/
def hasIPv6 (flags : UInt8) : Bool := has2ndBit flags
/-- `HasIPv4`, :116-118. -/
def hasIPv4 (flags : UInt8) : Bool := has1stBit flags

/-- `NewPMFAddressInformationFields`, :74-93; `SetIPv4Flag`, `SetIPv6Flag` :111-123. -/
def new (v4 v6 : IP) (port1 port2 : UInt16) (mac1 mac2 : IP) : PMFAddressInformation :=
  let flags := 0
  let flags := if v4.isSome then flags ||| 0x01 else flags
  let flags := if v6.isSome then flags ||| 0x02 else flags
  ⟨flags, v4, v6, port1, port2, mac1, mac2⟩

/-- `UnmarshalBinary` into a zero value, :135-184. `copy` into the nil MAC addresses copies nothing. -/
def parseP : P PMFAddressInformation := do
  P.minLen 1
  let flags ← P.u8
  let v4 ← P.opt (hasIPv4 flags) (P.ip 4) none
  let v6 ← P.opt (hasIPv6 flags) (P.ip 16) none
  let port1 ← P.f16
  let port2 ← P.f16
  let _ ← P.field 6
  let _ ← P.field 6
  pure ⟨flags, v4, v6, port1, port2, none, none⟩

/-- `MarshalTo`, :196-245. -/
def marshalW (f : PMFAddressInformation) : W :=
  W.minLen 1 ;; W.u8 f.flags ;; W.ip4 (hasIPv4 f.flags) f.v4 ;; W.ip16 (hasIPv6 f.flags) f.v6 ;;
  W.need 2 ;; W.put (be16 f.port1) ;; W.need 2 ;; W.put (be16 f.port2) ;;
  W.need 6 ;; W.copy 6 f.mac1.val ;; W.need 6 ;; W.copy 6 f.mac2.val

/-- `MarshalLen`, :248-257. -/
def marshalLen (f : PMFAddressInformation) : Nat :=
  let l := 1 + 2 + 2 + 6 + 6
  let l := if hasIPv4 f.flags then l + 4 else l
  if hasIPv6 f.flags then l + 16 else l

/-- `ParsePMFAddressInformationFields` :126-132 and `Marshal` :187-193. -/
def codec : Codec PMFAddressInformation := ⟨parseP.run, fun f => f.marshalW.marshal f.marshalLen⟩

/-- An absent MAC address is written as zeros. -/
def mac6 (m : IP) : Bytes := m.val ++ List.replicate (6 - m.val.length) 0

def enc (f : PMFAddressInformation) : Bytes :=
  [f.flags] ++ (wire4 f.v4 ++ (wire16 f.v6 ++ (be16 f.port1 ++ (be16 f.port2 ++ (mac6 f.mac1 ++ (mac6 f.mac2 ++ []))))))

def Agree (f : PMFAddressInformation) : Prop :=
  (hasIPv4 f.flags = f.v4.isSome ∧ f.v4.Is4) ∧ (hasIPv6 f.flags = f.v6.isSome ∧ f.v6.Is16) ∧
  f.mac1.val.length ≤ 6 ∧ f.mac2.val.length ≤ 6

theorem mac6_length {m : IP} (h : m.val.length ≤ 6) : (mac6 m).length = 6 := by
  simp only [mac6, List.length_append, List.length_replicate]; omega

theorem enc_length (f : PMFAddressInformation) (h : f.Agree) : f.enc.length = f.marshalLen := by
  obtain ⟨⟨h1, h2⟩, ⟨h3, h4⟩, h5, h6⟩ := h
  simp only [enc, marshalLen, List.length_append, wire4_length h2, wire16_length h4, h1, h3, ite_len, be16_length,
    mac6_length h5, mac6_length h6, List.length_cons, List.length_nil]
  omega

theorem emits (f : PMFAddressInformation) (h : f.Agree) : codec.marshal f = .ok f.enc := by
  show f.marshalW.marshal f.marshalLen = _
  rw [← enc_length f h]
  obtain ⟨⟨h1, h2⟩, ⟨h3, h4⟩, h5, h6⟩ := h
  refine W.Emits.marshal_minLen (by simp [enc]) ?_
  refine W.Emits.seq (W.Emits.u8 _) (W.Emits.seq (W.Emits.ip4 h1 h2) (W.Emits.seq (W.Emits.ip16 h3 h4) ?_))
  refine W.Emits.need (by simp) (W.Emits.seq (W.Emits.put _) (W.Emits.need (by simp) (W.Emits.seq (W.Emits.put _) ?_)))
  refine W.Emits.need (by simp [mac6_length h5]) (W.Emits.seq (W.Emits.copy_short _ h5) ?_)
  exact W.Emits.need (by simp [mac6_length h6]) (W.Emits.tail (W.Emits.copy_short _ h6))

theorem good : P.Good0 parseP :=
  P.Good0.minLen (n := 1) (m := 0) (P.Good.bind P.Good.u8 fun _ =>
    P.Good.bind (P.Good.opt P.Good.ip (Nat.zero_le _)) fun _ => P.Good.bind (P.Good.opt P.Good.ip (Nat.zero_le _)) fun _ =>
    P.Good.bind P.Good.f16 fun _ => P.Good.bind P.Good.f16 fun _ => P.Good.bind (P.Good.field 6) fun _ =>
    P.Good.bind (P.Good.field 6) fun _ => P.Good.pure _ (Nat.le_refl _))

theorem reads (f : PMFAddressInformation) (h : f.Agree) (tail sp : Bytes) : codec.parse ⟨f.enc ++ tail, sp⟩
    = .ok ⟨f.flags, f.v4.as4, f.v6.as16, f.port1, f.port2, none, none⟩ := by
  obtain ⟨⟨h1, h2⟩, ⟨h3, h4⟩, h5, h6⟩ := h
  refine P.Reads.run_minLen (by simp [enc]) ?_ tail sp
  refine P.Reads.bind (P.Reads.u8 _) (P.Reads.bind (P.Reads.ip4 h1 h2) (P.Reads.bind (P.Reads.ip16 h3 h4)
    (P.Reads.bind (P.Reads.f16 _) (P.Reads.bind (P.Reads.f16 _) (P.Reads.bind (P.Reads.field _ (mac6_length h5))
      (P.Reads.bind (P.Reads.field _ (mac6_length h6)) (P.Reads.pure _)))))))

/-- An accepted element is the coding of what was decoded, but for the last twelve octets. -/
theorem takes (s : Slice) (v : PMFAddressInformation) (h : codec.parse s = .ok v) : ∃ macs post,
    s.data = ([v.flags] ++ (wire4 v.v4 ++ (wire16 v.v6 ++ (be16 v.port1 ++ be16 v.port2)))) ++ macs ++ post ∧
    macs.length = 12 ∧ v.Agree ∧ v.mac1 = none ∧ v.mac2 = none := by
  have ht : P.Takes 1 (P.u8 >>= fun flags => P.opt (hasIPv4 flags) (P.ip 4) none >>= fun v4 =>
      P.opt (hasIPv6 flags) (P.ip 16) none >>= fun v6 => P.f16 >>= fun port1 => P.f16 >>= fun port2 =>
      P.field 6 >>= fun _ => P.field 6 >>= fun _ =>
        (pure ⟨flags, v4, v6, port1, port2, none, none⟩ : P PMFAddressInformation)) 0 _ :=
    P.Takes.bind (P.Takes.u8 (k := 0)) fun _ => P.Takes.bind P.Takes.ip4 fun _ => P.Takes.bind P.Takes.ip16 fun _ =>
      P.Takes.bind P.Takes.f16 fun _ => P.Takes.bind P.Takes.f16 fun _ => P.Takes.bind (P.Takes.field 6) fun _ =>
      P.Takes.bind (P.Takes.field 6) fun _ => P.Takes.pure _
  obtain ⟨w, post, e, hR, _⟩ := P.Takes.run' (m := 0) (f := fun _ => P.u8 >>= fun flags =>
    P.opt (hasIPv4 flags) (P.ip 4) none >>= fun v4 =>
      P.opt (hasIPv6 flags) (P.ip 16) none >>= fun v6 => P.f16 >>= fun port1 => P.f16 >>= fun port2 =>
      P.field 6 >>= fun _ => P.field 6 >>= fun _ =>
        (pure ⟨flags, v4, v6, port1, port2, none, none⟩ : P PMFAddressInformation)) ht s v h
  obtain ⟨flags, _, _, rfl, ⟨v4, _, _, ⟨rfl, a1, a2⟩, ⟨v6, _, _, ⟨rfl, b1, b2⟩, ⟨p1, _, _, rfl, ⟨p2, _, _, rfl,
    ⟨_, m1, _, ⟨rfl, c1⟩, ⟨_, m2, _, ⟨rfl, c2⟩, ⟨rfl, rfl⟩, rfl⟩, rfl⟩, rfl⟩, rfl⟩, rfl⟩, rfl⟩, rfl⟩ := hR
  refine ⟨m1 ++ m2, post, by rw [e]; simp, by rw [List.length_append, c1, c2],
    ⟨⟨a1.symm, a2⟩, ⟨b1.symm, b2⟩, by simp [IP.val], by simp [IP.val]⟩, rfl, rfl⟩

end PMFAddressInformation

/-! ### RedirectInformation -/

/-- `RedirectInformationFields`, /repo/ie/redirect-information.go:70-76. -/
structure RedirectInformation where
  typ : UInt8
  len1 : UInt16
  addr1 : Bytes
  len2 : UInt16
  addr2 : Bytes
  deriving DecidableEq

namespace RedirectInformation

/-- `NewRedirectInformationFields`, :82-99; `none` is nil. -/
def new (typ : UInt8) (addrs : List Bytes) : Option RedirectInformation :=
  match addrs with
  | [] => none
  | [a] => some ⟨typ, UInt16.ofNat a.length, a, 0, []⟩
  | a :: b :: _ => some ⟨typ, UInt16.ofNat a.length, a, UInt16.ofNat b.length, b⟩

/-- `binary.BigEndian.Uint16(b[1:3])`, :128. -/
def lenAt1 : P UInt16 := fun s o => (s.sub 1 3) >>= fun x => .ok (dec16 x.data, o)

/-- The second address, :129-136. -/
def parseOther (m : UInt16) : P Bytes :=
  if m ≠ 0 then do
    P.skip 2
    P.need m.toNat
    P.bytes m.toNat
  else pure []

/-- `UnmarshalBinary` into a zero value, :111-139. `offset` is not advanced over the first address. -/
def parseP : P RedirectInformation := do
  P.minLen 3
  let typ ← P.u8
  let n ← P.u16
  P.need n.toNat
  let a ← P.peekBytes n.toNat
  let m ← lenAt1
  let b ← parseOther m
  pure ⟨typ, n, a, m, b⟩

/-- `MarshalTo`, :151-184. -/
def marshalW (f : RedirectInformation) : W :=
  W.minLen 1 ;; W.u8 f.typ ;; W.need f.len1.toNat ;; W.put (be16 f.len1) ;; W.copy f.len1.toNat f.addr1 ;;
  (if f.addr2 = [] then W.put (be16 f.len2)
   else W.need f.len2.toNat ;; W.put (be16 f.len2) ;; W.copy f.len2.toNat f.addr2)

/-- `MarshalLen`, :187-189. -/
def marshalLen (f : RedirectInformation) : Nat := 3 + f.len1.toNat + 2 + f.len2.toNat

/-- `ParseRedirectInformationFields` :102-108 and `Marshal` :142-148. -/
def codec : Codec RedirectInformation := ⟨parseP.run, fun f => f.marshalW.marshal f.marshalLen⟩

/-- `NewRedirectInformation`, :13-22, up to the payload: `Marshal` on nil dereferences it. -/
def build (typ : UInt8) (addrs : List Bytes) : Res Bytes :=
  match new typ addrs with
  | none => .panic
  | some f => codec.marshal f

def enc (f : RedirectInformation) : Bytes := [f.typ] ++ (be16 f.len1 ++ (f.addr1 ++ (be16 f.len2 ++ f.addr2)))

def Agree (f : RedirectInformation) : Prop := f.addr1.length = f.len1.toNat ∧ f.addr2.length = f.len2.toNat

theorem enc_length (f : RedirectInformation) (h : f.Agree) : f.enc.length = f.marshalLen := by
  simp only [enc, marshalLen, List.length_append, be16_length, h.1, h.2, List.length_cons, List.length_nil]
  omega

theorem emits (f : RedirectInformation) (h : f.Agree) : codec.marshal f = .ok f.enc := by
  show f.marshalW.marshal f.marshalLen = _
  rw [← enc_length f h]
  obtain ⟨h1, h2⟩ := h
  refine W.Emits.marshal_minLen (by simp [enc]) ?_
  refine W.Emits.seq (W.Emits.u8 _) (W.Emits.need (by simp [h1]; omega) (W.Emits.seq (W.Emits.put _)
    (W.Emits.seq (W.Emits.copy _ h1) ?_)))
  by_cases h0 : f.addr2 = []
  · rw [if_pos h0, h0, List.append_nil]
    exact W.Emits.put _
  · rw [if_neg h0]
    exact W.Emits.need (by simp [h2]) (W.Emits.seq (W.Emits.put _) (W.Emits.copy _ h2))

/-- What the decoder does with any element of at least three octets. -/
theorem parse_eq (t : UInt8) (n : UInt16) (r sp : Bytes) : codec.parse ⟨t :: (be16 n ++ r), sp⟩ =
    if r.length < n.toNat then .err .unexpectedEOF
    else if n = 0 then .ok ⟨t, 0, [], 0, []⟩
    else if r.length < n.toNat + 2 then .err .unexpectedEOF
    else .ok ⟨t, n, r.take n.toNat, n, (r.drop 2).take n.toNat⟩ := by
  obtain ⟨x, y, hxy⟩ : ∃ x y, be16 n = [x, y] := by
    have h := be16_length n
    match hb : be16 n with
    | [] => rw [hb] at h; cases h
    | [_] => rw [hb] at h; cases h
    | [x, y] => exact ⟨x, y, rfl⟩
    | _ :: _ :: _ :: _ => rw [hb] at h; cases h
  have hn : dec16 [x, y] = n := by rw [← hxy, dec16_be16]
  rw [hxy]
  simp only [List.cons_append, List.nil_append]
  have h16 : P.u16 ⟨t :: x :: y :: r, sp⟩ 1 = .ok (n, 3) := by
    unfold P.u16
    rw [P.bind_ok (a := [x, y]) (o' := 3)]
    · rw [hn]; rfl
    · unfold P.bytes
      rw [P.sub_data _ _ _ _ (by omega) (by simp)]
      rfl
  have hl : ∀ o, lenAt1 ⟨t :: x :: y :: r, sp⟩ o = .ok (n, o) := by
    intro o
    unfold lenAt1
    rw [P.sub_data _ _ _ _ (by omega) (by simp), Res.ok_bind]
    show Res.ok (dec16 [x, y], o) = _
    rw [hn]
  rw [show codec.parse ⟨t :: x :: y :: r, sp⟩ = _ from P.run_minLen_eq (n := 3) (by simp)]
  unfold P.run
  rw [P.bind_ok (a := t) (o' := 1) (by rfl), P.bind_ok h16]
  by_cases c1 : r.length < n.toNat
  · rw [if_pos c1, P.bind_err (e := .unexpectedEOF)]
    unfold P.need
    exact if_pos (by simp only [List.length_cons]; omega)
  · rw [if_neg c1, P.bind_ok (a := ()) (o' := 3) (by unfold P.need; exact if_neg (by simp only [List.length_cons]; omega))]
    rw [P.bind_ok (a := r.take n.toNat) (o' := 3)]
    · rw [P.bind_ok (hl 3)]
      unfold parseOther
      by_cases c2 : n = 0
      · rw [if_neg (by simpa using c2), if_pos c2, P.bind_pure']
        subst c2
        rfl
      · rw [if_pos c2, if_neg c2]
        by_cases c3 : r.length < n.toNat + 2
        · rw [if_pos c3, P.bind_err (e := .unexpectedEOF)]
          rw [P.bind_ok (a := ()) (o' := 5) (by rfl), P.bind_err]
          unfold P.need
          exact if_pos (by simp only [List.length_cons]; omega)
        · rw [if_neg c3, P.bind_ok (a := (r.drop 2).take n.toNat) (o' := 5 + n.toNat)]
          · rfl
          · rw [P.bind_ok (a := ()) (o' := 5) (by rfl), P.bind_ok (a := ()) (o' := 5)
              (by unfold P.need; exact if_neg (by simp only [List.length_cons]; omega))]
            unfold P.bytes
            rw [P.sub_data _ _ _ _ (by omega) (by simp only [List.length_cons]; omega), Res.ok_bind,
              show 5 + n.toNat = n.toNat + 2 + 1 + 1 + 1 by omega]
            simp only [List.take_succ_cons, List.drop_succ_cons]
            rw [show n.toNat + 2 = 2 + n.toNat by omega, ← List.take_drop]
    · unfold P.peekBytes
      rw [P.sub_data _ _ _ _ (by omega) (by simp only [List.length_cons]; omega), Res.ok_bind,
        show 3 + n.toNat = n.toNat + 1 + 1 + 1 by omega]
      rfl

end RedirectInformation

/-! ### UserID -/

/-- `UserIDFields`, /repo/ie/user-id.go:39-49. -/
structure UserID where
  flags : UInt8
  imsiLen : UInt8
  imsi : Bytes
  imeiLen : UInt8
  imei : Bytes
  msisdnLen : UInt8
  msisdn : Bytes
  naiLen : UInt8
  nai : Bytes
  deriving DecidableEq

namespace UserID
open Text

/-- One digit string of the constructor, e.g. :57-64: nothing unless announced; `none` if it is no digit string. -/
def newDigits (c : Bool) (s : Bytes) : Option (UInt8 × Bytes) :=
  if c then
    match strToSwappedBytes s fillerF with
    | .ok v => some (UInt8.ofNat v.length, s)
    | _ => none
  else some (0, [])

/-- `NewUserIDFields`, :52-90; `none` is nil. -/
def new (flags : UInt8) (imsi imei msisdn nai : Bytes) : Option UserID := do
  let i ← newDigits (has1stBit flags) imsi
  let e ← newDigits (has2ndBit flags) imei
  let m ← newDigits (has3rdBit flags) msisdn
  let n := if has4thBit flags then (UInt8.ofNat nai.length, nai) else (0, [])
  some ⟨flags, i.1, i.2, e.1, e.2, m.1, m.2, n.1, n.2⟩

/-- One length-prefixed string, e.g. :112-122. -/
def parseStr (g : Bytes → Bytes) : P (UInt8 × Bytes) := do
  let n ← P.byte
  let b ← P.field n.toNat
  pure (n, g b)

/-- The digits of a field, :121. -/
def digits (b : Bytes) : Bytes := swappedBytesToStr b true

/-- `UnmarshalBinary` into a zero value, :102-167. (The last field does not advance `offset`, which nothing reads
afterwards.) -/
def parseP : P UserID := do
  P.minLen 1
  let flags ← P.u8
  let i ← P.opt (has1stBit flags) (parseStr digits) (0, [])
  let e ← P.opt (has2ndBit flags) (parseStr digits) (0, [])
  let m ← P.opt (has3rdBit flags) (parseStr digits) (0, [])
  let n ← P.opt (has4thBit flags) (parseStr id) (0, [])
  pure ⟨flags, i.1, i.2, e.1, e.2, m.1, m.2, n.1, n.2⟩

/-- One digit string, e.g. :189-197. -/
def digitsW (n : UInt8) (s : Bytes) : W :=
  W.u8 n ;; fun b o => strToSwappedBytes s fillerF >>= fun v => W.copy n.toNat v b o

/-- `MarshalTo`, :179-232. -/
def marshalW (f : UserID) : W :=
  W.minLen 1 ;; W.u8 f.flags ;;
  W.opt (has1stBit f.flags) (digitsW f.imsiLen f.imsi) ;;
  W.opt (has2ndBit f.flags) (digitsW f.imeiLen f.imei) ;;
  W.opt (has3rdBit f.flags) (digitsW f.msisdnLen f.msisdn) ;;
  W.opt (has4thBit f.flags) (W.u8 f.naiLen ;; W.copy f.naiLen.toNat f.nai)

/-- `MarshalLen`, :235-251. -/
def marshalLen (f : UserID) : Nat :=
  let l := 1
  let l := if has1stBit f.flags then l + (1 + f.imsiLen.toNat) else l
  let l := if has2ndBit f.flags then l + (1 + f.imeiLen.toNat) else l
  let l := if has3rdBit f.flags then l + (1 + f.msisdnLen.toNat) else l
  if has4thBit f.flags then l + (1 + f.naiLen.toNat) else l

/-- `ParseUserIDFields` :93-99 and `Marshal` :170-176. -/
def codec : Codec UserID := ⟨parseP.run, fun f => f.marshalW.marshal f.marshalLen⟩

/-- `NewUserID`, :14-23, up to the payload: `Marshal` on nil dereferences it. -/
def build (flags : UInt8) (imsi imei msisdn nai : Bytes) : Res Bytes :=
  match new flags imsi imei msisdn nai with
  | none => .panic
  | some f => codec.marshal f

/-- A string behind its length octet. -/
def lv (b : Bytes) : Bytes := [UInt8.ofNat b.length] ++ b

/-- An element with the given octets in its fields. -/
def wire (flags : UInt8) (i e m n : Bytes) : Bytes :=
  [flags] ++ ((if has1stBit flags then lv i else []) ++ ((if has2ndBit flags then lv e else []) ++
    ((if has3rdBit flags then lv m else []) ++ ((if has4thBit flags then lv n else []) ++ []))))

theorem lv_length (b : Bytes) : (lv b).length = 1 + b.length := by simp [lv]; omega

theorem lv_toNat {b : Bytes} (h : b.length < 256) : (UInt8.ofNat b.length).toNat = b.length := by
  rw [UInt8.toNat_ofNat']; omega

theorem reads_str (g : Bytes → Bytes) {b : Bytes} (h : b.length < 256) :
    P.Reads (parseStr g) (lv b) (UInt8.ofNat b.length, g b) := by
  unfold parseStr lv
  have h1 := P.Reads.bind (P.Reads.byte (UInt8.ofNat b.length))
    (f := fun n => P.field n.toNat >>= fun x => pure (n, g x))
    (P.Reads.map (fun x => (UInt8.ofNat b.length, g x)) (P.Reads.field b (lv_toNat h).symm))
  exact h1

/-- What the decoder returns for the given octets. -/
def value (flags : UInt8) (i e m n : Bytes) : UserID :=
  ⟨flags, if has1stBit flags then UInt8.ofNat i.length else 0, if has1stBit flags then digits i else [],
    if has2ndBit flags then UInt8.ofNat e.length else 0, if has2ndBit flags then digits e else [],
    if has3rdBit flags then UInt8.ofNat m.length else 0, if has3rdBit flags then digits m else [],
    if has4thBit flags then UInt8.ofNat n.length else 0, if has4thBit flags then n else []⟩

theorem reads (flags : UInt8) (i e m n : Bytes) (hi : i.length < 256) (he : e.length < 256) (hm : m.length < 256)
    (hn : n.length < 256) (tail sp : Bytes) :
    codec.parse ⟨wire flags i e m n ++ tail, sp⟩ = .ok (value flags i e m n) := by
  have hv : value flags i e m n = ⟨flags, (if has1stBit flags then (UInt8.ofNat i.length, digits i) else (0, [])).1,
      (if has1stBit flags then (UInt8.ofNat i.length, digits i) else (0, [])).2,
      (if has2ndBit flags then (UInt8.ofNat e.length, digits e) else (0, [])).1,
      (if has2ndBit flags then (UInt8.ofNat e.length, digits e) else (0, [])).2,
      (if has3rdBit flags then (UInt8.ofNat m.length, digits m) else (0, [])).1,
      (if has3rdBit flags then (UInt8.ofNat m.length, digits m) else (0, [])).2,
      (if has4thBit flags then (UInt8.ofNat n.length, id n) else (0, [])).1,
      (if has4thBit flags then (UInt8.ofNat n.length, id n) else (0, [])).2⟩ := by
    unfold value
    cases has1stBit flags <;> cases has2ndBit flags <;> cases has3rdBit flags <;> cases has4thBit flags <;> rfl
  rw [hv]
  refine P.Reads.run_minLen (by simp [wire]) ?_ tail sp
  refine P.Reads.bind (P.Reads.u8 _) ?_
  refine P.Reads.bind (P.Reads.optIte fun _ => reads_str digits hi) ?_
  refine P.Reads.bind (P.Reads.optIte fun _ => reads_str digits he) ?_
  refine P.Reads.bind (P.Reads.optIte fun _ => reads_str digits hm) ?_
  refine P.Reads.bind (P.Reads.optIte fun _ => reads_str id hn) ?_
  exact P.Reads.pure _

theorem good_str (g : Bytes → Bytes) {k : Nat} : P.Good k (parseStr g) 0 :=
  P.Good.bind P.Good.byte fun _ => P.Good.bind (P.Good.field _) fun _ => P.Good.pure _ (Nat.le_refl _)

theorem good : P.Good0 parseP :=
  P.Good0.minLen (n := 1) (m := 0) (P.Good.bind P.Good.u8 fun _ =>
    P.Good.bind (P.Good.opt (good_str _) (Nat.zero_le _)) fun _ =>
    P.Good.bind (P.Good.opt (good_str _) (Nat.zero_le _)) fun _ =>
    P.Good.bind (P.Good.opt (good_str _) (Nat.zero_le _)) fun _ =>
    P.Good.bind (P.Good.opt (good_str _) (Nat.zero_le _)) fun _ => P.Good.pure _ (Nat.le_refl _))

/-- Every accepted element has this form. -/
theorem takes (s : Slice) (v : UserID) (h : codec.parse s = .ok v) : ∃ flags i e m n post,
    s.data = wire flags i e m n ++ post ∧ i.length < 256 ∧ e.length < 256 ∧ m.length < 256 ∧ n.length < 256 ∧
    v = value flags i e m n := by
  have str : ∀ (c : Bool) (g : Bytes → Bytes), P.Takes 0 (P.opt c (parseStr g) (0, [])) 0
      (fun x w => ∃ b : Bytes, b.length < 256 ∧ w = (if c then lv b else []) ∧
        x = (if c then UInt8.ofNat b.length else 0, if c then g b else [])) := by
    intro c g
    refine (P.Takes.opt (P.Takes.bind P.Takes.byte fun n => P.Takes.bind (P.Takes.field _) fun _ => P.Takes.pure _)
      (Nat.zero_le _)).weaken ?_
    rintro x w (⟨hc, n, _, _, rfl, ⟨_, b, _, ⟨rfl, hb⟩, ⟨rfl, rfl⟩, rfl⟩, rfl⟩ | ⟨hc, rfl, rfl⟩)
    · have hn : UInt8.ofNat b.length = n := by rw [hb]; exact UInt8.ofNat_toNat
      refine ⟨b, by rw [hb]; exact n.toNat_lt, ?_, ?_⟩
      · simp [hc, lv, hn]
      · simp [hc, hn]
    · exact ⟨[], by simp, by simp [hc], by simp [hc]⟩
  have ht : P.Takes 1 (P.u8 >>= fun flags => P.opt (has1stBit flags) (parseStr digits) (0, []) >>= fun i =>
      P.opt (has2ndBit flags) (parseStr digits) (0, []) >>= fun e =>
      P.opt (has3rdBit flags) (parseStr digits) (0, []) >>= fun m =>
      P.opt (has4thBit flags) (parseStr id) (0, []) >>= fun n =>
      (pure ⟨flags, i.1, i.2, e.1, e.2, m.1, m.2, n.1, n.2⟩ : P UserID)) 0 _ :=
    P.Takes.bind (P.Takes.u8 (k := 0)) fun _ => P.Takes.bind (str _ _) fun _ => P.Takes.bind (str _ _) fun _ =>
      P.Takes.bind (str _ _) fun _ => P.Takes.bind (str _ _) fun _ => P.Takes.pure _
  obtain ⟨w, post, e, hR, _⟩ := P.Takes.run' (m := 0) (f := fun _ => P.u8 >>= fun flags =>
      P.opt (has1stBit flags) (parseStr digits) (0, []) >>= fun i =>
      P.opt (has2ndBit flags) (parseStr digits) (0, []) >>= fun e =>
      P.opt (has3rdBit flags) (parseStr digits) (0, []) >>= fun m =>
      P.opt (has4thBit flags) (parseStr id) (0, []) >>= fun n =>
      (pure ⟨flags, i.1, i.2, e.1, e.2, m.1, m.2, n.1, n.2⟩ : P UserID)) ht s v h
  obtain ⟨flags, _, _, rfl, ⟨i, _, _, ⟨bi, li, rfl, rfl⟩, ⟨e', _, _, ⟨be, le, rfl, rfl⟩, ⟨m, _, _, ⟨bm, lm, rfl, rfl⟩,
    ⟨n, _, _, ⟨bn, ln, rfl, rfl⟩, ⟨rfl, rfl⟩, rfl⟩, rfl⟩, rfl⟩, rfl⟩, rfl⟩ := hR
  exact ⟨flags, bi, be, bm, bn, post, e, li, le, lm, ln, rfl⟩

theorem emits_digits {s v : Bytes} (h : strToSwappedBytes s fillerF = .ok v) (hl : v.length < 256) :
    W.Emits (digitsW (UInt8.ofNat v.length) s) (lv v) := by
  refine W.Emits.seq (W.Emits.u8 _) ?_
  intro pre n hn
  show (strToSwappedBytes s fillerF >>= fun v' => W.copy _ v' _ _) = _
  rw [h, Res.ok_bind]
  exact W.Emits.copy v (lv_toNat hl).symm pre n hn

/-- Encoding of a value whose announced fields have these octets. -/
theorem emits (flags : UInt8) (i e m n si se sm : Bytes) (hi : i.length < 256) (he : e.length < 256)
    (hm : m.length < 256) (hn : n.length < 256)
    (ei : has1stBit flags = true → strToSwappedBytes si fillerF = .ok i)
    (ee : has2ndBit flags = true → strToSwappedBytes se fillerF = .ok e)
    (em : has3rdBit flags = true → strToSwappedBytes sm fillerF = .ok m) :
    codec.marshal ⟨flags, if has1stBit flags then UInt8.ofNat i.length else 0, if has1stBit flags then si else [],
      if has2ndBit flags then UInt8.ofNat e.length else 0, if has2ndBit flags then se else [],
      if has3rdBit flags then UInt8.ofNat m.length else 0, if has3rdBit flags then sm else [],
      if has4thBit flags then UInt8.ofNat n.length else 0, if has4thBit flags then n else []⟩
      = .ok (wire flags i e m n) := by
  have hlen : (wire flags i e m n).length = (⟨flags, if has1stBit flags then UInt8.ofNat i.length else 0,
      if has1stBit flags then si else [],
      if has2ndBit flags then UInt8.ofNat e.length else 0, if has2ndBit flags then se else [],
      if has3rdBit flags then UInt8.ofNat m.length else 0, if has3rdBit flags then sm else [],
      if has4thBit flags then UInt8.ofNat n.length else 0, if has4thBit flags then n else []⟩ : UserID).marshalLen := by
    unfold wire marshalLen
    simp only [ite_len]
    cases has1stBit flags <;> cases has2ndBit flags <;> cases has3rdBit flags <;> cases has4thBit flags <;>
      simp [lv_length, Nat.mod_eq_of_lt hi, Nat.mod_eq_of_lt he, Nat.mod_eq_of_lt hm, Nat.mod_eq_of_lt hn] <;> omega
  show W.marshal _ _ = _
  rw [← hlen]
  refine W.Emits.marshal_minLen (by simp [wire]) ?_
  refine W.Emits.seq (W.Emits.u8 _) (W.Emits.seq ?_ (W.Emits.seq ?_ (W.Emits.seq ?_ (W.Emits.tail ?_))))
  · refine W.Emits.optIf fun hc => ?_
    simp only [hc, if_true]
    exact emits_digits (ei hc) hi
  · refine W.Emits.optIf fun hc => ?_
    simp only [hc, if_true]
    exact emits_digits (ee hc) he
  · refine W.Emits.optIf fun hc => ?_
    simp only [hc, if_true]
    exact emits_digits (em hc) hm
  · refine W.Emits.optIf fun hc => ?_
    simp only [hc, if_true]
    exact W.Emits.seq (W.Emits.u8 _) (W.Emits.copy _ (lv_toNat hn).symm)

end UserID
end Fields
end Pfcp
