/- Structured elements that carry IP addresses. -/
import Verif.Fields.IP

namespace Pfcp
namespace Fields

/-! ### AlternativeSMFIPAddress and CPPFCPEntityIPAddress

The two codecs are the same up to names; line numbers are those of alternative-smf-ip-address.go and equal to
those of cp-pfcp-entity-ip-address.go up to a shift. The unused struct fields TEID and ChooseID, which no function
touches, are left out. -/

/-- `AlternativeSMFIPAddressFields`, /repo/ie/alternative-smf-ip-address.go:39-45;
`CPPFCPEntityIPAddressFields`, /repo/ie/cp-pfcp-entity-ip-address.go. -/
structure IP46 where
  flags : UInt8
  v4 : IP
  v6 : IP
  deriving DecidableEq

namespace IP46

/-- `HasIPv4`, :64. -/
def hasIPv4 (flags : UInt8) : Bool := has2ndBit flags
/-- `HasIPv6`, :74. -/
def hasIPv6 (flags : UInt8) : Bool := has1stBit flags

/-- `NewAlternativeSMFIPAddressFields`, :48-61, with SetIPv4Flag :69-71 and SetIPv6Flag :79-81. -/
def new (v4 v6 : IP) : IP46 :=
  let flags := 0
  let flags := if v4.isSome then flags ||| 0x02 else flags
  let flags := if v6.isSome then flags ||| 0x01 else flags
  ⟨flags, v4, v6⟩

/-- `UnmarshalBinary` into a zero value, :93-118. -/
def parseP : P IP46 := do
  P.minLen 2
  let flags ← P.u8
  let v4 ← P.opt (hasIPv4 flags) (P.ip 4) none
  let v6 ← P.opt (hasIPv6 flags) (P.ip 16) none
  pure ⟨flags, v4, v6⟩

/-- `MarshalTo`, :130-154. -/
def marshalW (f : IP46) : W :=
  W.minLen 1 ;; W.u8 f.flags ;; W.ip4 f.v4.isSome f.v4 ;; W.ip16 f.v6.isSome f.v6

/-- `MarshalLen`, :157-167. -/
def marshalLen (f : IP46) : Nat :=
  let l := 1
  let l := if f.v4.isSome then l + 4 else l
  if f.v6.isSome then l + 16 else l

/-- `ParseAlternativeSMFIPAddressFields` :84-90 and `Marshal` :121-127. -/
def codec : Codec IP46 := ⟨parseP.run, fun f => f.marshalW.marshal f.marshalLen⟩

/-- What the encoder writes. -/
def enc (f : IP46) : Bytes := [f.flags] ++ (wire4 f.v4 ++ (wire16 f.v6 ++ []))

/-- The addresses are addresses. -/
def Valid (f : IP46) : Prop := f.v4.Is4 ∧ f.v6.Is16
/-- The flags announce the addresses there are. -/
def Agree (f : IP46) : Prop := hasIPv4 f.flags = f.v4.isSome ∧ hasIPv6 f.flags = f.v6.isSome

theorem new_agree (v4 v6 : IP) : (new v4 v6).Agree := by
  have key : ∀ a b : Bool,
      let flags : UInt8 := 0
      let flags := if a then flags ||| 0x02 else flags
      let flags := if b then flags ||| 0x01 else flags
      hasIPv4 flags = a ∧ hasIPv6 flags = b := by decide
  exact key v4.isSome v6.isSome

theorem enc_length (f : IP46) (h : f.Valid) : f.enc.length = f.marshalLen := by
  simp only [enc, marshalLen, List.length_append, wire4_length h.1, wire16_length h.2, ite_len,
    List.length_cons, List.length_nil]
  omega

theorem emits (f : IP46) (h : f.Valid) : codec.marshal f = .ok f.enc := by
  show f.marshalW.marshal f.marshalLen = _
  rw [← enc_length f h]
  refine W.Emits.marshal_minLen (by simp [enc]) ?_
  exact W.Emits.seq (W.Emits.u8 _) (W.Emits.seq (W.Emits.ip4 rfl h.1) (W.Emits.tail (W.Emits.ip16 rfl h.2)))

theorem good : P.Good0 parseP := by
  refine P.Good0.minLen (n := 2) (m := 0) ?_
  good

theorem reads (f : IP46) (h : f.Valid) (ha : f.Agree) (hl : 2 ≤ f.enc.length) (tail sp : Bytes) :
    codec.parse ⟨f.enc ++ tail, sp⟩ = .ok ⟨f.flags, f.v4.as4, f.v6.as16⟩ := by
  refine P.Reads.run_minLen hl ?_ tail sp
  exact P.Reads.bind (P.Reads.u8 _) (P.Reads.bind (P.Reads.ip4 ha.1 h.1)
    (P.Reads.bind (P.Reads.ip16 ha.2 h.2) (P.Reads.pure _)))

theorem takes (s : Slice) (v : IP46) (h : codec.parse s = .ok v) :
    ∃ w post, s.data = w ++ post ∧ (w = v.enc ∧ v.Valid ∧ v.Agree) ∧ 2 ≤ s.data.length := by
  refine P.Takes.run' (m := 0) (R := fun v w => w = v.enc ∧ v.Valid ∧ v.Agree) ?_ s v h
  refine P.Takes.weaken (R := _) (P.Takes.bind P.Takes.u8 fun _ => P.Takes.bind P.Takes.ip4 fun _ =>
    P.Takes.bind P.Takes.ip16 fun _ => P.Takes.pure _) ?_
  rintro f w ⟨fl, _, _, rfl, ⟨v4, _, _, ⟨rfl, a1, a2⟩, ⟨v6, _, _, ⟨rfl, b1, b2⟩, ⟨rfl, rfl⟩, rfl⟩, rfl⟩, rfl⟩
  exact ⟨rfl, ⟨a2, b2⟩, a1.symm, b1.symm⟩

end IP46

/-! ### FSEID -/

/-- `FSEIDFields`, /repo/ie/f-seid.go:40-45. -/
structure FSEID where
  flags : UInt8
  seid : UInt64
  v4 : IP
  v6 : IP
  deriving DecidableEq

namespace FSEID

/-- `HasIPv4`, :67. -/
def hasIPv4 (flags : UInt8) : Bool := has2ndBit flags
/-- `HasIPv6`, :77. -/
def hasIPv6 (flags : UInt8) : Bool := has1stBit flags

/-- `NewFSEIDFields`, :48-64, with SetIPv4Flag :72-74 and SetIPv6Flag :82-84. -/
def new (seid : UInt64) (v4 v6 : IP) : FSEID :=
  let flags := 0
  let flags := if v4.isSome then flags ||| 0x02 else flags
  let flags := if v6.isSome then flags ||| 0x01 else flags
  ⟨flags, seid, v4, v6⟩

/-- `UnmarshalBinary` into a zero value, :96-124. -/
def parseP : P FSEID := do
  P.minLen 9
  let flags ← P.u8
  let seid ← P.u64
  let v4 ← P.opt (hasIPv4 flags) (P.ip 4) none
  let v6 ← P.opt (hasIPv6 flags) (P.ip 16) none
  pure ⟨flags, seid, v4, v6⟩

/-- `MarshalTo`, :136-164. -/
def marshalW (f : FSEID) : W :=
  W.minLen 9 ;; W.u8 f.flags ;; W.put (be64 f.seid) ;;
  W.ip4 (hasIPv4 f.flags && f.v4.isSome) f.v4 ;; W.ip16 (hasIPv6 f.flags && f.v6.isSome) f.v6

/-- `MarshalLen`, :167-179. -/
def marshalLen (f : FSEID) : Nat :=
  let l := 9
  let l := if f.v4.isSome then l + 4 else l
  if f.v6.isSome then l + 16 else l

/-- `ParseFSEIDFields` :87-93 and `Marshal` :127-133. -/
def codec : Codec FSEID := ⟨parseP.run, fun f => f.marshalW.marshal f.marshalLen⟩

/-- What the encoder writes when flags and addresses agree. -/
def enc (f : FSEID) : Bytes := [f.flags] ++ (be64 f.seid ++ (wire4 f.v4 ++ (wire16 f.v6 ++ [])))

/-- The addresses are addresses. -/
def Valid (f : FSEID) : Prop := f.v4.Is4 ∧ f.v6.Is16
/-- The flags announce the addresses there are. -/
def Agree (f : FSEID) : Prop := hasIPv4 f.flags = f.v4.isSome ∧ hasIPv6 f.flags = f.v6.isSome

theorem new_agree (seid : UInt64) (v4 v6 : IP) : (new seid v4 v6).Agree := by
  have key : ∀ a b : Bool,
      let flags : UInt8 := 0
      let flags := if a then flags ||| 0x02 else flags
      let flags := if b then flags ||| 0x01 else flags
      hasIPv4 flags = a ∧ hasIPv6 flags = b := by decide
  exact key v4.isSome v6.isSome

theorem enc_length (f : FSEID) (h : f.Valid) : f.enc.length = f.marshalLen := by
  simp only [enc, marshalLen, List.length_append, wire4_length h.1, wire16_length h.2, ite_len, be64_length,
    List.length_cons, List.length_nil]
  omega

theorem emits (f : FSEID) (h : f.Valid) (ha : f.Agree) : codec.marshal f = .ok f.enc := by
  show f.marshalW.marshal f.marshalLen = _
  rw [← enc_length f h]
  refine W.Emits.marshal_minLen (by simp [enc]) ?_
  refine W.Emits.seq (W.Emits.u8 _) (W.Emits.seq (W.Emits.put _) (W.Emits.seq (W.Emits.ip4 ?_ h.1)
    (W.Emits.tail (W.Emits.ip16 ?_ h.2))))
  · rw [ha.1, Bool.and_self]
  · rw [ha.2, Bool.and_self]

theorem good : P.Good0 parseP := by
  refine P.Good0.minLen (n := 9) (m := 0) ?_
  good

theorem reads (f : FSEID) (h : f.Valid) (ha : f.Agree) (tail sp : Bytes) :
    codec.parse ⟨f.enc ++ tail, sp⟩ = .ok ⟨f.flags, f.seid, f.v4.as4, f.v6.as16⟩ := by
  refine P.Reads.run_minLen (by simp [enc]) ?_ tail sp
  exact P.Reads.bind (P.Reads.u8 _) (P.Reads.bind (P.Reads.u64 _) (P.Reads.bind (P.Reads.ip4 ha.1 h.1)
    (P.Reads.bind (P.Reads.ip16 ha.2 h.2) (P.Reads.pure _))))

theorem takes (s : Slice) (v : FSEID) (h : codec.parse s = .ok v) :
    ∃ w post, s.data = w ++ post ∧ (w = v.enc ∧ v.Valid ∧ v.Agree) ∧ 9 ≤ s.data.length := by
  refine P.Takes.run' (m := 0) (R := fun v w => w = v.enc ∧ v.Valid ∧ v.Agree) ?_ s v h
  refine P.Takes.weaken (R := _) (P.Takes.bind P.Takes.u8 fun _ => P.Takes.bind P.Takes.u64 fun _ =>
    P.Takes.bind P.Takes.ip4 fun _ => P.Takes.bind P.Takes.ip16 fun _ => P.Takes.pure _) ?_
  rintro f w ⟨fl, _, _, rfl, ⟨sd, _, _, rfl, ⟨v4, _, _, ⟨rfl, a1, a2⟩, ⟨v6, _, _, ⟨rfl, b1, b2⟩, ⟨rfl, rfl⟩, rfl⟩,
    rfl⟩, rfl⟩, rfl⟩
  exact ⟨rfl, ⟨a2, b2⟩, a1.symm, b1.symm⟩

end FSEID

/-! ### FTEID -/

/-- `FTEIDFields`, /repo/ie/f-teid.go:122-128. -/
structure FTEID where
  flags : UInt8
  teid : UInt32
  v4 : IP
  v6 : IP
  chid : UInt8
  deriving DecidableEq

namespace FTEID

/-- `HasChID`, :142. -/
def hasChID (flags : UInt8) : Bool := has4thBit flags
/-- `HasCh`, :152. -/
def hasCh (flags : UInt8) : Bool := has3rdBit flags
/-- `HasIPv6`, :162. -/
def hasIPv6 (flags : UInt8) : Bool := has2ndBit flags
/-- `HasIPv4`, :172. -/
def hasIPv4 (flags : UInt8) : Bool := has1stBit flags

/-- `NewFTEIDFields`, :131-139. -/
def new (flags : UInt8) (teid : UInt32) (v4 v6 : IP) (chid : UInt8) : FTEID := ⟨flags, teid, v4, v6, chid⟩

/-- `UnmarshalBinary` into a zero value, :191-231. `P.byte` also advances the offset, which is not used again. -/
def parseP : P FTEID := do
  P.minLen 1
  let flags ← P.u8
  if hasCh flags then do
    let chid ← P.opt (hasChID flags) P.byte 0
    pure ⟨flags, 0, none, none, chid⟩
  else do
    let teid ← P.f32
    let v4 ← P.opt (hasIPv4 flags) (P.ip 4) none
    let v6 ← P.opt (hasIPv6 flags) (P.ip 16) none
    pure ⟨flags, teid, v4, v6, 0⟩

/-- `MarshalTo`, :243-283. -/
def marshalW (f : FTEID) : W :=
  W.minLen 1 ;; W.u8 f.flags ;;
  if hasCh f.flags then W.opt (hasChID f.flags) (W.need 1 ;; W.u8 f.chid)
  else W.need 4 ;; W.put (be32 f.teid) ;;
    W.ip4 (hasIPv4 f.flags && f.v4.isSome) f.v4 ;; W.ip16 (hasIPv6 f.flags && f.v6.isSome) f.v6

/-- `MarshalLen`, :286-303. -/
def marshalLen (f : FTEID) : Nat :=
  let l := 1
  if hasCh f.flags then (if hasChID f.flags then l + 1 else l)
  else
    let l := l + 4
    let l := if hasIPv4 f.flags then l + 4 else l
    if hasIPv6 f.flags then l + 16 else l

/-- `ParseFTEIDFields` :182-188 and `Marshal` :234-240. -/
def codec : Codec FTEID := ⟨parseP.run, fun f => f.marshalW.marshal f.marshalLen⟩

/-- What the encoder writes for a ready value. -/
def enc (f : FTEID) : Bytes :=
  [f.flags] ++ (if hasCh f.flags then (if hasChID f.flags then [f.chid] else []) ++ [] else
    be32 f.teid ++ (wire4 (f.v4.when (hasIPv4 f.flags)) ++ (wire16 (f.v6.when (hasIPv6 f.flags)) ++ [])))

/-- Unless the addresses are to be chosen by the peer, the announced ones are there. -/
def Ready (f : FTEID) : Prop :=
  hasCh f.flags = false → f.v4.Ready4 (hasIPv4 f.flags) ∧ f.v6.Ready16 (hasIPv6 f.flags)

theorem enc_length (f : FTEID) (h : f.Ready) : f.enc.length = f.marshalLen := by
  unfold enc marshalLen
  cases hc : hasCh f.flags
  · obtain ⟨h4, h6⟩ := h hc
    simp only [List.length_append, Bool.false_eq_true, if_false,
      wire4_when_length (fun e => (h4 e).1) (fun e => (h4 e).2),
      wire16_when_length (fun e => (h6 e).1) (fun e => (h6 e).2), be32_length, ite_len, List.length_cons,
      List.length_nil]
    omega
  · cases hasChID f.flags <;> simp

theorem emits (f : FTEID) (h : f.Ready) : codec.marshal f = .ok f.enc := by
  show f.marshalW.marshal f.marshalLen = _
  rw [← enc_length f h]
  refine W.Emits.marshal_minLen (by simp [enc]) (W.Emits.seq (W.Emits.u8 _) ?_)
  cases hc : hasCh f.flags
  · obtain ⟨h4, h6⟩ := h hc
    simp only [Bool.false_eq_true, if_false]
    have e4 : (hasIPv4 f.flags && f.v4.isSome) = hasIPv4 f.flags := by
      cases hb : hasIPv4 f.flags
      · rfl
      · rw [(h4 hb).1]; rfl
    have e6 : (hasIPv6 f.flags && f.v6.isSome) = hasIPv6 f.flags := by
      cases hb : hasIPv6 f.flags
      · rfl
      · rw [(h6 hb).1]; rfl
    rw [e4, e6]
    exact W.Emits.need (by simp) (W.Emits.seq (W.Emits.put _)
      (W.Emits.seq (W.Emits.when4 (fun e => (h4 e).1) (fun e => (h4 e).2))
        (W.Emits.tail (W.Emits.when16 (fun e => (h6 e).1) (fun e => (h6 e).2)))))
  · simp only [if_true]
    exact W.Emits.tail (W.Emits.optIf fun _ => W.Emits.need (by simp) (W.Emits.u8 _))

theorem good : P.Good0 parseP := by
  refine P.Good0.minLen (n := 1) (m := 0) ?_
  good

/-- The value as the wire can hold it. -/
def norm (f : FTEID) : FTEID :=
  if hasCh f.flags then ⟨f.flags, 0, none, none, if hasChID f.flags then f.chid else 0⟩
  else ⟨f.flags, f.teid, (f.v4.when (hasIPv4 f.flags)).as4, (f.v6.when (hasIPv6 f.flags)).as16, 0⟩

theorem reads (f : FTEID) (h : f.Ready) (tail sp : Bytes) :
    codec.parse ⟨f.enc ++ tail, sp⟩ = .ok f.norm := by
  refine P.Reads.run_minLen (by simp [enc]) (P.Reads.bind (P.Reads.u8 _) ?_) tail sp
  unfold norm
  cases hc : hasCh f.flags
  · obtain ⟨h4, h6⟩ := h hc
    simp only [Bool.false_eq_true, if_false]
    exact P.Reads.bind (P.Reads.f32 _)
      (P.Reads.bind (P.Reads.when4 (fun e => (h4 e).1) (fun e => (h4 e).2))
        (P.Reads.bind (P.Reads.when16 (fun e => (h6 e).1) (fun e => (h6 e).2)) (P.Reads.pure _)))
  · simp only [if_true]
    exact P.Reads.bind (P.Reads.optIte fun _ => P.Reads.byte _) (P.Reads.pure _)

theorem takes (s : Slice) (v : FTEID) (h : codec.parse s = .ok v) :
    ∃ w post, s.data = w ++ post ∧ (w = v.enc ∧ v.Ready) ∧ 1 ≤ s.data.length := by
  refine P.Takes.run' (m := 0) (R := fun v w => w = v.enc ∧ v.Ready) ?_ s v h
  refine P.Takes.weaken (R := _) (P.Takes.bind P.Takes.u8 fun _ => P.Takes.ite
    (P.Takes.bind (P.Takes.optIf P.Takes.byte) fun _ => P.Takes.pure _)
    (P.Takes.bind P.Takes.f32 fun _ => P.Takes.bind P.Takes.ip4 fun _ => P.Takes.bind P.Takes.ip16 fun _ =>
      P.Takes.pure _)) ?_
  rintro f w ⟨fl, _, _, rfl, (⟨hc, ch, _, _, rfl, ⟨rfl, rfl⟩, rfl⟩ | ⟨hc, t, _, _, rfl, ⟨v4, _, _, ⟨rfl, a1, a2⟩,
    ⟨v6, _, _, ⟨rfl, b1, b2⟩, ⟨rfl, rfl⟩, rfl⟩, rfl⟩, rfl⟩), rfl⟩
  · refine ⟨?_, ?_⟩
    · unfold enc; simp only [hc, if_true]
    · intro hh; simp only [hc] at hh; cases hh
  · refine ⟨?_, ?_⟩
    · unfold enc
      simp only [hc, if_false, IP.when_eq a1, IP.when_eq b1]
      rfl
    · intro _
      exact ⟨fun e => ⟨a1.trans e, a2⟩, fun e => ⟨b1.trans e, b2⟩⟩

end FTEID

/-! ### MPTCPAddressInformation -/

/-- `MPTCPAddressInformationFields`, /repo/ie/mptcp-address-information.go:68-74. -/
structure MPTCPAddressInformation where
  flags : UInt8
  ptype : UInt8
  port : UInt16
  v4 : IP
  v6 : IP
  deriving DecidableEq

namespace MPTCPAddressInformation

/-- `HasIPv6`, :97. -/
def hasIPv6 (flags : UInt8) : Bool := has2ndBit flags
/-- `HasIPv4`, :107. -/
def hasIPv4 (flags : UInt8) : Bool := has1stBit flags

/-- `NewMPTCPAddressInformationFields`, :77-94, with SetIPv6Flag :102-104 and SetIPv4Flag :112-114. -/
def new (ptype : UInt8) (port : UInt16) (v4 v6 : IP) : MPTCPAddressInformation :=
  let flags := 0
  let flags := if v4.isSome then flags ||| 0x01 else flags
  let flags := if v6.isSome then flags ||| 0x02 else flags
  ⟨flags, ptype, port, v4, v6⟩

/-- `UnmarshalBinary` into a zero value, :126-153. -/
def parseP : P MPTCPAddressInformation := do
  P.minLen 4
  let flags ← P.u8
  let ptype ← P.u8
  let port ← P.u16
  let v4 ← P.opt (hasIPv4 flags) (P.ip 4) none
  let v6 ← P.opt (hasIPv6 flags) (P.ip 16) none
  pure ⟨flags, ptype, port, v4, v6⟩

/-- `MarshalTo`, :165-192. -/
def marshalW (f : MPTCPAddressInformation) : W :=
  W.minLen 4 ;; W.u8 f.flags ;; W.u8 f.ptype ;; W.put (be16 f.port) ;;
  W.ip4 (hasIPv4 f.flags) f.v4 ;; W.ip16 (hasIPv6 f.flags) f.v6

/-- `MarshalLen`, :195-205. -/
def marshalLen (f : MPTCPAddressInformation) : Nat :=
  let l := 1 + 1 + 2
  let l := if hasIPv4 f.flags then l + 4 else l
  if hasIPv6 f.flags then l + 16 else l

/-- `ParseMPTCPAddressInformationFields` :117-123 and `Marshal` :156-162. -/
def codec : Codec MPTCPAddressInformation := ⟨parseP.run, fun f => f.marshalW.marshal f.marshalLen⟩

/-- What the encoder writes when flags and addresses agree. -/
def enc (f : MPTCPAddressInformation) : Bytes :=
  [f.flags] ++ ([f.ptype] ++ (be16 f.port ++ (wire4 f.v4 ++ (wire16 f.v6 ++ []))))

/-- The addresses are addresses. -/
def Valid (f : MPTCPAddressInformation) : Prop := f.v4.Is4 ∧ f.v6.Is16
/-- The flags announce the addresses there are. -/
def Agree (f : MPTCPAddressInformation) : Prop :=
  hasIPv4 f.flags = f.v4.isSome ∧ hasIPv6 f.flags = f.v6.isSome

theorem new_agree (ptype : UInt8) (port : UInt16) (v4 v6 : IP) : (new ptype port v4 v6).Agree := by
  have key : ∀ a b : Bool,
      let flags : UInt8 := 0
      let flags := if a then flags ||| 0x01 else flags
      let flags := if b then flags ||| 0x02 else flags
      hasIPv4 flags = a ∧ hasIPv6 flags = b := by decide
  exact key v4.isSome v6.isSome

theorem enc_length (f : MPTCPAddressInformation) (h : f.Valid) (ha : f.Agree) :
    f.enc.length = f.marshalLen := by
  simp only [enc, marshalLen, List.length_append, wire4_length h.1, wire16_length h.2, ite_len, be16_length,
    List.length_cons, List.length_nil, ha.1, ha.2]
  omega

theorem emits (f : MPTCPAddressInformation) (h : f.Valid) (ha : f.Agree) : codec.marshal f = .ok f.enc := by
  show f.marshalW.marshal f.marshalLen = _
  rw [← enc_length f h ha]
  refine W.Emits.marshal_minLen (by simp [enc]) ?_
  exact W.Emits.seq (W.Emits.u8 _) (W.Emits.seq (W.Emits.u8 _) (W.Emits.seq (W.Emits.put _)
    (W.Emits.seq (W.Emits.ip4 ha.1 h.1) (W.Emits.tail (W.Emits.ip16 ha.2 h.2)))))

theorem good : P.Good0 parseP := by
  refine P.Good0.minLen (n := 4) (m := 0) ?_
  good

theorem reads (f : MPTCPAddressInformation) (h : f.Valid) (ha : f.Agree) (tail sp : Bytes) :
    codec.parse ⟨f.enc ++ tail, sp⟩ = .ok ⟨f.flags, f.ptype, f.port, f.v4.as4, f.v6.as16⟩ := by
  refine P.Reads.run_minLen (by simp [enc]) ?_ tail sp
  exact P.Reads.bind (P.Reads.u8 _) (P.Reads.bind (P.Reads.u8 _) (P.Reads.bind (P.Reads.u16 _)
    (P.Reads.bind (P.Reads.ip4 ha.1 h.1) (P.Reads.bind (P.Reads.ip16 ha.2 h.2) (P.Reads.pure _)))))

theorem takes (s : Slice) (v : MPTCPAddressInformation) (h : codec.parse s = .ok v) :
    ∃ w post, s.data = w ++ post ∧ (w = v.enc ∧ v.Valid ∧ v.Agree) ∧ 4 ≤ s.data.length := by
  refine P.Takes.run' (m := 0) (R := fun v w => w = v.enc ∧ v.Valid ∧ v.Agree) ?_ s v h
  refine P.Takes.weaken (R := _) (P.Takes.bind P.Takes.u8 fun _ => P.Takes.bind P.Takes.u8 fun _ =>
    P.Takes.bind P.Takes.u16 fun _ =>
    P.Takes.bind P.Takes.ip4 fun _ => P.Takes.bind P.Takes.ip16 fun _ => P.Takes.pure _) ?_
  rintro f w ⟨fl, _, _, rfl, ⟨pt, _, _, rfl, ⟨po, _, _, rfl, ⟨v4, _, _, ⟨rfl, a1, a2⟩, ⟨v6, _, _, ⟨rfl, b1, b2⟩,
    ⟨rfl, rfl⟩, rfl⟩, rfl⟩, rfl⟩, rfl⟩, rfl⟩
  exact ⟨rfl, ⟨a2, b2⟩, a1.symm, b1.symm⟩

end MPTCPAddressInformation

/-! ### UELinkSpecificIPAddress -/

/-- `UELinkSpecificIPAddressFields`, /repo/ie/ue-link-specific-ip-address.go:62-68. -/
structure UELinkSpecificIPAddress where
  flags : UInt8
  v4 : IP
  v6 : IP
  nv4 : IP
  nv6 : IP
  deriving DecidableEq

namespace UELinkSpecificIPAddress

/-- `HasNV6`, :96. -/
def hasNV6 (flags : UInt8) : Bool := has4thBit flags
/-- `HasNV4`, :106. -/
def hasNV4 (flags : UInt8) : Bool := has3rdBit flags
/-- `HasIPv6`, :116. -/
def hasIPv6 (flags : UInt8) : Bool := has2ndBit flags
/-- `HasIPv4`, :126. -/
def hasIPv4 (flags : UInt8) : Bool := has1stBit flags

/-- `NewUELinkSpecificIPAddressFields`, :71-93, with the SetXxxFlag methods :101-133. -/
def new (v4 v6 nv4 nv6 : IP) : UELinkSpecificIPAddress :=
  let flags := 0
  let flags := if v4.isSome then flags ||| 0x01 else flags
  let flags := if v6.isSome then flags ||| 0x02 else flags
  let flags := if nv4.isSome then flags ||| 0x04 else flags
  let flags := if nv6.isSome then flags ||| 0x08 else flags
  ⟨flags, v4, v6, nv4, nv6⟩

/-- `UnmarshalBinary` into a zero value, :145-186. -/
def parseP : P UELinkSpecificIPAddress := do
  P.minLen 1
  let flags ← P.u8
  let v4 ← P.opt (hasIPv4 flags) (P.ip 4) none
  let v6 ← P.opt (hasIPv6 flags) (P.ip 16) none
  let nv4 ← P.opt (hasNV4 flags) (P.ip 4) none
  let nv6 ← P.opt (hasNV6 flags) (P.ip 16) none
  pure ⟨flags, v4, v6, nv4, nv6⟩

/-- `MarshalTo`, :198-239. -/
def marshalW (f : UELinkSpecificIPAddress) : W :=
  W.minLen 1 ;; W.u8 f.flags ;; W.ip4 (hasIPv4 f.flags) f.v4 ;; W.ip16 (hasIPv6 f.flags) f.v6 ;;
  W.ip4 (hasNV4 f.flags) f.nv4 ;; W.ip16 (hasNV6 f.flags) f.nv6

/-- `MarshalLen`, :242-258. -/
def marshalLen (f : UELinkSpecificIPAddress) : Nat :=
  let l := 1
  let l := if hasIPv4 f.flags then l + 4 else l
  let l := if hasIPv6 f.flags then l + 16 else l
  let l := if hasNV4 f.flags then l + 4 else l
  if hasNV6 f.flags then l + 16 else l

/-- `ParseUELinkSpecificIPAddressFields` :136-142 and `Marshal` :189-195. -/
def codec : Codec UELinkSpecificIPAddress := ⟨parseP.run, fun f => f.marshalW.marshal f.marshalLen⟩

/-- What the encoder writes when flags and addresses agree. -/
def enc (f : UELinkSpecificIPAddress) : Bytes :=
  [f.flags] ++ (wire4 f.v4 ++ (wire16 f.v6 ++ (wire4 f.nv4 ++ (wire16 f.nv6 ++ []))))

/-- The addresses are addresses. -/
def Valid (f : UELinkSpecificIPAddress) : Prop := f.v4.Is4 ∧ f.v6.Is16 ∧ f.nv4.Is4 ∧ f.nv6.Is16
/-- The flags announce the addresses there are. -/
def Agree (f : UELinkSpecificIPAddress) : Prop :=
  hasIPv4 f.flags = f.v4.isSome ∧ hasIPv6 f.flags = f.v6.isSome ∧
  hasNV4 f.flags = f.nv4.isSome ∧ hasNV6 f.flags = f.nv6.isSome

theorem new_agree (v4 v6 nv4 nv6 : IP) : (new v4 v6 nv4 nv6).Agree := by
  have key : ∀ a b c d : Bool,
      let flags : UInt8 := 0
      let flags := if a then flags ||| 0x01 else flags
      let flags := if b then flags ||| 0x02 else flags
      let flags := if c then flags ||| 0x04 else flags
      let flags := if d then flags ||| 0x08 else flags
      hasIPv4 flags = a ∧ hasIPv6 flags = b ∧ hasNV4 flags = c ∧ hasNV6 flags = d := by decide
  exact key v4.isSome v6.isSome nv4.isSome nv6.isSome

theorem enc_length (f : UELinkSpecificIPAddress) (h : f.Valid) (ha : f.Agree) :
    f.enc.length = f.marshalLen := by
  obtain ⟨h1, h2, h3, h4⟩ := h
  obtain ⟨a1, a2, a3, a4⟩ := ha
  simp only [enc, marshalLen, List.length_append, wire4_length h1, wire16_length h2, wire4_length h3,
    wire16_length h4, ite_len, List.length_cons, List.length_nil, a1, a2, a3, a4]
  omega

theorem emits (f : UELinkSpecificIPAddress) (h : f.Valid) (ha : f.Agree) : codec.marshal f = .ok f.enc := by
  show f.marshalW.marshal f.marshalLen = _
  rw [← enc_length f h ha]
  obtain ⟨h1, h2, h3, h4⟩ := h
  obtain ⟨a1, a2, a3, a4⟩ := ha
  refine W.Emits.marshal_minLen (by simp [enc]) ?_
  exact W.Emits.seq (W.Emits.u8 _) (W.Emits.seq (W.Emits.ip4 a1 h1) (W.Emits.seq (W.Emits.ip16 a2 h2)
    (W.Emits.seq (W.Emits.ip4 a3 h3) (W.Emits.tail (W.Emits.ip16 a4 h4)))))

theorem good : P.Good0 parseP := by
  refine P.Good0.minLen (n := 1) (m := 0) ?_
  good

theorem reads (f : UELinkSpecificIPAddress) (h : f.Valid) (ha : f.Agree) (tail sp : Bytes) :
    codec.parse ⟨f.enc ++ tail, sp⟩ = .ok ⟨f.flags, f.v4.as4, f.v6.as16, f.nv4.as4, f.nv6.as16⟩ := by
  obtain ⟨h1, h2, h3, h4⟩ := h
  obtain ⟨a1, a2, a3, a4⟩ := ha
  refine P.Reads.run_minLen (by simp [enc]) ?_ tail sp
  exact P.Reads.bind (P.Reads.u8 _) (P.Reads.bind (P.Reads.ip4 a1 h1) (P.Reads.bind (P.Reads.ip16 a2 h2)
    (P.Reads.bind (P.Reads.ip4 a3 h3) (P.Reads.bind (P.Reads.ip16 a4 h4) (P.Reads.pure _)))))

theorem takes (s : Slice) (v : UELinkSpecificIPAddress) (h : codec.parse s = .ok v) :
    ∃ w post, s.data = w ++ post ∧ (w = v.enc ∧ v.Valid ∧ v.Agree) ∧ 1 ≤ s.data.length := by
  refine P.Takes.run' (m := 0) (R := fun v w => w = v.enc ∧ v.Valid ∧ v.Agree) ?_ s v h
  refine P.Takes.weaken (R := _) (P.Takes.bind P.Takes.u8 fun _ =>
    P.Takes.bind P.Takes.ip4 fun _ => P.Takes.bind P.Takes.ip16 fun _ =>
    P.Takes.bind P.Takes.ip4 fun _ => P.Takes.bind P.Takes.ip16 fun _ => P.Takes.pure _) ?_
  rintro f w ⟨fl, _, _, rfl, ⟨v4, _, _, ⟨rfl, a1, a2⟩, ⟨v6, _, _, ⟨rfl, b1, b2⟩, ⟨n4, _, _, ⟨rfl, c1, c2⟩,
    ⟨n6, _, _, ⟨rfl, d1, d2⟩, ⟨rfl, rfl⟩, rfl⟩, rfl⟩, rfl⟩, rfl⟩, rfl⟩
  exact ⟨rfl, ⟨a2, b2, c2, d2⟩, a1.symm, b1.symm, c1.symm, d1.symm⟩

end UELinkSpecificIPAddress

/-! ### SourceIPAddress -/

/-- `SourceIPAddressFields`, /repo/ie/source-ip-address.go:84-89. -/
structure SourceIPAddress where
  flags : UInt8
  v4 : IP
  v6 : IP
  mpl : UInt8
  deriving DecidableEq

namespace SourceIPAddress

/-- `HasMPL`, :113. -/
def hasMPL (flags : UInt8) : Bool := has3rdBit flags
/-- `HasIPv4`, :123. -/
def hasIPv4 (flags : UInt8) : Bool := has2ndBit flags
/-- `HasIPv6`, :133. -/
def hasIPv6 (flags : UInt8) : Bool := has1stBit flags

/-- `NewSourceIPAddressFields`, :92-110, with the SetXxxFlag methods :118-140. -/
def new (v4 v6 : IP) (mpl : UInt8) : SourceIPAddress :=
  let flags := 0
  let flags := if v4.isSome then flags ||| 0x02 else flags
  let flags := if v6.isSome then flags ||| 0x01 else flags
  let flags := if mpl != 0 then flags ||| 0x04 else flags
  ⟨flags, v4, v6, mpl⟩

/-- `UnmarshalBinary` into a zero value, :152-185. The check before the last octet is `l < offset`. -/
def parseP : P SourceIPAddress := do
  P.minLen 2
  let flags ← P.u8
  let v4 ← P.opt (hasIPv4 flags) (P.ip 4) none
  let v6 ← P.opt (hasIPv6 flags) (P.ip 16) none
  let mpl ← P.opt (hasMPL flags) (P.need 0 >>= fun _ => P.u8) 0
  pure ⟨flags, v4, v6, mpl⟩

/-- `MarshalTo`, :197-230. -/
def marshalW (f : SourceIPAddress) : W :=
  W.minLen 1 ;; W.u8 f.flags ;; W.ip4 (hasIPv4 f.flags) f.v4 ;; W.ip16 (hasIPv6 f.flags) f.v6 ;;
  W.opt (hasMPL f.flags) (W.need 0 ;; W.u8 f.mpl)

/-- `MarshalLen`, :233-246. -/
def marshalLen (f : SourceIPAddress) : Nat :=
  let l := 1
  let l := if hasIPv4 f.flags then l + 4 else l
  let l := if hasIPv6 f.flags then l + 16 else l
  if hasMPL f.flags then l + 1 else l

/-- `ParseSourceIPAddressFields` :143-149 and `Marshal` :188-194. -/
def codec : Codec SourceIPAddress := ⟨parseP.run, fun f => f.marshalW.marshal f.marshalLen⟩

/-- What the encoder writes when flags and addresses agree. -/
def enc (f : SourceIPAddress) : Bytes :=
  [f.flags] ++ (wire4 f.v4 ++ (wire16 f.v6 ++ ((if hasMPL f.flags then [f.mpl] else []) ++ [])))

/-- The addresses are addresses. -/
def Valid (f : SourceIPAddress) : Prop := f.v4.Is4 ∧ f.v6.Is16
/-- The flags announce the addresses there are. -/
def Agree (f : SourceIPAddress) : Prop := hasIPv4 f.flags = f.v4.isSome ∧ hasIPv6 f.flags = f.v6.isSome

theorem new_agree (v4 v6 : IP) (mpl : UInt8) :
    (new v4 v6 mpl).Agree ∧ hasMPL (new v4 v6 mpl).flags = (mpl != 0) := by
  have key : ∀ a b c : Bool,
      let flags : UInt8 := 0
      let flags := if a then flags ||| 0x02 else flags
      let flags := if b then flags ||| 0x01 else flags
      let flags := if c then flags ||| 0x04 else flags
      (hasIPv4 flags = a ∧ hasIPv6 flags = b) ∧ hasMPL flags = c := by decide
  exact key v4.isSome v6.isSome (mpl != 0)

theorem enc_length (f : SourceIPAddress) (h : f.Valid) (ha : f.Agree) : f.enc.length = f.marshalLen := by
  simp only [enc, marshalLen, List.length_append, wire4_length h.1, wire16_length h.2, ite_len,
    apply_ite List.length, List.length_cons, List.length_nil, ha.1, ha.2]
  omega

theorem emits (f : SourceIPAddress) (h : f.Valid) (ha : f.Agree) : codec.marshal f = .ok f.enc := by
  show f.marshalW.marshal f.marshalLen = _
  rw [← enc_length f h ha]
  refine W.Emits.marshal_minLen (by simp [enc]) ?_
  exact W.Emits.seq (W.Emits.u8 _) (W.Emits.seq (W.Emits.ip4 ha.1 h.1) (W.Emits.seq (W.Emits.ip16 ha.2 h.2)
    (W.Emits.tail (W.Emits.optIf fun _ => W.Emits.need (by simp) (W.Emits.u8 _)))))

theorem reads (f : SourceIPAddress) (h : f.Valid) (ha : f.Agree) (hl : 2 ≤ f.enc.length) (tail sp : Bytes) :
    codec.parse ⟨f.enc ++ tail, sp⟩
      = .ok ⟨f.flags, f.v4.as4, f.v6.as16, if hasMPL f.flags then f.mpl else 0⟩ := by
  refine P.Reads.run_minLen hl ?_ tail sp
  exact P.Reads.bind (P.Reads.u8 _) (P.Reads.bind (P.Reads.ip4 ha.1 h.1) (P.Reads.bind (P.Reads.ip16 ha.2 h.2)
    (P.Reads.bind (P.Reads.optIte fun _ => P.Reads.need (by simp) (P.Reads.u8 _)) (P.Reads.pure _))))

theorem takes (s : Slice) (v : SourceIPAddress) (h : codec.parse s = .ok v) :
    ∃ w post, s.data = w ++ post ∧ (w = v.enc ∧ v.Valid ∧ v.Agree) ∧ 2 ≤ s.data.length := by
  refine P.Takes.run' (m := 0) (R := fun v w => w = v.enc ∧ v.Valid ∧ v.Agree) ?_ s v h
  have hm : P.Takes 0 (P.need 0 >>= fun _ => P.u8) 0 (fun x w => w = [x]) := by
    intro d sp o b o' ho hh
    have hh' : P.bind (P.need 0) (fun _ => P.u8) ⟨d, sp⟩ o = .ok (b, o') := hh
    unfold P.bind P.need at hh'
    simp only at hh'
    rw [if_neg (by omega)] at hh'
    simp only at hh'
    by_cases hl : o < d.length
    · obtain ⟨w, post, e1, e2, e3, e4⟩ := P.Takes.u8 (k := 0) d sp o b o' (by omega) hh'
      exact ⟨w, post, e1, e2, e3, by omega⟩
    · unfold P.u8 Slice.idx at hh'
      simp only at hh'
      rw [List.getElem?_eq_none (by omega)] at hh'
      cases hh'
  refine P.Takes.weaken (R := _) (P.Takes.bind P.Takes.u8 fun _ =>
    P.Takes.bind P.Takes.ip4 fun _ => P.Takes.bind P.Takes.ip16 fun _ =>
    P.Takes.bind (P.Takes.optIf hm) fun _ => P.Takes.pure _) ?_
  rintro f w ⟨fl, _, _, rfl, ⟨v4, _, _, ⟨rfl, a1, a2⟩, ⟨v6, _, _, ⟨rfl, b1, b2⟩, ⟨m, _, _, rfl, ⟨rfl, rfl⟩, rfl⟩,
    rfl⟩, rfl⟩, rfl⟩
  exact ⟨rfl, ⟨a2, b2⟩, a1.symm, b1.symm⟩

end SourceIPAddress
end Fields
end Pfcp
