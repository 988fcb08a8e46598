/-
Structured elements whose constructors take addresses as strings, and the multicast address.
`net.ParseIP` is not modelled: a constructor here takes what `net.ParseIP` returned (nil for an unparsable string).
Go strings are byte strings.
-/
import Verif.Fields.Loc

namespace Pfcp
namespace Fields

/-! ### UEIPAddress -/

/-- `UEIPAddressFields`, /repo/ie/ue-ip-address.go:180-186. -/
structure UEIPAddress where
  flags : UInt8
  v4 : IP
  v6 : IP
  v6d : UInt8
  v6pl : UInt8
  deriving DecidableEq

namespace UEIPAddress

/-- `has2ndBit(flags) && !has5thBit(flags)` -/
def hasIPv4 (flags : UInt8) : Bool := has2ndBit flags && !has5thBit flags
/-- `has1stBit(flags) && !has6thBit(flags)` -/
def hasIPv6 (flags : UInt8) : Bool := has1stBit flags && !has6thBit flags

/-- `NewUEIPAddressFields`, :189-209. -/
def new (flags : UInt8) (v4 v6 : IP) (v6d v6pl : UInt8) : UEIPAddress :=
  { flags := flags
    v4 := if hasIPv4 flags then v4.conv4 else none
    v6 := if hasIPv6 flags then v6.conv16 else none
    v6d := if has4thBit flags then v6d else 0
    v6pl := if has7thBit flags then v6pl else 0 }

/-- The two last fields, :245-258; neither advances `offset`. -/
def parseEnd (flags : UInt8) (v4 v6 : IP) : P UEIPAddress := do
  let v6d ← P.opt (has4thBit flags) P.look 0
  let v6pl ← P.opt (has7thBit flags) P.look 0
  pure ⟨flags, v4, v6, v6d, v6pl⟩

/-- `UnmarshalBinary` into a zero value, :221-261. -/
def parseP : P UEIPAddress := do
  P.minLen 1
  let flags ← P.u8
  let v4 ← P.opt (hasIPv4 flags) (P.ip 4) none
  let v6 ← P.opt (hasIPv6 flags) (P.ip 16) none
  parseEnd flags v4 v6

/-- `MarshalTo`, :273-302. The last assignment does not advance `offset`, which is not used again. -/
def marshalW (f : UEIPAddress) : W :=
  W.minLen 1 ;; W.u8 f.flags ;; W.opt (hasIPv4 f.flags) (W.copy 4 f.v4.val) ;;
  W.opt (hasIPv6 f.flags) (W.copy 16 f.v6.val) ;;
  W.opt (has4thBit f.flags) (W.u8 f.v6d) ;; W.opt (has7thBit f.flags) (W.u8 f.v6pl)

/-- `MarshalLen`, :305-321. -/
def marshalLen (f : UEIPAddress) : Nat :=
  let l := 1
  let l := if hasIPv4 f.flags then l + 4 else l
  let l := if hasIPv6 f.flags then l + 16 else l
  let l := if has4thBit f.flags then l + 1 else l
  if has7thBit f.flags then l + 1 else l

/-- `ParseUEIPAddressFields` :212-218 and `Marshal` :264-270. -/
def codec : Codec UEIPAddress := ⟨parseP.run, fun f => f.marshalW.marshal f.marshalLen⟩

/-- What the encoder writes when flags and addresses agree. -/
def enc (f : UEIPAddress) : Bytes :=
  [f.flags] ++ (f.v4.val ++ (f.v6.val ++ ((if has4thBit f.flags then [f.v6d] else []) ++
    ((if has7thBit f.flags then [f.v6pl] else []) ++ []))))

/-- The addresses are those announced. -/
def Agree (f : UEIPAddress) : Prop :=
  (hasIPv4 f.flags = f.v4.isSome ∧ f.v4.Len 4) ∧ (hasIPv6 f.flags = f.v6.isSome ∧ f.v6.Len 16)

theorem enc_length (f : UEIPAddress) (h : f.Agree) : f.enc.length = f.marshalLen := by
  obtain ⟨⟨h1, h2⟩, h3, h4⟩ := h
  simp only [enc, marshalLen, List.length_append, h2.val, h4.val, ite_len, apply_ite List.length,
    List.length_cons, List.length_nil, h1, h3]
  omega

theorem emits (f : UEIPAddress) (h : f.Agree) : codec.marshal f = .ok f.enc := by
  show f.marshalW.marshal f.marshalLen = _
  rw [← enc_length f h]
  obtain ⟨⟨h1, h2⟩, h3, h4⟩ := h
  refine W.Emits.marshal_minLen (by simp [enc]) ?_
  exact W.Emits.seq (W.Emits.u8 _) (W.Emits.seq (W.Emits.raw h1 h2) (W.Emits.seq (W.Emits.raw h3 h4)
    (W.Emits.seq (W.Emits.optIf fun _ => W.Emits.u8 _) (W.Emits.tail (W.Emits.optIf fun _ => W.Emits.u8 _)))))

theorem good : P.Good0 parseP := by
  refine P.Good0.minLen (n := 1) (m := 0) ?_
  refine P.Good.bind P.Good.u8 fun _ => P.Good.bind (P.Good.opt P.Good.ip (Nat.zero_le _)) fun _ =>
    P.Good.bind (P.Good.opt P.Good.ip (Nat.zero_le _)) fun _ => ?_
  exact P.Good.bind (P.Good.opt P.Good.look (Nat.le_refl _)) fun _ =>
    P.Good.bind (P.Good.opt P.Good.look (Nat.le_refl _)) fun _ => P.Good.pure _ (Nat.le_refl _)

/-- Both last fields come from the same octet. -/
theorem parseEnd_reads (flags : UInt8) (v4 v6 : IP) (d pl : UInt8) :
    P.ReadsEnd (parseEnd flags v4 v6)
      ((if has4thBit flags then [d] else []) ++ ((if has7thBit flags then [pl] else []) ++ []))
      ⟨flags, v4, v6, if has4thBit flags then d else 0,
        if has7thBit flags then (if has4thBit flags then d else pl) else 0⟩ := by
  intro pre post sp
  refine ⟨pre.length, ?_⟩
  unfold parseEnd
  cases has4thBit flags <;> cases has7thBit flags
  · rfl
  · have := P.look_cons pre pl post sp
    simp only [Bool.false_eq_true, if_false, if_true, List.nil_append, List.append_nil, P.opt_true, P.opt_false,
      P.bind_pure', List.append_assoc] at this ⊢
    rw [P.bind_ok this]
    rfl
  · have := P.look_cons pre d post sp
    simp only [Bool.false_eq_true, if_false, if_true, List.append_nil, P.opt_true, P.opt_false,
      P.bind_pure', List.append_assoc] at this ⊢
    rw [P.bind_ok this]
    rfl
  · have := P.look_cons pre d ([pl] ++ post) sp
    simp only [if_true, List.append_nil, P.opt_true, List.append_assoc] at this ⊢
    rw [P.bind_ok this, P.bind_ok this]
    rfl

/-- Decoding an encoding; with both last fields present the prefix length is lost. -/
theorem reads (f : UEIPAddress) (h : f.Agree) (tail sp : Bytes) :
    codec.parse ⟨f.enc ++ tail, sp⟩ = .ok ⟨f.flags, f.v4, f.v6, if has4thBit f.flags then f.v6d else 0,
      if has7thBit f.flags then (if has4thBit f.flags then f.v6d else f.v6pl) else 0⟩ := by
  obtain ⟨⟨h1, h2⟩, h3, h4⟩ := h
  refine P.ReadsEnd.run_minLen (by simp [enc]) ?_ tail sp
  exact P.Reads.bindEnd (P.Reads.u8 _) (P.Reads.bindEnd (P.Reads.raw h1 h2) (P.Reads.bindEnd (P.Reads.raw h3 h4)
    (parseEnd_reads _ _ _ _ _)))

theorem parseEnd_takes (flags : UInt8) (v4 v6 : IP) (hf : (has4thBit flags && has7thBit flags) = false) :
    P.TakesEnd 0 (parseEnd flags v4 v6) (fun v w => v.flags = flags ∧ v.v4 = v4 ∧ v.v6 = v6 ∧
      w = (if has4thBit flags then [v.v6d] else []) ++ ((if has7thBit flags then [v.v6pl] else []) ++ [])) := by
  intro d sp o v o' ho h
  unfold parseEnd at h
  revert hf h
  cases has4thBit flags <;> cases has7thBit flags <;> intro hf h
  · cases h
    exact ⟨[], d.drop o, rfl, rfl, rfl, rfl, rfl⟩
  · simp only [P.opt_true, P.opt_false, P.bind_pure'] at h
    obtain ⟨x, o1, hl, h⟩ := P.bind_inv h
    cases h
    obtain ⟨_, post, e⟩ := P.look_ok hl
    exact ⟨[x], post, e, rfl, rfl, rfl, rfl⟩
  · simp only [P.opt_true, P.opt_false, P.bind_pure'] at h
    obtain ⟨x, o1, hl, h⟩ := P.bind_inv h
    cases h
    obtain ⟨_, post, e⟩ := P.look_ok hl
    exact ⟨[x], post, e, rfl, rfl, rfl, rfl⟩
  · cases hf

/-- Unless both last fields are announced, a decoder success has consumed the encoding of the result. -/
theorem takes (s : Slice) (v : UEIPAddress) (h : codec.parse s = .ok v) :
    ∃ w post, s.data = w ++ post ∧ ((has4thBit v.flags && has7thBit v.flags) = false → w = v.enc ∧ v.Agree) ∧
      1 ≤ s.data.length := by
  suffices hk : P.TakesEnd 1 (P.u8 >>= fun flags => P.opt (hasIPv4 flags) (P.ip 4) none >>= fun v4 =>
      P.opt (hasIPv6 flags) (P.ip 16) none >>= fun v6 => parseEnd flags v4 v6)
      (fun v w => (has4thBit v.flags && has7thBit v.flags) = false → w = v.enc ∧ v.Agree) by
    have := P.TakesEnd.run (f := fun _ => P.u8 >>= fun flags => P.opt (hasIPv4 flags) (P.ip 4) none >>= fun v4 =>
      P.opt (hasIPv6 flags) (P.ip 16) none >>= fun v6 => parseEnd flags v4 v6) hk s v h
    exact this
  have he : ∀ fl v4 v6, P.TakesEnd 0 (parseEnd fl v4 v6) (fun v w => v.flags = fl ∧ v.v4 = v4 ∧ v.v6 = v6 ∧
      ((has4thBit fl && has7thBit fl) = false →
      w = (if has4thBit fl then [v.v6d] else []) ++ ((if has7thBit fl then [v.v6pl] else []) ++ []))) := by
    intro fl v4 v6
    cases hf : (has4thBit fl && has7thBit fl)
    · refine (parseEnd_takes fl v4 v6 hf).weaken ?_
      rintro a w ⟨h1, h2, h3, h4⟩
      exact ⟨h1, h2, h3, fun _ => h4⟩
    · intro d sp o v o' ho h
      refine ⟨[], d.drop o, rfl, ?_⟩
      obtain ⟨a, o1, _, h⟩ := P.bind_inv h
      obtain ⟨b, o2, _, h⟩ := P.bind_inv h
      cases h
      exact ⟨rfl, rfl, rfl, fun h => by cases h⟩
  refine P.TakesEnd.weaken (R := _) (P.Takes.bindEnd P.Takes.u8 fun fl => P.Takes.bindEnd P.Takes.raw fun v4 =>
    P.Takes.bindEnd P.Takes.raw fun v6 => he fl v4 v6) ?_
  rintro f w ⟨fl, _, _, rfl, ⟨v4, _, _, ⟨rfl, a1, a2⟩, ⟨v6, _, _, ⟨rfl, b1, b2⟩, ⟨rfl, rfl, rfl, h4⟩, rfl⟩,
    rfl⟩, rfl⟩ hf
  rw [h4 hf]
  exact ⟨rfl, ⟨a1.symm, a2⟩, b1.symm, b2⟩

end UEIPAddress

/-! ### RemoteGTPUPeer -/

/-- `RemoteGTPUPeerFields`, /repo/ie/remote-gtp-u-peer.go:108-116. -/
structure RemoteGTPUPeer where
  flags : UInt8
  v4 : IP
  v6 : IP
  diLength : UInt16
  di : UInt8
  niLength : UInt16
  ni : Bytes
  deriving DecidableEq

namespace RemoteGTPUPeer

/-- `NewRemoteGTPUPeerFields`, :119-141. -/
def new (flags : UInt8) (v4 v6 : IP) (di : UInt8) (ni : Bytes) : RemoteGTPUPeer :=
  { flags := flags
    v4 := if has2ndBit flags then v4.conv4 else none
    v6 := if has1stBit flags then v6.conv16 else none
    diLength := if has3rdBit flags then 1 else 0
    di := if has3rdBit flags then di &&& 0x0f else 0
    niLength := if has4thBit flags then UInt16.ofNat ni.length else 0
    ni := if has4thBit flags then ni else [] }

/-- The destination interface, :178-190. -/
def parseDI : P (UInt16 × UInt8) := do
  let n ← P.f16
  P.need n.toNat
  let di ← P.peek 0
  P.skip n.toNat
  pure (n, di)

/-- The network instance, :192-203; `offset` is not used after it. -/
def parseNI : P (UInt16 × Bytes) := do
  let n ← P.f16
  let ni ← P.field n.toNat
  pure (n, ni)

/-- `UnmarshalBinary` into a zero value, :153-206. -/
def parseP : P RemoteGTPUPeer := do
  P.minLen 2
  let flags ← P.u8
  let v4 ← P.opt (has2ndBit flags) (P.ip 4) none
  let v6 ← P.opt (has1stBit flags) (P.ip 16) none
  let di ← P.opt (has3rdBit flags) parseDI (0, 0)
  let ni ← P.opt (has4thBit flags) parseNI (0, [])
  pure ⟨flags, v4, v6, di.1, di.2, ni.1, ni.2⟩

/-- `MarshalTo`, :218-251. -/
def marshalW (f : RemoteGTPUPeer) : W :=
  W.minLen 2 ;; W.u8 f.flags ;; W.opt (has2ndBit f.flags) (W.copy 4 f.v4.val) ;;
  W.opt (has1stBit f.flags) (W.copy 16 f.v6.val) ;;
  W.opt (has3rdBit f.flags) (W.put (be16 f.diLength) ;; W.poke f.di ;; W.skip f.diLength.toNat) ;;
  W.opt (has4thBit f.flags) (W.put (be16 f.niLength) ;; W.copy f.niLength.toNat f.ni)

/-- `MarshalLen`, :254-270. -/
def marshalLen (f : RemoteGTPUPeer) : Nat :=
  let l := 1
  let l := if has2ndBit f.flags && !has5thBit f.flags then l + 4 else l
  let l := if has1stBit f.flags && !has5thBit f.flags then l + 16 else l
  let l := if has3rdBit f.flags then l + (2 + f.diLength.toNat) else l
  if has4thBit f.flags then l + (2 + f.niLength.toNat) else l

/-- `ParseRemoteGTPUPeerFields` :144-150 and `Marshal` :209-215. -/
def codec : Codec RemoteGTPUPeer := ⟨parseP.run, fun f => f.marshalW.marshal f.marshalLen⟩

/-- What the encoder writes for a ready value. -/
def enc (f : RemoteGTPUPeer) : Bytes :=
  [f.flags] ++ (f.v4.val ++ (f.v6.val ++ ((if has3rdBit f.flags then be16 f.diLength ++ [f.di] else []) ++
    ((if has4thBit f.flags then be16 f.niLength ++ f.ni else []) ++ []))))

/-- Addresses as announced, a one-octet destination interface, a network instance of the length stored,
the spare fifth bit clear. -/
def Ready (f : RemoteGTPUPeer) : Prop :=
  has5thBit f.flags = false ∧
  ((has2ndBit f.flags = f.v4.isSome ∧ f.v4.Len 4) ∧ (has1stBit f.flags = f.v6.isSome ∧ f.v6.Len 16)) ∧
  (has3rdBit f.flags = true → f.diLength = 1) ∧ (has4thBit f.flags = true → f.ni.length = f.niLength.toNat)

theorem enc_length (f : RemoteGTPUPeer) (h : f.Ready) : f.enc.length = f.marshalLen := by
  obtain ⟨h5, ⟨⟨h1, h2⟩, h3, h4⟩, hd, hn⟩ := h
  simp only [enc, marshalLen, List.length_append, h2.val, h4.val, ite_len, apply_ite List.length, be16_length,
    List.length_cons, List.length_nil, ← h1, ← h3, h5, Bool.not_false, Bool.and_true]
  cases hb3 : has3rdBit f.flags <;> cases hb4 : has4thBit f.flags <;> simp [hd, hn, hb3, hb4] <;> omega

theorem emits (f : RemoteGTPUPeer) (h : f.Ready) (hl : 2 ≤ f.enc.length) : codec.marshal f = .ok f.enc := by
  show f.marshalW.marshal f.marshalLen = _
  rw [← enc_length f h]
  obtain ⟨h5, ⟨⟨h1, h2⟩, h3, h4⟩, hd, hn⟩ := h
  refine W.Emits.marshal_minLen hl ?_
  refine W.Emits.seq (W.Emits.u8 _) (W.Emits.seq (W.Emits.raw h1 h2) (W.Emits.seq (W.Emits.raw h3 h4)
    (W.Emits.seq (W.Emits.optIf fun e => W.Emits.seq (W.Emits.put _) ?_)
      (W.Emits.tail (W.Emits.optIf fun e => W.Emits.seq (W.Emits.put _) ?_)))))
  · have := W.Emits.poke_skip f.di f.diLength.toNat (by rw [hd e]; decide)
    rw [hd e] at this ⊢
    exact this
  · exact W.Emits.copy _ (hn e)

theorem loc : P.Loc 2 (do
    let flags ← P.u8
    let v4 ← P.opt (has2ndBit flags) (P.ip 4) none
    let v6 ← P.opt (has1stBit flags) (P.ip 16) none
    let di ← P.opt (has3rdBit flags) parseDI (0, 0)
    let ni ← P.opt (has4thBit flags) parseNI (0, [])
    pure (⟨flags, v4, v6, di.1, di.2, ni.1, ni.2⟩ : RemoteGTPUPeer)) 0 := by
  have hd : P.Loc 0 parseDI 0 := by
    refine P.Loc.bind P.Good.f16.loc fun n => P.Loc.bind (P.Good.need _).loc fun _ =>
      P.Loc.bind (P.Loc.peek 0) fun _ => P.Loc.bind ?_ fun _ => (P.Good.pure _ (Nat.le_refl _)).loc
    have := P.Loc.skip (k := 0) n.toNat
    rwa [Nat.zero_add] at this
  have hn : P.Loc 0 parseNI 0 :=
    P.Loc.bind P.Good.f16.loc fun _ => P.Loc.bind (P.Good.field _).loc fun _ => (P.Good.pure _ (Nat.le_refl _)).loc
  exact P.Loc.bind P.Loc.u8 fun _ => P.Loc.bind (P.Loc.opt P.Good.ip.loc (Nat.zero_le _)) fun _ =>
    P.Loc.bind (P.Loc.opt P.Good.ip.loc (Nat.zero_le _)) fun _ => P.Loc.bind (P.Loc.opt hd (Nat.zero_le _)) fun _ =>
    P.Loc.bind (P.Loc.opt hn (Nat.zero_le _)) fun _ => (P.Good.pure _ (Nat.le_refl _)).loc

theorem parseDI_reads (di : UInt8) : P.Reads parseDI (be16 1 ++ [di]) (1, di) := by
  intro pre post sp
  have h1 := P.Reads.f16 1 pre ([di] ++ post) sp
  have hb : ∀ s o, parseDI s o = P.bind P.f16 (fun n => P.bind (P.need n.toNat) fun _ => P.bind (P.peek 0) fun di =>
      P.bind (P.skip n.toNat) fun _ => P.pure (n, di)) s o := fun _ _ => rfl
  rw [hb]
  unfold P.bind
  rw [show pre ++ (be16 1 ++ [di]) ++ post = pre ++ be16 1 ++ ([di] ++ post) by simp, h1]
  simp only [be16_length]
  unfold P.need P.peek P.skip Slice.idx
  have e1 : (1 : UInt16).toNat = 1 := by decide
  have e2 : (pre ++ be16 1 ++ ([di] ++ post))[pre.length + 2]? = some di := by
    rw [List.getElem?_append_right (by simp)]
    simp
  simp only [e1, List.length_append, be16_length, List.length_cons, List.length_nil, Nat.add_zero]
  rw [if_neg (by omega)]
  simp only [e2]
  rfl

theorem reads (f : RemoteGTPUPeer) (h : f.Ready) (hl : 2 ≤ f.enc.length) (tail sp : Bytes) :
    codec.parse ⟨f.enc ++ tail, sp⟩ = .ok ⟨f.flags, f.v4, f.v6,
      if has3rdBit f.flags then 1 else 0, if has3rdBit f.flags then f.di else 0,
      if has4thBit f.flags then f.niLength else 0, if has4thBit f.flags then f.ni else []⟩ := by
  obtain ⟨h5, ⟨⟨h1, h2⟩, h3, h4⟩, hd, hn⟩ := h
  refine P.Reads.run_minLen hl ?_ tail sp
  have r1 : P.Reads (P.opt (has3rdBit f.flags) parseDI (0, 0))
      (if has3rdBit f.flags then be16 f.diLength ++ [f.di] else [])
      (if has3rdBit f.flags then 1 else 0, if has3rdBit f.flags then f.di else 0) := by
    cases hb : has3rdBit f.flags
    · exact P.Reads.pure _
    · rw [hd hb]; exact parseDI_reads f.di
  have r2 : P.Reads (P.opt (has4thBit f.flags) parseNI (0, []))
      (if has4thBit f.flags then be16 f.niLength ++ f.ni else [])
      (if has4thBit f.flags then f.niLength else 0, if has4thBit f.flags then f.ni else []) := by
    cases hb : has4thBit f.flags
    · exact P.Reads.pure _
    · exact P.Reads.bind (P.Reads.f16 _) (P.Reads.map (fun x => (f.niLength, x)) (P.Reads.field _ (hn hb)))
  exact P.Reads.bind (P.Reads.u8 _) (P.Reads.bind (P.Reads.raw h1 h2) (P.Reads.bind (P.Reads.raw h3 h4)
    (P.Reads.bind r1 (P.Reads.bind r2 (P.Reads.pure _)))))

theorem parseDI_takes (k : Nat) : P.Takes k parseDI 0 (fun x w => x.1 = 1 → w = be16 x.1 ++ [x.2]) := by
  intro d sp o x o' ho h
  obtain ⟨n, o1, h1, h⟩ := P.bind_inv h
  obtain ⟨w, post, e, rfl, rfl, _⟩ := P.Takes.f16 (k := k) d sp o n o1 ho h1
  obtain ⟨_, o2, h2, h⟩ := P.bind_inv h
  obtain ⟨hl, rfl⟩ := P.need_inv h2
  obtain ⟨y, o3, h3, h⟩ := P.bind_inv h
  unfold P.peek at h3
  cases hx : Slice.idx ⟨d, sp⟩ (o + (be16 n).length + 0) with
  | panic => rw [hx] at h3; cases h3
  | err e => rw [hx] at h3; cases h3
  | ok z =>
    rw [hx] at h3; cases h3
    cases h
    simp only [be16_length, Nat.add_zero] at hx hl ⊢
    refine ⟨be16 n ++ post.take n.toNat, post.drop n.toNat, ?_, ?_, ?_, ?_⟩
    · rw [e, List.append_assoc, List.take_append_drop]
    · have : d.length - o = 2 + post.length := by
        rw [← List.length_drop, e, List.length_append, be16_length]
      rw [List.length_append, List.length_take, be16_length]
      omega
    · rintro rfl
      show be16 1 ++ List.take 1 post = be16 1 ++ [y]
      congr 1
      have e2 : d.drop (o + 2) = post := by
        rw [← List.drop_drop, e]; rfl
      have e3 : d[o + 2]? = some y := by
        unfold Slice.idx at hx
        simp only at hx
        cases hq : d[o + 2]? with
        | none => rw [hq] at hx; cases hx
        | some q => rw [hq] at hx; cases hx; rfl
      rw [← e2]
      have := (List.getElem?_eq_some_iff.1 e3)
      obtain ⟨hlt, hy⟩ := this
      rw [List.drop_eq_getElem_cons hlt, hy]
      rfl
    · omega

theorem parseNI_takes (k : Nat) : P.Takes k parseNI 0 (fun x w => w = be16 x.1 ++ x.2 ∧ x.2.length = x.1.toNat) := by
  refine P.Takes.weaken (P.Takes.bind P.Takes.f16 fun n => P.Takes.bind (P.Takes.field n.toNat) fun x =>
    P.Takes.pure (n, x)) ?_
  rintro x w ⟨n, _, _, rfl, ⟨y, _, _, ⟨rfl, hl⟩, ⟨rfl, rfl⟩, rfl⟩, rfl⟩
  exact ⟨by simp, hl⟩

/-- A decoder success with a one-octet destination interface and a clear fifth bit has consumed the encoding of the
result. -/
theorem takes (s : Slice) (v : RemoteGTPUPeer) (h : codec.parse s = .ok v) :
    ∃ w post, s.data = w ++ post ∧ (has5thBit v.flags = false → (has3rdBit v.flags = true → v.diLength = 1) →
      w = v.enc ∧ v.Ready) ∧ 2 ≤ s.data.length := by
  suffices hk : P.Takes 2 (P.u8 >>= fun flags => P.opt (has2ndBit flags) (P.ip 4) none >>= fun v4 =>
      P.opt (has1stBit flags) (P.ip 16) none >>= fun v6 => P.opt (has3rdBit flags) parseDI (0, 0) >>= fun di =>
      P.opt (has4thBit flags) parseNI (0, []) >>= fun ni =>
      (Pure.pure ⟨flags, v4, v6, di.1, di.2, ni.1, ni.2⟩ : P RemoteGTPUPeer)) 0
      (fun v w => has5thBit v.flags = false → (has3rdBit v.flags = true → v.diLength = 1) → w = v.enc ∧ v.Ready) by
    have := P.TakesEnd.run (f := fun _ => P.u8 >>= fun flags => P.opt (has2ndBit flags) (P.ip 4) none >>= fun v4 =>
      P.opt (has1stBit flags) (P.ip 16) none >>= fun v6 => P.opt (has3rdBit flags) parseDI (0, 0) >>= fun di =>
      P.opt (has4thBit flags) parseNI (0, []) >>= fun ni =>
      (Pure.pure ⟨flags, v4, v6, di.1, di.2, ni.1, ni.2⟩ : P RemoteGTPUPeer)) hk.toEnd s v h
    exact this
  have t1 : ∀ c, P.Takes 0 (P.opt c parseDI (0, 0)) 0 (fun x w => (c = true → x.1 = 1) →
      w = if c then be16 x.1 ++ [x.2] else []) := by
    intro c
    cases c
    · refine P.Takes.weaken (P.Takes.pure ((0, 0) : UInt16 × UInt8)) ?_
      rintro x w ⟨rfl, rfl⟩ _; rfl
    · refine P.Takes.weaken (parseDI_takes 0) ?_
      intro x w hx h1
      exact hx (h1 rfl)
  have t2 : ∀ c, P.Takes 0 (P.opt c parseNI (0, [])) 0 (fun x w => (w = if c then be16 x.1 ++ x.2 else []) ∧
      (c = true → x.2.length = x.1.toNat)) := by
    intro c
    cases c
    · refine P.Takes.weaken (P.Takes.pure ((0, []) : UInt16 × Bytes)) ?_
      rintro x w ⟨rfl, rfl⟩; exact ⟨rfl, fun h => by cases h⟩
    · refine P.Takes.weaken (parseNI_takes 0) ?_
      intro x w hx
      exact ⟨hx.1, fun _ => hx.2⟩
  refine P.Takes.weaken (P.Takes.bind P.Takes.u8 fun fl => P.Takes.bind P.Takes.raw fun v4 =>
    P.Takes.bind P.Takes.raw fun v6 => P.Takes.bind (t1 _) fun di => P.Takes.bind (t2 _) fun ni => P.Takes.pure _) ?_
  rintro v w ⟨fl, _, _, rfl, ⟨v4, _, _, ⟨rfl, a1, a2⟩, ⟨v6, _, _, ⟨rfl, b1, b2⟩, ⟨di, _, _, hd,
    ⟨ni, _, _, ⟨rfl, hn⟩, ⟨rfl, rfl⟩, rfl⟩, rfl⟩, rfl⟩, rfl⟩, rfl⟩ h5 h1
  rw [hd h1]
  exact ⟨rfl, h5, ⟨⟨a1.symm, a2⟩, b1.symm, b2⟩, h1, hn⟩

end RemoteGTPUPeer

/-! ### IPMulticastAddress -/

/-- `IPMulticastAddressFields`, /repo/ie/ip-multicast-address.go:95-101. -/
structure IPMulticastAddress where
  flags : UInt8
  sv4 : IP
  sv6 : IP
  ev4 : IP
  ev6 : IP
  deriving DecidableEq

namespace IPMulticastAddress

/-- `HasAny`, :134. -/
def hasAny (flags : UInt8) : Bool := has4thBit flags
/-- `HasRange`, :144. -/
def hasRange (flags : UInt8) : Bool := has3rdBit flags
/-- `HasIPv4`, :154. -/
def hasIPv4 (flags : UInt8) : Bool := has2ndBit flags
/-- `HasIPv6`, :164. -/
def hasIPv6 (flags : UInt8) : Bool := has1stBit flags

/-- `NewIPMulticastAddressFields`, :104-131, with the SetXxxFlag methods :139-171. -/
def new (sv4 sv6 ev4 ev6 : IP) : IPMulticastAddress :=
  if sv4.isNone && sv6.isNone then ⟨0 ||| 0x08, none, none, none, none⟩
  else
    let flags := 0
    let flags := if sv4.isSome then flags ||| 0x02 else flags
    let flags := if sv6.isSome then flags ||| 0x01 else flags
    let flags := if ev4.isSome then flags ||| 0x04 else flags
    let flags := if ev6.isSome then flags ||| 0x04 else flags
    ⟨flags, sv4, sv6, ev4, ev6⟩

/-- `UnmarshalBinary` into a zero value, :183-231. -/
def parseP : P IPMulticastAddress := do
  P.minLen 2
  let flags ← P.u8
  if hasAny flags then pure ⟨flags, none, none, none, none⟩
  else do
    let sv4 ← P.opt (hasIPv4 flags) (P.ip 4) none
    let sv6 ← P.opt (hasIPv6 flags) (P.ip 16) none
    let ev4 ← P.opt (hasRange flags && hasIPv4 flags) (P.ip 4) none
    let ev6 ← P.opt (hasRange flags && hasIPv6 flags) (P.ip 16) none
    pure ⟨flags, sv4, sv6, ev4, ev6⟩

/-- `MarshalTo`, :243-290. -/
def marshalW (f : IPMulticastAddress) : W :=
  W.minLen 1 ;; W.u8 f.flags ;;
  if hasAny f.flags then W.nop
  else
    W.ip4 (hasIPv4 f.flags) f.sv4 ;; W.ip16 (hasIPv6 f.flags) f.sv6 ;;
    W.ip4 (hasRange f.flags && hasIPv4 f.flags) f.ev4 ;; W.ip16 (hasRange f.flags && hasIPv6 f.flags) f.ev6

/-- `MarshalLen`, :293-309. -/
def marshalLen (f : IPMulticastAddress) : Nat :=
  let l := 1
  let l := if f.sv4.isSome then l + 4 else l
  let l := if f.sv6.isSome then l + 16 else l
  let l := if f.ev4.isSome then l + 4 else l
  if f.ev6.isSome then l + 16 else l

/-- `ParseIPMulticastAddressFields` :174-180 and `Marshal` :234-240. -/
def codec : Codec IPMulticastAddress := ⟨parseP.run, fun f => f.marshalW.marshal f.marshalLen⟩

/-- What the encoder writes when flags and addresses agree. -/
def enc (f : IPMulticastAddress) : Bytes :=
  [f.flags] ++ (wire4 f.sv4 ++ (wire16 f.sv6 ++ (wire4 f.ev4 ++ (wire16 f.ev6 ++ []))))

/-- The addresses are addresses. -/
def Valid (f : IPMulticastAddress) : Prop := f.sv4.Is4 ∧ f.sv6.Is16 ∧ f.ev4.Is4 ∧ f.ev6.Is16
/-- The flags announce the addresses there are, in ranges of both ends; "any" comes with no address. -/
def Agree (f : IPMulticastAddress) : Prop :=
  if hasAny f.flags then f.sv4 = none ∧ f.sv6 = none ∧ f.ev4 = none ∧ f.ev6 = none
  else hasIPv4 f.flags = f.sv4.isSome ∧ hasIPv6 f.flags = f.sv6.isSome ∧
    (hasRange f.flags && hasIPv4 f.flags) = f.ev4.isSome ∧ (hasRange f.flags && hasIPv6 f.flags) = f.ev6.isSome

theorem enc_length (f : IPMulticastAddress) (h : f.Valid) : f.enc.length = f.marshalLen := by
  obtain ⟨h1, h2, h3, h4⟩ := h
  simp only [enc, marshalLen, List.length_append, wire4_length h1, wire16_length h2, wire4_length h3,
    wire16_length h4, ite_len, List.length_cons, List.length_nil]
  omega

theorem emits (f : IPMulticastAddress) (h : f.Valid) (ha : f.Agree) : codec.marshal f = .ok f.enc := by
  show f.marshalW.marshal f.marshalLen = _
  rw [← enc_length f h]
  obtain ⟨h1, h2, h3, h4⟩ := h
  refine W.Emits.marshal_minLen (by simp [enc]) (W.Emits.seq (W.Emits.u8 _) ?_)
  unfold Agree at ha
  cases hc : hasAny f.flags
  · simp only [hc, Bool.false_eq_true, if_false] at ha ⊢
    obtain ⟨a1, a2, a3, a4⟩ := ha
    exact W.Emits.seq (W.Emits.ip4 a1 h1) (W.Emits.seq (W.Emits.ip16 a2 h2)
      (W.Emits.seq (W.Emits.ip4 a3 h3) (W.Emits.tail (W.Emits.ip16 a4 h4))))
  · simp only [hc, if_true] at ha ⊢
    obtain ⟨a1, a2, a3, a4⟩ := ha
    rw [a1, a2, a3, a4]
    exact W.Emits.nop

theorem good : P.Good0 parseP := by
  refine P.Good0.minLen (n := 2) (m := 0) ?_
  good

theorem reads (f : IPMulticastAddress) (h : f.Valid) (ha : f.Agree) (tail sp : Bytes)
    (hl : 2 ≤ (f.enc ++ tail).length) :
    codec.parse ⟨f.enc ++ tail, sp⟩ = .ok ⟨f.flags, f.sv4.as4, f.sv6.as16, f.ev4.as4, f.ev6.as16⟩ := by
  obtain ⟨h1, h2, h3, h4⟩ := h
  unfold Agree at ha
  cases hc : hasAny f.flags
  · simp only [hc, Bool.false_eq_true, if_false] at ha
    obtain ⟨a1, a2, a3, a4⟩ := ha
    have hr : P.Reads (do
        let flags ← P.u8
        if hasAny flags then pure (⟨flags, none, none, none, none⟩ : IPMulticastAddress)
        else do
          let sv4 ← P.opt (hasIPv4 flags) (P.ip 4) none
          let sv6 ← P.opt (hasIPv6 flags) (P.ip 16) none
          let ev4 ← P.opt (hasRange flags && hasIPv4 flags) (P.ip 4) none
          let ev6 ← P.opt (hasRange flags && hasIPv6 flags) (P.ip 16) none
          pure (⟨flags, sv4, sv6, ev4, ev6⟩ : IPMulticastAddress)) f.enc
        ⟨f.flags, f.sv4.as4, f.sv6.as16, f.ev4.as4, f.ev6.as16⟩ := by
      refine P.Reads.bind (P.Reads.u8 _) ?_
      rw [hc]
      simp only [Bool.false_eq_true, if_false]
      exact P.Reads.bind (P.Reads.ip4 a1 h1) (P.Reads.bind (P.Reads.ip16 a2 h2)
        (P.Reads.bind (P.Reads.ip4 a3 h3) (P.Reads.bind (P.Reads.ip16 a4 h4) (P.Reads.pure _))))
    refine (P.run_minLen_eq hl).trans ?_
    exact P.Reads.run hr tail sp
  · simp only [hc, if_true] at ha
    obtain ⟨a1, a2, a3, a4⟩ := ha
    refine (P.run_minLen_eq hl).trans ?_
    have hr : P.Reads (do
        let flags ← P.u8
        if hasAny flags then pure (⟨flags, none, none, none, none⟩ : IPMulticastAddress)
        else do
          let sv4 ← P.opt (hasIPv4 flags) (P.ip 4) none
          let sv6 ← P.opt (hasIPv6 flags) (P.ip 16) none
          let ev4 ← P.opt (hasRange flags && hasIPv4 flags) (P.ip 4) none
          let ev6 ← P.opt (hasRange flags && hasIPv6 flags) (P.ip 16) none
          pure (⟨flags, sv4, sv6, ev4, ev6⟩ : IPMulticastAddress)) f.enc
        ⟨f.flags, f.sv4.as4, f.sv6.as16, f.ev4.as4, f.ev6.as16⟩ := by
      unfold enc
      rw [a1, a2, a3, a4]
      refine P.Reads.bind (P.Reads.u8 _) ?_
      rw [hc]
      exact P.Reads.pure _
    exact P.Reads.run hr tail sp

theorem takes (s : Slice) (v : IPMulticastAddress) (h : codec.parse s = .ok v) :
    ∃ w post, s.data = w ++ post ∧ (w = v.enc ∧ v.Valid ∧ v.Agree) ∧ 2 ≤ s.data.length := by
  refine P.Takes.run' (m := 0) (R := fun v w => w = v.enc ∧ v.Valid ∧ v.Agree) ?_ s v h
  refine P.Takes.weaken (R := _) (P.Takes.bind P.Takes.u8 fun _ => P.Takes.ite
    ((P.Takes.pure _).relax (Nat.le_refl _) (Nat.zero_le _))
    (P.Takes.bind P.Takes.ip4 fun _ => P.Takes.bind P.Takes.ip16 fun _ =>
    P.Takes.bind P.Takes.ip4 fun _ => P.Takes.bind P.Takes.ip16 fun _ => P.Takes.pure _)) ?_
  rintro f w ⟨fl, _, _, rfl, (⟨hc, rfl, rfl⟩ | ⟨hc, v4, _, _, ⟨rfl, a1, a2⟩, ⟨v6, _, _, ⟨rfl, b1, b2⟩,
    ⟨n4, _, _, ⟨rfl, c1, c2⟩, ⟨n6, _, _, ⟨rfl, d1, d2⟩, ⟨rfl, rfl⟩, rfl⟩, rfl⟩, rfl⟩, rfl⟩), rfl⟩
  · refine ⟨rfl, ⟨IP.none_is4, IP.none_is16, IP.none_is4, IP.none_is16⟩, ?_⟩
    unfold Agree
    simp only [hc, if_true, and_self]
  · refine ⟨rfl, ⟨a2, b2, c2, d2⟩, ?_⟩
    unfold Agree
    simp only [hc]
    exact ⟨a1.symm, b1.symm, c1.symm, d1.symm⟩

end IPMulticastAddress

/-! ### UserPlaneIPResourceInformation -/

/-- `UserPlaneIPResourceInformationFields`, /repo/ie/user-plane-ip-resource-information.go:71-78. -/
structure UserPlaneIPResourceInformation where
  flags : UInt8
  teidRange : UInt8
  v4 : IP
  v6 : IP
  ni : Bytes
  si : UInt8
  deriving DecidableEq

namespace UserPlaneIPResourceInformation

/-- `(flags>>2)&0x07 != 0` -/
def hasTEIDRI (flags : UInt8) : Bool := (flags >>> 2) &&& 0x07 != 0

/-- `NewUserPlaneIPResourceInformationFields`, :81-105. -/
def new (flags : UInt8) (tRange : UInt8) (v4 v6 : IP) (ni : Bytes) (si : UInt8) : UserPlaneIPResourceInformation :=
  { flags := flags
    teidRange := if hasTEIDRI flags then tRange else 0
    v4 := if has1stBit flags then v4.conv4 else none
    v6 := if has2ndBit flags then v6.conv16 else none
    ni := if has6thBit flags then ni else []
    si := if has7thBit flags then si else 0 }

/-- `b[i]` -/
def at_ (i : Nat) : P UInt8 := fun s o => s.idx i >>= fun x => .ok (x, o)
/-- `b[offset:n]` -/
def upTo (n : Nat) : P Bytes := fun s o => s.sub o n >>= fun x => .ok (x.data, o)

/-- `UnmarshalBinary` into a zero value, :117-169. -/
def parseP : P UserPlaneIPResourceInformation := do
  P.minLen 2
  let flags ← P.u8
  let tr ← P.opt (hasTEIDRI flags) P.byte 0
  let v4 ← P.opt (has1stBit flags) (P.ip 4) none
  let v6 ← P.opt (has2ndBit flags) (P.ip 16) none
  if has6thBit flags then do
    let n ← P.len
    let si ← P.opt (has7thBit flags) (at_ n >>= fun x => pure (x &&& 0x0f)) 0
    let n := if has7thBit flags then n - 1 else n
    P.need n
    let ni ← upTo n
    pure ⟨flags, tr, v4, v6, ni, si⟩
  else do
    let si ← P.opt (has7thBit flags) (P.u8 >>= fun x => pure (x &&& 0x0f)) 0
    pure ⟨flags, tr, v4, v6, [], si⟩

/-- `MarshalTo`, :181-215. -/
def marshalW (f : UserPlaneIPResourceInformation) : W :=
  W.minLen 2 ;; W.u8 f.flags ;; W.opt (hasTEIDRI f.flags) (W.u8 f.teidRange) ;;
  W.opt (has1stBit f.flags) (W.copy 4 f.v4.val) ;; W.opt (has2ndBit f.flags) (W.copy 16 f.v6.val) ;;
  W.opt (has6thBit f.flags) (W.copy f.ni.length f.ni) ;; W.opt (has7thBit f.flags) (W.u8 f.si)

/-- `MarshalLen`, :218-237. -/
def marshalLen (f : UserPlaneIPResourceInformation) : Nat :=
  let l := 1
  let l := if hasTEIDRI f.flags then l + 1 else l
  let l := if has1stBit f.flags then l + 4 else l
  let l := if has2ndBit f.flags then l + 16 else l
  let l := if has6thBit f.flags then l + f.ni.length else l
  if has7thBit f.flags then l + 1 else l

/-- `ParseUserPlaneIPResourceInformationFields` :108-114 and `Marshal` :172-178. -/
def codec : Codec UserPlaneIPResourceInformation := ⟨parseP.run, fun f => f.marshalW.marshal f.marshalLen⟩

/-- What the encoder writes when flags and addresses agree. -/
def enc (f : UserPlaneIPResourceInformation) : Bytes :=
  [f.flags] ++ ((if hasTEIDRI f.flags then [f.teidRange] else []) ++ (f.v4.val ++ (f.v6.val ++
    ((if has6thBit f.flags then f.ni else []) ++ ((if has7thBit f.flags then [f.si] else []) ++ [])))))

/-- The addresses are those announced. -/
def Agree (f : UserPlaneIPResourceInformation) : Prop :=
  (has1stBit f.flags = f.v4.isSome ∧ f.v4.Len 4) ∧ (has2ndBit f.flags = f.v6.isSome ∧ f.v6.Len 16)

theorem enc_length (f : UserPlaneIPResourceInformation) (h : f.Agree) : f.enc.length = f.marshalLen := by
  obtain ⟨⟨h1, h2⟩, h3, h4⟩ := h
  simp only [enc, marshalLen, List.length_append, h2.val, h4.val, ite_len, apply_ite List.length,
    List.length_cons, List.length_nil, h1, h3]
  omega

theorem emits (f : UserPlaneIPResourceInformation) (h : f.Agree) (hl : 2 ≤ f.enc.length) :
    codec.marshal f = .ok f.enc := by
  show f.marshalW.marshal f.marshalLen = _
  rw [← enc_length f h]
  obtain ⟨⟨h1, h2⟩, h3, h4⟩ := h
  refine W.Emits.marshal_minLen hl ?_
  exact W.Emits.seq (W.Emits.u8 _) (W.Emits.seq (W.Emits.optIf fun _ => W.Emits.u8 _)
    (W.Emits.seq (W.Emits.raw h1 h2) (W.Emits.seq (W.Emits.raw h3 h4)
    (W.Emits.seq (W.Emits.optIf fun _ => W.Emits.copy _ rfl) (W.Emits.tail (W.Emits.optIf fun _ => W.Emits.u8 _))))))

theorem reads (f : UserPlaneIPResourceInformation) (h : f.Agree) (hl : 2 ≤ f.enc.length)
    (h6 : has6thBit f.flags = false) (tail sp : Bytes) :
    codec.parse ⟨f.enc ++ tail, sp⟩ = .ok ⟨f.flags, if hasTEIDRI f.flags then f.teidRange else 0, f.v4, f.v6, [],
      if has7thBit f.flags then f.si &&& 0x0f else 0⟩ := by
  obtain ⟨⟨h1, h2⟩, h3, h4⟩ := h
  refine P.Reads.run_minLen hl ?_ tail sp
  have e : f.enc = [f.flags] ++ ((if hasTEIDRI f.flags then [f.teidRange] else []) ++ (f.v4.val ++ (f.v6.val ++
    ((if has7thBit f.flags then [f.si] else []) ++ [])))) := by
    unfold enc
    rw [h6]
    simp
  rw [e]
  refine P.Reads.bind (P.Reads.u8 _) (P.Reads.bind (P.Reads.optIte fun _ => P.Reads.byte _)
    (P.Reads.bind (P.Reads.raw h1 h2) (P.Reads.bind (P.Reads.raw h3 h4) ?_)))
  rw [h6]
  simp only [Bool.false_eq_true, if_false]
  exact P.Reads.bind (P.Reads.optIte fun _ => P.Reads.map (fun x => x &&& 0x0f) (P.Reads.u8 _)) (P.Reads.pure _)

/-- Nothing that announces a network instance is ever decoded. -/
theorem parse_ni (s : Slice) (v : UserPlaneIPResourceInformation) (h : codec.parse s = .ok v) :
    ∃ f rest, s.data = f :: rest ∧ v.flags = f ∧ has6thBit f = false := by
  obtain ⟨o, h⟩ := P.run_inv h
  obtain ⟨_, o1, h1, h⟩ := P.bind_inv h
  have : o1 = 0 := by
    unfold P.minLen at h1
    split at h1
    · cases h1
    · cases h1; rfl
  subst this
  obtain ⟨f, o2, h2, h⟩ := P.bind_inv h
  obtain ⟨hi, rfl⟩ := P.u8_inv h2
  obtain ⟨tr, o3, h3, h⟩ := P.bind_inv h
  have l3 := (P.Adv.opt P.Adv.byte) _ _ _ _ h3
  obtain ⟨v4, o4, h4, h⟩ := P.bind_inv h
  have l4 := (P.Adv.opt (P.Adv.ip 4)) _ _ _ _ h4
  obtain ⟨v6, o5, h5, h⟩ := P.bind_inv h
  have l5 := (P.Adv.opt (P.Adv.ip 16)) _ _ _ _ h5
  have hd : ∃ rest, s.data = f :: rest := by
    unfold Slice.idx at hi
    cases hs : s.data with
    | nil => rw [hs] at hi; cases hi
    | cons x rest => rw [hs] at hi; cases hi; exact ⟨rest, rfl⟩
  obtain ⟨rest, hd⟩ := hd
  refine ⟨f, rest, hd, ?_⟩
  cases h6 : has6thBit f
  · rw [h6] at h
    simp only [Bool.false_eq_true, if_false] at h
    obtain ⟨si, o6, _, h⟩ := P.bind_inv h
    cases h
    exact ⟨rfl, rfl⟩
  · exfalso
    rw [h6] at h
    simp only [if_true] at h
    obtain ⟨n, o6, h7, hq⟩ := P.bind_inv h
    clear h
    have en : n = s.data.length ∧ o6 = o5 := by cases h7; exact ⟨rfl, rfl⟩
    obtain ⟨rfl, rfl⟩ := en
    obtain ⟨si, o8, h8, h⟩ := P.bind_inv hq
    cases hb : has7thBit f
    · rw [hb] at h8 h
      cases h8
      obtain ⟨_, o9, h9, h⟩ := P.bind_inv h
      have := (P.need_inv h9).1
      simp only [Bool.false_eq_true, if_false] at this
      omega
    · rw [hb] at h8
      obtain ⟨x, o9, h9, _⟩ := P.bind_inv h8
      unfold at_ Slice.idx at h9
      rw [List.getElem?_eq_none (Nat.le_refl _)] at h9
      cases h9

/-- A decoder success has consumed the encoding of the result, up to the spare bits of the source interface. -/
theorem takes (s : Slice) (v : UserPlaneIPResourceInformation) (h : codec.parse s = .ok v) :
    ∃ w post, s.data = w ++ post ∧ (has6thBit v.flags = false →
      ∃ x, v.si = (if has7thBit v.flags then x &&& 0x0f else 0) ∧ w = { v with si := x }.enc ∧ v.Agree) ∧
      2 ≤ s.data.length := by
  have t7 : ∀ fl, P.Takes 0 (P.opt (has7thBit fl) (P.u8 >>= fun x => pure (x &&& 0x0f)) 0) 0 (fun y w =>
      ∃ x, y = (if has7thBit fl then x &&& 0x0f else 0) ∧ w = if has7thBit fl then [x] else []) := by
    intro fl
    cases has7thBit fl
    · refine P.Takes.weaken (P.Takes.pure (0 : UInt8)) ?_
      rintro x w ⟨rfl, rfl⟩; exact ⟨0, rfl, rfl⟩
    · intro d sp o y o' ho h
      obtain ⟨x, o1, h1, h⟩ := P.bind_inv h
      cases h
      obtain ⟨hi, rfl⟩ := P.u8_inv h1
      unfold Slice.idx at hi
      simp only at hi
      cases hq : d[o]? with
      | none => rw [hq] at hi; cases hi
      | some q =>
        rw [hq] at hi; cases hi
        obtain ⟨hlt, hy⟩ := List.getElem?_eq_some_iff.1 hq
        refine ⟨[x], d.drop (o + 1), ?_, rfl, ⟨x, rfl, rfl⟩, by omega⟩
        rw [List.drop_eq_getElem_cons hlt, hy]; rfl
  have hk : P.TakesEnd 2 (P.u8 >>= fun flags => P.opt (hasTEIDRI flags) P.byte 0 >>= fun tr =>
      P.opt (has1stBit flags) (P.ip 4) none >>= fun v4 => P.opt (has2ndBit flags) (P.ip 16) none >>= fun v6 =>
      if has6thBit flags then do
        let n ← P.len
        let si ← P.opt (has7thBit flags) (at_ n >>= fun x => pure (x &&& 0x0f)) 0
        let n := if has7thBit flags then n - 1 else n
        P.need n
        let ni ← upTo n
        (pure ⟨flags, tr, v4, v6, ni, si⟩ : P UserPlaneIPResourceInformation)
      else do
        let si ← P.opt (has7thBit flags) (P.u8 >>= fun x => pure (x &&& 0x0f)) 0
        pure ⟨flags, tr, v4, v6, [], si⟩)
      (fun v w => has6thBit v.flags = false →
        ∃ x, v.si = (if has7thBit v.flags then x &&& 0x0f else 0) ∧ w = { v with si := x }.enc ∧ v.Agree) := by
    have he : ∀ fl tr v4 v6, P.TakesEnd 0 (if has6thBit fl then do
        let n ← P.len
        let si ← P.opt (has7thBit fl) (at_ n >>= fun x => pure (x &&& 0x0f)) 0
        let n := if has7thBit fl then n - 1 else n
        P.need n
        let ni ← upTo n
        (pure ⟨fl, tr, v4, v6, ni, si⟩ : P UserPlaneIPResourceInformation)
      else do
        let si ← P.opt (has7thBit fl) (P.u8 >>= fun x => pure (x &&& 0x0f)) 0
        pure ⟨fl, tr, v4, v6, [], si⟩)
        (fun v w => v.flags = fl ∧ v.teidRange = tr ∧ v.v4 = v4 ∧ v.v6 = v6 ∧ (has6thBit fl = false →
          ∃ x, v.si = (if has7thBit fl then x &&& 0x0f else 0) ∧ w = if has7thBit fl then [x] else [])) := by
      intro fl tr v4 v6
      cases h6 : has6thBit fl
      · simp only [Bool.false_eq_true, if_false]
        refine P.TakesEnd.weaken (P.Takes.bindEnd (t7 fl) fun si => (P.Takes.pure _).toEnd) ?_
        rintro v w ⟨si, _, _, ⟨x, rfl, rfl⟩, ⟨rfl, rfl⟩, rfl⟩
        exact ⟨rfl, rfl, rfl, rfl, fun _ => ⟨x, rfl, by simp⟩⟩
      · simp only [if_true]
        intro d sp o v o' ho h
        obtain ⟨_, _, _, h⟩ := P.bind_inv h
        obtain ⟨_, _, _, h⟩ := P.bind_inv h
        obtain ⟨_, _, _, h⟩ := P.bind_inv h
        obtain ⟨_, _, _, h⟩ := P.bind_inv h
        cases h
        exact ⟨[], d.drop o, rfl, rfl, rfl, rfl, rfl, fun h => by cases h⟩
    refine P.TakesEnd.weaken (P.Takes.bindEnd P.Takes.u8 fun fl => P.Takes.bindEnd (P.Takes.optIf P.Takes.byte)
      fun tr => P.Takes.bindEnd P.Takes.raw fun v4 => P.Takes.bindEnd P.Takes.raw fun v6 => he fl tr v4 v6) ?_
    rintro v w ⟨fl, _, _, rfl, ⟨tr, _, _, rfl, ⟨v4, _, _, ⟨rfl, a1, a2⟩, ⟨v6, _, _, ⟨rfl, b1, b2⟩,
      ⟨rfl, rfl, rfl, rfl, hs⟩, rfl⟩, rfl⟩, rfl⟩, rfl⟩ h6
    obtain ⟨x, h1, rfl⟩ := hs h6
    exact ⟨x, h1, by simp [enc, h6], ⟨a1.symm, a2⟩, b1.symm, b2⟩
  have := P.TakesEnd.run (f := fun _ => P.u8 >>= fun flags => P.opt (hasTEIDRI flags) P.byte 0 >>= fun tr =>
      P.opt (has1stBit flags) (P.ip 4) none >>= fun v4 => P.opt (has2ndBit flags) (P.ip 16) none >>= fun v6 =>
      if has6thBit flags then do
        let n ← P.len
        let si ← P.opt (has7thBit flags) (at_ n >>= fun x => pure (x &&& 0x0f)) 0
        let n := if has7thBit flags then n - 1 else n
        P.need n
        let ni ← upTo n
        (pure ⟨flags, tr, v4, v6, ni, si⟩ : P UserPlaneIPResourceInformation)
      else do
        let si ← P.opt (has7thBit flags) (P.u8 >>= fun x => pure (x &&& 0x0f)) 0
        pure ⟨flags, tr, v4, v6, [], si⟩) hk s v h
  exact this

end UserPlaneIPResourceInformation

end Fields
end Pfcp
