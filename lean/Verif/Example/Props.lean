/-
C68: reading the fields of a decoded message; C69: the heartbeat server and client of /repo/examples.
-/
import Verif.Example.Model
import Verif.Message.Props
import Verif.Message.CtorProps
import Verif.Acc.Lemmas
import Verif.Ctor.Lemmas
import Verif.Acc.Timer
import Verif.Ctor.Props

namespace Pfcp
namespace Example

variable (g : IEType → Bool) (mem : IE → Bytes)

/-! ### C68 reading a field -/

/-- The elements of a given type in the body of an accepted datagram, in the order in which they arrived. -/
def bodyOf (m : Msg) (t : IEType) : List IE :=
  match parseMulti g m.header.payload with
  | .ok xs => xs.filter fun i => decide (i.typ = t)
  | _ => []

theorem bodyOf_eq (k : Kind) (h : Header) (ys : List IE) (t : IEType) :
    bodyOf g (Msg.filed k h ys) t =
      match parseMulti g h.payload with
      | .ok xs => xs.filter fun i => decide (i.typ = t)
      | _ => [] := rfl

theorem short_body {p : Bytes} {xs : List IE} (h : parseMulti g p = .ok xs) (h2 : p.length < 2) : xs = [] := by
  have henc := ((parse_sound g _).2 _ (Nat.le_refl _)).2 xs h
  rw [← henc] at h2
  exact Msg.body_short g xs h2

theorem parse_filed {b : Bytes} {m : Msg} (h : Msg.parse g b = .ok m) :
    ∃ xs, m = Msg.filed m.kind m.header xs ∧ m.kind = kindOf m.header.typ ∧
      ∀ t, xs.filter (fun i => decide (i.typ = t)) = bodyOf g m t := by
  rw [Msg.parse_normal, Res.bind_eq_ok] at h
  obtain ⟨hd, hp, h⟩ := h
  by_cases h2 : hd.payload.length < 2
  · rw [if_pos h2] at h
    cases h
    refine ⟨[], rfl, rfl, ?_⟩
    intro t
    rw [bodyOf_eq]
    split
    · rename_i xs hx
      rw [short_body g hx h2]
    · rfl
  · rw [if_neg h2, Res.bind_eq_ok] at h
    obtain ⟨ys, hy, h⟩ := h
    cases h
    refine ⟨ys, rfl, rfl, ?_⟩
    intro t
    rw [bodyOf_eq, hy]

/-- C68, exactly: reading a field of a decoded message calls the accessor on the last element of the field's type, and
panics if there is none. -/
theorem C68_field_exact (b : Bytes) (m : Msg) (h : Msg.parse g b = .ok m) (n : FieldName)
    (hn : (n, Card.one) ∈ m.kind.tab.fields) (a : Acc) :
    readField g mem m n a =
      match (bodyOf g m (fieldIE m.kind n)).getLast? with
      | some i => a.call g mem i
      | none => .panic := by
  obtain ⟨xs, hm, _, hx⟩ := parse_filed g h
  have hs : m.Shaped := by rw [hm]; exact Msg.filed_shaped _ _ _
  have hmem : (n, Slot.one (bodyOf g m (fieldIE m.kind n)).getLast?) ∈ m.fields := by
    have hf : m.fields = (Msg.filed m.kind m.header xs).fields := congrArg Msg.fields hm
    rw [hf]
    simp only [Msg.filed, List.mem_map]
    refine ⟨(n, .one), hn, ?_⟩
    simp only [hx]
    rfl
  unfold readField
  rw [Msg.get_ok m hs.nodup _ hmem, Res.ok_bind]
  cases (bodyOf g m (fieldIE m.kind n)).getLast? <;> rfl

/-- C68 is false: for every kind of message there is a datagram that decodes without error and leaves every field of
the message empty, so that reading any of them panics. -/
theorem C68_field_violated (k : Kind) (hk : k ≠ .generic) :
    ∃ b m, Msg.parse g b = .ok m ∧ m.kind = k ∧
      ∀ n, (n, Card.one) ∈ k.tab.fields → ∀ a : Acc, readField g mem m n a = .panic := by
  have hkk : kindOf k.tab.msgType = k := by
    revert hk; cases k <;> decide
  have hp : Msg.parse g (Header.enc ⟨0x20, k.tab.msgType, 4, 0, 1, 0, []⟩) =
      .ok (Msg.filed k ⟨0x20, k.tab.msgType, 4, 0, 1, 0, []⟩ []) := by
    rw [Msg.parse_normal, Header.parse_enc _ ⟨by show (1 : UInt32).toNat < 2 ^ 24; decide, fun _ => rfl⟩, Res.ok_bind, hkk]
    rfl
  refine ⟨_, _, hp, rfl, ?_⟩
  intro n hn a
  rw [C68_field_exact g mem _ _ hp n hn a]
  have : bodyOf g (Msg.filed k ⟨0x20, k.tab.msgType, 4, 0, 1, 0, []⟩ [])
      (fieldIE (Msg.filed k ⟨0x20, k.tab.msgType, 4, 0, 1, 0, []⟩ []).kind n) = [] := by
    rw [bodyOf_eq]
    split
    · rename_i xs hx
      rw [short_body g hx (Nat.zero_lt_two)]; rfl
    · rfl
  rw [this]; rfl

/-- C68, partial: a field whose element is in the body never panics by itself: what happens is up to the accessor. -/
theorem C68_field_partial (b : Bytes) (m : Msg) (h : Msg.parse g b = .ok m) (n : FieldName)
    (hn : (n, Card.one) ∈ m.kind.tab.fields) (a : Acc)
    (hp : ∃ xs, parseMulti g m.header.payload = .ok xs ∧ ∃ i ∈ xs, i.typ = fieldIE m.kind n) :
    ∃ i, i.typ = fieldIE m.kind n ∧ readField g mem m n a = a.call g mem i := by
  obtain ⟨xs, hx, i, hi, ht⟩ := hp
  rw [C68_field_exact g mem b m h n hn a]
  have hb : bodyOf g m (fieldIE m.kind n) = xs.filter fun i => decide (i.typ = fieldIE m.kind n) := by
    unfold bodyOf; rw [hx]
  cases hl : (bodyOf g m (fieldIE m.kind n)).getLast? with
  | none =>
    rw [List.getLast?_eq_none_iff, hb, List.filter_eq_nil_iff] at hl
    have := hl i hi
    simp [ht] at this
  | some j =>
    have hj := List.mem_of_getLast? hl
    rw [hb, List.mem_filter] at hj
    exact ⟨j, by simpa using hj.2, rfl⟩

example : (FieldName.RecoveryTimeStamp, Card.one) ∈ Kind.heartbeatRequest.tab.fields ∧
    (FieldName.NodeID, Card.one) ∈ Kind.associationSetupRequest.tab.fields := by decide

/-! ### C69 the heartbeat programs -/

theorem kindOf_request : ∀ t : UInt8, kindOf t = .heartbeatRequest ↔ t = 1 := by
  apply forall_byte; decide +kernel

theorem kindOf_response : ∀ t : UInt8, kindOf t = .heartbeatResponse ↔ t = 2 := by
  apply forall_byte; decide +kernel

/-- The octets of the server's answer. -/
def answer (now : Int) : Bytes :=
  [0x20, 2, 0, 12, 0, 0, 1, 0, 0, 96, 0, 4] ++ be32 (timestampWord now)

/-- The octets of the client's request. -/
def question (now : Int) : Bytes :=
  [0x20, 1, 0, 37, 0, 0, 1, 0, 0, 96, 0, 4] ++ be32 (timestampWord now) ++
    [0, 192, 0, 21, 3, 127, 0, 0, 1] ++ address6

theorem enc_stamp (hg : g 96 = false) (now : Int) :
    (stamp now).enc g = [0, 96, 0, 4] ++ be32 (timestampWord now) := by
  have h : stamp now = ⟨96, 4, 0, be32 (timestampWord now), []⟩ := by
    have hv : isVendor T.RecoveryTimeStamp = false := by decide
    unfold stamp IE.new IE.setLength
    simp only [hv, be32_len]
    rfl
  rw [h, IE.enc, hg]; rfl

theorem wire_node (m : Msg) (t : UInt8) (l : UInt16) (h : m.header = ⟨0x20, t, l, 0, 1, 0, []⟩) :
    m.wire g = [0x20, t] ++ be16 (UInt16.ofNat (4 + (m.body g).length)) ++ [0, 0, 1, 0] ++ m.body g := by
  unfold Msg.wire Msg.wireHeader Header.enc
  simp only [h]
  have h8 : Header.fixedLen 0x20 = 8 := by decide
  have hb : has1stBit 0x20 = false := by decide
  have h3 : beBytes 3 (1 : UInt32).toNat = [0, 0, 1] := by decide
  have h4 : 8 + (m.body g).length - 4 = 4 + (m.body g).length := by omega
  rw [h8, hb, h3, h4]
  simp

/-- The answer, octet for octet. -/
theorem C69_response_exact (hg : g 96 = false) (now : Int) : response g now = .ok (answer now) := by
  obtain ⟨hs, hn, hk, hh⟩ := Msg.preNew_shaped .heartbeatResponse 0 0 0 1 0 [some (stamp now)] []
  have hnew := Msg.setLength_ok g _ hs hn (.inr (by
    simp [Msg.preNew, Kind.tab, tabHeartbeatResponse]))
  have h1 : Msg.new g .heartbeatResponse 0 0 0 1 0 [some (stamp now)] [] =
      Msg.setLength g (Msg.preNew .heartbeatResponse 0 0 0 1 0 [some (stamp now)] []) := Msg.new_eq g _ _ _ _ _ _ _ _
  unfold response
  rw [h1, hnew, Res.ok_bind, Msg.marshal_ok]
  · have hbody : encList g [stamp now] = [0, 96, 0, 4] ++ be32 (timestampWord now) := by
      simp only [encList, enc_stamp g hg, List.append_nil]
    rw [wire_node g _ 2 _ (by rw [hh]; rfl)]
    show Res.ok ([0x20, 2] ++ be16 (UInt16.ofNat (4 + (encList g [stamp now]).length)) ++ [0, 0, 1, 0] ++
      encList g [stamp now]) = _
    rw [hbody, List.length_append, be32_len]; rfl
  · exact hs
  · exact hn

/-- The client's request, octet for octet. -/
theorem C69_request_exact (hg : g 96 = false) (hg' : g 192 = false) (now : Int) :
    request g now = .ok (question now) := by
  have hip : newSourceIPAddress (some loopback4) (some address6) 0 =
      .ok (some (IE.new 192 ([3, 127, 0, 0, 1] ++ address6))) := by decide +kernel
  generalize hj : IE.new 192 ([3, 127, 0, 0, 1] ++ address6) = j at hip
  obtain ⟨hs, hn, hk, hh⟩ := Msg.preNew_shaped .heartbeatRequest 0 0 0 1 0 [some (stamp now), some j] []
  have hnew := Msg.setLength_ok g _ hs hn (.inr (by
    simp [Msg.preNew, Kind.tab, tabHeartbeatRequest]))
  have h1 : Msg.new g .heartbeatRequest 0 0 0 1 0 [some (stamp now), some j] [] =
      Msg.setLength g (Msg.preNew .heartbeatRequest 0 0 0 1 0 [some (stamp now), some j] []) :=
    Msg.new_eq g _ _ _ _ _ _ _ _
  unfold request
  rw [hip, Res.ok_bind, h1, hnew, Res.ok_bind, Msg.marshal_ok]
  · have hbody : encList g [stamp now, j] = [0, 96, 0, 4] ++ be32 (timestampWord now) ++
        [0, 192, 0, 21, 3, 127, 0, 0, 1] ++ address6 := by
      have : j.enc g = [0, 192, 0, 21, 3, 127, 0, 0, 1] ++ address6 := by
        rw [← hj]
        show IE.enc g ⟨192, 21, 0, [3, 127, 0, 0, 1] ++ address6, []⟩ = _
        rw [IE.enc, hg']; rfl
      simp only [encList, enc_stamp g hg, this, List.append_nil, List.append_assoc]
    rw [wire_node g _ 1 _ (by rw [hh]; rfl)]
    show Res.ok ([0x20, 1] ++ be16 (UInt16.ofNat (4 + (encList g [stamp now, j]).length)) ++ [0, 0, 1, 0] ++
      encList g [stamp now, j]) = _
    rw [hbody]
    simp only [List.length_append, be32_len]
    rfl
  · exact hs
  · exact hn

/-- Reading the time stamp of an element of that type. -/
theorem readStamp (hg : g 96 = false) (i : IE) (h : i.typ = 96) :
    Acc.RecoveryTimeStamp.call g mem i =
      if i.payload.length < 4 then .err .unexpectedEOF
      else .ok (.time (timestampValue (dec32 (i.payload.take 4)))) := by
  rw [call_eq, h]
  show (if i.payload.length < 0 then _ else Leaf.run g .timestamp i (mem i)) = _
  rw [if_neg (by omega)]
  show (if g i.typ then Res.err (.invalidTypeError i.typ) else if i.payload.length < 4 then Res.err .unexpectedEOF else
    Slice.u32At ⟨i.payload, mem i⟩ 0 >>= fun v => Res.ok (Val.time (timestampValue v))) = _
  rw [h, hg]
  simp only [Bool.false_eq_true, if_false]
  by_cases h4 : i.payload.length < 4
  · rw [if_pos h4, if_pos h4]
  · rw [if_neg h4, if_neg h4]
    unfold Slice.u32At Slice.sub Slice.cap
    rw [if_pos ⟨by omega, by simp only; omega⟩]
    show Res.ok (Val.time (timestampValue (dec32 (((i.payload ++ mem i).take 4).drop 0)))) = _
    rw [List.drop_zero, List.take_append_of_le_length (by omega)]

theorem step_request (hg : g 96 = false) {b : Bytes} {m : Msg} (h : Msg.parse g b = .ok m) (n : Kind)
    (hn : n = .heartbeatRequest ∨ n = .heartbeatResponse) (hk : m.kind = n) :
    readField g mem m .RecoveryTimeStamp .RecoveryTimeStamp =
      match (bodyOf g m 96).getLast? with
      | some i => if i.payload.length < 4 then .err .unexpectedEOF
          else .ok (.time (timestampValue (dec32 (i.payload.take 4))))
      | none => .panic := by
  have hmem : (FieldName.RecoveryTimeStamp, Card.one) ∈ m.kind.tab.fields ∧
      fieldIE m.kind .RecoveryTimeStamp = 96 := by
    rcases hn with rfl | rfl <;> rw [hk] <;> decide
  rw [C68_field_exact g mem b m h _ hmem.1, hmem.2]
  cases hl : (bodyOf g m 96).getLast? with
  | none => rfl
  | some i =>
    have hi := List.mem_of_getLast? hl
    have : i.typ = 96 := by
      unfold bodyOf at hi
      split at hi
      · simpa using (List.mem_filter.1 hi).2
      · cases hi
    exact readStamp g mem hg i this

/-- What the server does with a datagram: nothing if the datagram does not decode or is not a heartbeat request. If it
is one, the program panics when no time stamp is in the body, logs an error when the last one is too short, and otherwise
answers; the answer does not depend on the request. -/
theorem C69_server_exact (hg : g 96 = false) (now : Int) (d : Bytes) :
    serverStep g mem now d =
      match Msg.parse g (d.take 1500) with
      | .ok m =>
        if m.header.typ = 1 then
          match (bodyOf g m 96).getLast? with
          | none => .crash
          | some i => if i.payload.length < 4 then .ignored else .reply (answer now)
        else .ignored
      | _ => .ignored := by
  unfold serverStep bufSize
  cases hp : Msg.parse g (d.take 1500) with
  | panic => exact absurd hp (Msg.C18_parse_total g _)
  | err e => rfl
  | ok m =>
    obtain ⟨_, _, hk, _⟩ := parse_filed g hp
    simp only
    by_cases h1 : m.header.typ = 1
    · have hk1 : m.kind = .heartbeatRequest := by rw [hk]; exact (kindOf_request _).2 h1
      rw [if_neg (by simp [hk1]), if_pos h1, step_request g mem hg hp _ (.inl rfl) hk1, C69_response_exact g hg]
      cases (bodyOf g m 96).getLast? with
      | none => rfl
      | some i =>
        by_cases h4 : i.payload.length < 4
        · simp [h4]
        · simp [h4]
    · rw [if_pos (by rw [hk]; exact fun h => h1 ((kindOf_request _).1 h)), if_neg h1]

/-- The server crashes exactly on a heartbeat request whose body holds no time stamp. -/
theorem C69_server_crash_iff (hg : g 96 = false) (now : Int) (d : Bytes) :
    serverStep g mem now d = .crash ↔
      ∃ m, Msg.parse g (d.take 1500) = .ok m ∧ m.header.typ = 1 ∧
        ∀ xs, parseMulti g m.header.payload = .ok xs → ∀ i ∈ xs, i.typ ≠ 96 := by
  have key : ∀ m : Msg, bodyOf g m 96 = [] ↔
      ∀ xs, parseMulti g m.header.payload = .ok xs → ∀ i ∈ xs, i.typ ≠ 96 := by
    intro m
    unfold bodyOf
    cases hb : parseMulti g m.header.payload with
    | ok ys => simp [List.filter_eq_nil_iff]
    | err e => simp
    | panic => simp
  rw [C69_server_exact g mem hg]
  cases hp : Msg.parse g (d.take 1500) with
  | panic => simp
  | err e => simp
  | ok m =>
    simp only [Res.ok.injEq, exists_eq_left']
    rw [← key]
    by_cases h1 : m.header.typ = 1
    · rw [if_pos h1]
      cases hl : (bodyOf g m 96).getLast? with
      | none => simp [h1, List.getLast?_eq_none_iff.1 hl]
      | some i =>
        have hne : bodyOf g m 96 ≠ [] := by intro h; rw [h] at hl; cases hl
        simp only [h1, hne, and_false, iff_false]
        split <;> simp
    · rw [if_neg h1]; simp [h1]

/-- The server answers exactly the heartbeat requests whose last time stamp has at least four octets. -/
theorem C69_server_reply_iff (hg : g 96 = false) (now : Int) (d b : Bytes) :
    serverStep g mem now d = .reply b ↔
      b = answer now ∧ ∃ m i, Msg.parse g (d.take 1500) = .ok m ∧ m.header.typ = 1 ∧
        (bodyOf g m 96).getLast? = some i ∧ 4 ≤ i.payload.length := by
  rw [C69_server_exact g mem hg]
  cases hp : Msg.parse g (d.take 1500) with
  | panic => simp
  | err e => simp
  | ok m =>
    simp only [Res.ok.injEq]
    constructor
    · intro h
      by_cases h1 : m.header.typ = 1
      · rw [if_pos h1] at h
        cases hl : (bodyOf g m 96).getLast? with
        | none => rw [hl] at h; cases h
        | some i =>
          rw [hl] at h
          simp only at h
          by_cases h4 : i.payload.length < 4
          · rw [if_pos h4] at h; cases h
          · rw [if_neg h4] at h
            simp only [Step.reply.injEq] at h
            exact ⟨h.symm, m, i, rfl, h1, hl, by omega⟩
      · rw [if_neg h1] at h; cases h
    · rintro ⟨rfl, m', i, rfl, h1, hl, h4⟩
      rw [if_pos h1, hl]
      simp only
      rw [if_neg (by omega)]

/-- `log.Fatal` is never reached through encoding. -/
theorem C69_server_never_fatal (hg : g 96 = false) (now : Int) (d : Bytes) : serverStep g mem now d ≠ .fatal := by
  rw [C69_server_exact g mem hg]
  split
  · split
    · split
      · simp
      · split <;> simp
    · simp
  · simp

/-- The server survives a sequence of datagrams, whatever the times, exactly if none of them is a crash. -/
theorem C69_survives_iff (hg : g 96 = false) (ds : List (Int × Bytes)) :
    (serve g mem ds).length = ds.length ∧ Step.crash ∉ serve g mem ds ↔
      ∀ p ∈ ds, serverStep g mem p.1 p.2 ≠ .crash := by
  have hlen : ∀ ds, (serve g mem ds).length ≤ ds.length := by
    intro ds
    induction ds with
    | nil => simp [serve]
    | cons p ds ih =>
      simp only [serve]
      split <;> simp <;> omega
  induction ds with
  | nil => simp [serve]
  | cons p ds ih =>
    have hf := C69_server_never_fatal g mem hg p.1 p.2
    simp only [serve, List.forall_mem_cons]
    by_cases hc : serverStep g mem p.1 p.2 = .crash
    · simp [hc, Step.ends]
    · have he : (serverStep g mem p.1 p.2).ends = false := by
        cases hs : serverStep g mem p.1 p.2 <;> simp_all [Step.ends]
      rw [if_neg (by simp [he])]
      simp only [List.length_cons, List.mem_cons, not_or, ne_eq, hc, not_false_eq_true, true_and]
      refine Iff.trans ?_ ih
      constructor
      · rintro ⟨h1, _, h3⟩; exact ⟨by omega, h3⟩
      · rintro ⟨h1, h3⟩; exact ⟨by omega, fun h => hc h.symm, h3⟩

/-- C69 is false: eight octets from anyone stop the server, whatever is registered and whatever memory holds. -/
theorem C69_server_survives_violated (hg : g 96 = false) (now : Int) (ds : List (Int × Bytes)) :
    ∃ d : Bytes, d.length = 8 ∧ serve g mem ((now, d) :: ds) = [.crash] := by
  refine ⟨[0x20, 1, 0, 4, 0, 0, 1, 0], rfl, ?_⟩
  have hp : Msg.parse g ([0x20, 1, 0, 4, 0, 0, 1, 0] : Bytes) =
      .ok (Msg.filed .heartbeatRequest ⟨0x20, 1, 4, 0, 1, 0, []⟩ []) := by
    have := Header.parse_enc ⟨0x20, 1, 4, 0, 1, 0, []⟩ ⟨by decide, fun _ => rfl⟩
    have he : Header.enc ⟨0x20, 1, 4, 0, 1, 0, []⟩ = [0x20, 1, 0, 4, 0, 0, 1, 0] := by decide
    rw [he] at this
    rw [Msg.parse_normal, this]; rfl
  have hc : serverStep g mem now [0x20, 1, 0, 4, 0, 0, 1, 0] = .crash := by
    rw [C69_server_crash_iff g mem hg]
    refine ⟨_, hp, rfl, ?_⟩
    intro xs hx i hi
    rw [short_body g hx (by decide)] at hi; cases hi
  simp [serve, hc, Step.ends]

theorem stamp_wf (hg : g 96 = false) (now : Int) : (stamp now).WF g :=
  (C10_new_partial (g := g) T.RecoveryTimeStamp 0 (be32 (timestampWord now)) (by
    rw [be32_len]; decide) hg).1 (by decide)

/-- The datagram that answers with a sequence number of choice: what a server that copied the number would send. -/
def answerWith (seq : UInt32) (now : Int) : Bytes :=
  [0x20, 2, 0, 12] ++ beBytes 3 seq.toNat ++ [0, 0, 96, 0, 4] ++ be32 (timestampWord now)

theorem answer_eq (now : Int) : answer now = answerWith 1 now := rfl

theorem parse_answer (hg : g 96 = false) (seq : UInt32) (hs : seq.toNat < 2 ^ 24) (now : Int) :
    Msg.parse g (answerWith seq now) =
      .ok (Msg.filed .heartbeatResponse ⟨0x20, 2, 12, 0, seq, 0, [0, 96, 0, 4] ++ be32 (timestampWord now)⟩
        [stamp now]) := by
  have he : encList g [stamp now] = [0, 96, 0, 4] ++ be32 (timestampWord now) := by
    simp only [encList, enc_stamp g hg, List.append_nil]
  have := Msg.parse_wire g ⟨0x20, 2, 12, 0, seq, 0, [0, 96, 0, 4] ++ be32 (timestampWord now)⟩
    ⟨hs, fun _ => rfl⟩ [stamp now] ⟨stamp_wf g hg now, trivial⟩ he.symm
  have h2 : Header.enc ⟨0x20, 2, 12, 0, seq, 0, [0, 96, 0, 4] ++ be32 (timestampWord now)⟩ = answerWith seq now := by
    have hb : has1stBit 0x20 = false := by decide
    have h12 : be16 12 = [0, 12] := by decide
    unfold Header.enc answerWith
    simp only [hb, h12]
    simp
  rw [h2] at this
  exact this

/-- The sequence number of the server's answer is that of the request only when the request's is 1. -/
theorem C69_sequence_iff (hg : g 96 = false) (now : Int) (d b : Bytes) (h : serverStep g mem now d = .reply b) :
    ∃ m r, Msg.parse g (d.take 1500) = .ok m ∧ Msg.parse g b = .ok r ∧ r.header.typ = 2 ∧ r.header.seq = 1 ∧
      (r.header.seq = m.header.seq ↔ m.header.seq = 1) := by
  obtain ⟨rfl, m, i, hp, _, _, _⟩ := (C69_server_reply_iff g mem hg now d b).1 h
  exact ⟨m, _, hp, parse_answer g hg 1 (by decide) now, rfl, rfl, eq_comm⟩

/-- What the client does: it waits for the first heartbeat response and reads the last time stamp of its body, without
looking at the sequence number. -/
theorem C69_client_exact (hg : g 96 = false) (d : Bytes) (ds : List Bytes) :
    client g mem [] = .timeout ∧
    client g mem (d :: ds) =
      match Msg.parse g (d.take 1500) with
      | .ok m =>
        if m.header.typ = 2 then
          match (bodyOf g m 96).getLast? with
          | none => .crash
          | some i => if i.payload.length < 4 then .invalid
              else .got (.time (timestampValue (dec32 (i.payload.take 4))))
        else client g mem ds
      | _ => client g mem ds := by
  refine ⟨rfl, ?_⟩
  simp only [client, bufSize]
  cases hp : Msg.parse g (d.take 1500) with
  | panic => exact absurd hp (Msg.C18_parse_total g _)
  | err e => rfl
  | ok m =>
    obtain ⟨_, _, hk, _⟩ := parse_filed g hp
    simp only
    by_cases h1 : m.header.typ = 2
    · have hk1 : m.kind = .heartbeatResponse := by rw [hk]; exact (kindOf_response _).2 h1
      rw [if_neg (by simp [hk1]), if_pos h1, step_request g mem hg hp _ (.inr rfl) hk1]
      cases (bodyOf g m 96).getLast? with
      | none => rfl
      | some i =>
        by_cases h4 : i.payload.length < 4
        · simp [h4]
        · simp [h4]
    · rw [if_pos (by rw [hk]; exact fun h => h1 ((kindOf_response _).1 h)), if_neg h1]

theorem client_answer (hg : g 96 = false) (seq : UInt32) (hs : seq.toNat < 2 ^ 24) (t : Int)
    (h0 : -2208988800000000000 ≤ t) (h1 : t < 7014383236854775808) (ds : List Bytes) :
    client g mem (answerWith seq t :: ds) = .got (.time (t / 1000000000 % 2 ^ 32 * 1000000000)) := by
  have hp := parse_answer g hg seq hs t
  have htake : (answerWith seq t).take 1500 = answerWith seq t := List.take_of_length_le (by
    unfold answerWith
    simp)
  have hb : bodyOf g (Msg.filed .heartbeatResponse
      ⟨0x20, 2, 12, 0, seq, 0, [0, 96, 0, 4] ++ be32 (timestampWord t)⟩ [stamp t]) 96 = [stamp t] := by
    have he : encList g [stamp t] = [0, 96, 0, 4] ++ be32 (timestampWord t) := by
      simp only [encList, enc_stamp g hg, List.append_nil]
    rw [bodyOf_eq]
    simp only [← he]
    rw [parseMulti_enc g [stamp t] ⟨stamp_wf g hg t, trivial⟩]
    rfl
  rw [(C69_client_exact g mem hg _ ds).2, htake, hp]
  simp only
  rw [hb, if_pos (by rfl)]
  show (if (be32 (timestampWord t)).length < 4 then _ else
    Outcome.got (.time (timestampValue (dec32 ((be32 (timestampWord t)).take 4))))) = _
  rw [be32_len, if_neg (by omega), List.take_of_length_le (by rw [be32_len]; omega), dec32_be32, timestamp_floor t h0 h1]

/-- C69 is false: the client takes a response with any sequence number, and any instant, for the answer to its request
(whose sequence number is 1). -/
theorem C69_client_sequence_violated (hg : g 96 = false) (seq : UInt32) (hs : seq.toNat < 2 ^ 24) (t : Int)
    (h0 : -2208988800000000000 ≤ t) (h1 : t < 7014383236854775808) (ds : List Bytes) :
    ∃ d m, Msg.parse g d = .ok m ∧ m.header.seq = seq ∧
      client g mem (d :: ds) = .got (.time (t / 1000000000 % 2 ^ 32 * 1000000000)) :=
  ⟨_, _, parse_answer g hg seq hs t, rfl, client_answer g mem hg seq hs t h0 h1 ds⟩

/-- The element with the client's addresses. -/
def addresses : IE := IE.new 192 ([3, 127, 0, 0, 1] ++ address6)

theorem parse_question (hg : g 96 = false) (hg' : g 192 = false) (now : Int) :
    Msg.parse g (question now) = .ok (Msg.filed .heartbeatRequest
      ⟨0x20, 1, 37, 0, 1, 0, encList g [stamp now, addresses]⟩ [stamp now, addresses]) := by
  have ha : addresses.WF g :=
    (C10_new_partial (g := g) T.SourceIPAddress 0 ([3, 127, 0, 0, 1] ++ address6) (by decide) hg').1 (by decide)
  have := Msg.parse_wire g ⟨0x20, 1, 37, 0, 1, 0, encList g [stamp now, addresses]⟩
    ⟨by show (1 : UInt32).toNat < 2 ^ 24; decide, fun _ => rfl⟩ [stamp now, addresses]
    ⟨stamp_wf g hg now, ha, trivial⟩ rfl
  have h2 : Header.enc ⟨0x20, 1, 37, 0, 1, 0, encList g [stamp now, addresses]⟩ = question now := by
    have hj : addresses.enc g = [0, 192, 0, 21, 3, 127, 0, 0, 1] ++ address6 := by
      show IE.enc g ⟨192, 21, 0, [3, 127, 0, 0, 1] ++ address6, []⟩ = _
      rw [IE.enc, hg']; rfl
    have he : encList g [stamp now, addresses] = [0, 96, 0, 4] ++ be32 (timestampWord now) ++
        [0, 192, 0, 21, 3, 127, 0, 0, 1] ++ address6 := by
      simp only [encList, enc_stamp g hg, hj, List.append_nil, List.append_assoc]
    have hb : has1stBit 0x20 = false := by decide
    have h37 : be16 37 = [0, 37] := by decide
    have h3 : beBytes 3 (1 : UInt32).toNat = [0, 0, 1] := by decide
    rw [he]
    unfold Header.enc question
    simp only [hb, h37, h3]
    simp
  rw [h2] at this
  exact this

/-- C69, partial: the two programs understand each other. Whatever the client's clock shows, the server answers its
request, and the client reads the server's time in whole seconds, modulo 2^32 counted from 1970. -/
theorem C69_exchange_partial (hg : g 96 = false) (hg' : g 192 = false) (t0 t : Int)
    (h0 : -2208988800000000000 ≤ t) (h1 : t < 7014383236854775808) (ds : List Bytes) :
    ∃ q r, request g t0 = .ok q ∧ serverStep g mem t q = .reply r ∧
      client g mem (r :: ds) = .got (.time (t / 1000000000 % 2 ^ 32 * 1000000000)) := by
  refine ⟨question t0, answer t, C69_request_exact g hg hg' t0, ?_, ?_⟩
  · have htake : (question t0).take 1500 = question t0 := List.take_of_length_le (by
      unfold question address6
      simp)
    have hp := parse_question g hg hg' t0
    rw [C69_server_reply_iff g mem hg, htake]
    refine ⟨rfl, _, stamp t0, hp, rfl, ?_, ?_⟩
    · rw [bodyOf_eq]
      have ha : addresses.WF g :=
        (C10_new_partial (g := g) T.SourceIPAddress 0 ([3, 127, 0, 0, 1] ++ address6) (by decide) hg').1 (by decide)
      simp only
      rw [parseMulti_enc g [stamp t0, addresses] ⟨stamp_wf g hg t0, ha, trivial⟩]
      rfl
    · show 4 ≤ (be32 (timestampWord t0)).length
      rw [be32_len]; omega
  · rw [answer_eq]
    exact client_answer g mem hg 1 (by decide) t h0 h1 ds

/-- The time and address elements are not grouped types, so the hypotheses above hold of the default registry. -/
example : defaultGroupedTypes.contains 96 = false ∧ defaultGroupedTypes.contains 192 = false ∧
    (-2208988800000000000 : Int) ≤ 1700000000000000000 ∧ (1700000000000000000 : Int) < 7014383236854775808 := by
  decide +kernel

end Example
end Pfcp
