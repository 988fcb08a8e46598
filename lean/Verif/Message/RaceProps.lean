/- C73: encoding from several goroutines. -/
import Verif.Message.Race
import Verif.Message.BufferProps

namespace Pfcp
namespace Race

variable (g : IEType → Bool)

/-- A goroutine that calls `Marshal` on the message. -/
def call (m : Msg) : Act := marshal g m.header m.elements

/-! ### Helper lemmas -/

theorem adv_done (n : Nat) (r : Res Bytes) (s : Shared) : adv n (.done r) s = (.done r, s) := by
  cases n <;> rfl

theorem adv_after {a : Act} {s s' : Shared} {r : Res Bytes} {N : Nat} (h : adv N a s = (.done r, s')) (n : Nat)
    (hn : N ≤ n) : adv n a s = (.done r, s') := by
  obtain ⟨k, rfl⟩ : ∃ k, n = N + k := ⟨n - N, by omega⟩
  rw [adv_add, h, adv_done]

/-- Finished is finished: any two ends of the same run agree. -/
theorem adv_unique {a : Act} {s s1 s2 : Shared} {r1 r2 : Res Bytes} {m n : Nat}
    (h1 : adv m a s = (.done r1, s1)) (h2 : adv n a s = (.done r2, s2)) : r1 = r2 ∧ s1 = s2 := by
  have e1 := adv_after h1 (m + n) (by omega)
  have e2 := adv_after h2 (m + n) (by omega)
  rw [e1] at e2
  cases e2
  exact ⟨rfl, rfl⟩

/-- From any state of the header, a call that is not disturbed ends with the message. -/
theorem call_gets (m : Msg) (s : Shared) : ∃ s', Gets (call g m) s (.done (.ok (m.wire g))) s' := by
  have h1 := begin_gets g m.header m.elements s
  obtain ⟨s', h2⟩ := end_gets g m.header m.elements
    (({ s with payload := none } : Shared).fresh (encList g m.elements).length) s.next rfl
    (by simp [Shared.fresh])
  rw [wire_eq] at h2
  exact ⟨s', h1.trans h2⟩

/-! ### What holds -/

/-- C73, one call at a time. Whatever earlier calls have left in the header, a call of `Marshal` during which no other
goroutine moves comes to an end, with the encoding of the message. -/
theorem C73_alone_partial (m : Msg) (hs : m.Shaped) (hn : m.NoNil) (ts : List Act) (s : Shared) (i : Nat)
    (hi : ts[i]? = some (call g m)) :
    ∃ N, ∀ n, N ≤ n → ∃ b, Msg.marshal g m = .ok b ∧
      (State.exec ⟨ts, s⟩ (List.replicate n i)).threads = ts.set i (.done (.ok b)) := by
  obtain ⟨s', N, h⟩ := call_gets g m s
  refine ⟨N, fun n hn' => ⟨m.wire g, Msg.marshal_ok g m hs hn, ?_⟩⟩
  rw [exec_adv i n ts s _ hi, adv_after h n hn']

/-- Steps marked as reads change nothing. -/
def Marked : Act → Prop
  | .done _ => True
  | .step _ w eff k => (w = false → ∀ s, eff s = s) ∧ ∀ s, Marked (k s)

theorem marked_headerTo (h : Header) (b : Slice) : Marked (headerTo h b) := by
  unfold headerTo rdLen
  refine ⟨fun _ _ => rfl, fun s1 => ⟨fun _ _ => rfl, fun s2 => ⟨fun _ _ => rfl, fun s3 => ?_⟩⟩⟩
  simp only
  split
  · trivial
  · exact ⟨fun _ _ => rfl, fun s4 => trivial⟩

theorem marked_setLength (h : Header) (b : Slice) : Marked (setLength h b) := by
  unfold setLength rdLen
  refine ⟨fun _ _ => rfl, fun s1 => ⟨(fun e => by cases e), fun s2 => ?_⟩⟩
  simp only
  split
  · exact ⟨fun _ _ => rfl, fun s3 => ⟨(fun e => by cases e), fun s4 => marked_headerTo h b⟩⟩
  · exact marked_headerTo h b

theorem marked_fill (h : Header) (b : Slice) (es : List IE) (off : Nat) : Marked (fill g h b es off) := by
  induction es generalizing off with
  | nil => exact marked_setLength h b
  | cons e es ih =>
    refine ⟨fun _ _ => rfl, fun s1 => ?_⟩
    simp only
    split
    · split
      · exact ih _
      · trivial
      · trivial
    · refine ⟨(fun e => by cases e), fun s2 => ?_⟩
      simp only
      split
      · exact ih _
      · trivial
      · trivial

theorem marked_size (h : Header) (es : List IE) (b : Slice) : Marked (size g h es b) := by
  unfold size rdLen
  refine ⟨fun _ _ => rfl, fun s1 => ⟨fun _ _ => rfl, fun s2 => ⟨fun _ _ => rfl, fun s3 => ?_⟩⟩⟩
  simp only
  split
  · trivial
  · exact ⟨(fun e => by cases e), fun s4 => marked_fill g h b es 0⟩

theorem marked_marshalTo (h : Header) (es : List IE) (b : Slice) : Marked (marshalTo g h es b) := by
  unfold marshalTo
  refine ⟨fun _ _ => rfl, fun s1 => ?_⟩
  simp only
  split
  · exact ⟨(fun e => by cases e), fun s2 => marked_size g h es b⟩
  · exact marked_size g h es b

theorem marked_call (m : Msg) : Marked (call g m) := by
  unfold call marshal rdLen
  refine ⟨fun _ _ => rfl, fun s1 => ⟨fun _ _ => rfl, fun s2 => ?_⟩⟩
  simp only
  split
  · trivial
  · exact marked_marshalTo g _ _ _

/-- In this schedule all writes are those of goroutine `i`. -/
def OnlyWriter (i : Nat) : State → List Nat → Prop
  | _, [] => True
  | s, j :: js =>
    (j = i ∨ ∀ a v, s.threads[j]? = some a → a.access ≠ some (v, true)) ∧ OnlyWriter i (s.move j) js

theorem only_writer (i : Nat) (sched : List Nat) (s : State) (a : Act) (hi : s.threads[i]? = some a)
    (hm : ∀ x ∈ s.threads, Marked x) (hq : OnlyWriter i s sched) :
    (s.exec sched).threads[i]? = some (adv (sched.count i) a s.sh).1 := by
  induction sched generalizing s a with
  | nil => simpa [State.exec, adv] using hi
  | cons j js ih =>
    obtain ⟨h1, h2⟩ := hq
    show ((s.move j).exec js).threads[i]? = _
    have hlt : i < s.threads.length := (List.getElem?_eq_some_iff.1 hi).1
    have hmove : ∀ x ∈ (s.move j).threads, Marked x := by
      intro x hx
      unfold State.move at hx
      split at hx
      · rename_i v w eff k he
        have hj := hm _ (List.mem_of_getElem? he)
        rcases List.mem_or_eq_of_mem_set hx with h | h
        · exact hm x h
        · rw [h]; exact hj.2 _
      · exact hm x hx
    by_cases hji : j = i
    · subst hji
      rw [List.count_cons_self]
      cases a with
      | done r =>
        have : s.move j = s := by unfold State.move; rw [hi]
        rw [this] at h2 hmove ⊢
        rw [ih s (.done r) hi hm h2, adv_done, adv_done]
      | step v w eff k =>
        have hmv : s.move j = ⟨s.threads.set j (k s.sh), eff s.sh⟩ := by unfold State.move; rw [hi]
        rw [hmv] at h2 hmove ⊢
        rw [ih _ (k s.sh) (by simp [hlt]) hmove h2]
        rfl
    · rw [List.count_cons_of_ne hji]
      have hq := h1.resolve_left hji
      cases he : s.threads[j]? with
      | none =>
        have hmv : s.move j = s := by unfold State.move; rw [he]
        rw [hmv] at h2 ⊢
        exact ih s a hi hm h2
      | some x =>
        cases x with
        | done r =>
          have hmv : s.move j = s := by unfold State.move; rw [he]
          rw [hmv] at h2 ⊢
          exact ih s a hi hm h2
        | step v w eff k =>
          have hw : w = false := by
            have := hq _ v he
            cases w with
            | false => rfl
            | true => exact absurd rfl this
          have heff : eff s.sh = s.sh := (hm _ (List.mem_of_getElem? he)).1 hw _
          have hmv : s.move j = ⟨s.threads.set j (k s.sh), s.sh⟩ := by
            unfold State.move; rw [he]; simp only [heff]
          rw [hmv] at h2 hmove ⊢
          exact ih _ a (by simp only; rw [List.getElem?_set_ne hji]; exact hi) hmove h2

/-- C73, with others reading. Any number of goroutines, any schedule in which all writes to the header are those of one of
them (the others may be about to encode, or ask for lengths): if that one has finished, it has the encoding of the message;
and it has finished after a number of steps that does not depend on the schedule. -/
theorem C73_only_writer_partial (m : Msg) (hs : m.Shaped) (hn : m.NoNil) (s : State) (i : Nat) (sched : List Nat)
    (hi : s.threads[i]? = some (call g m)) (hm : ∀ x ∈ s.threads, Marked x) (hq : OnlyWriter i s sched) :
    (∀ r, (s.exec sched).threads[i]? = some (.done r) → Msg.marshal g m = r) ∧
    ∃ N, ∀ sched', OnlyWriter i s sched' → N ≤ sched'.count i →
      ∃ b, (s.exec sched').threads[i]? = some (.done (.ok b)) := by
  obtain ⟨s', N, h⟩ := call_gets g m s.sh
  constructor
  · intro r hr
    rw [only_writer i sched s _ hi hm hq] at hr
    have e : adv (sched.count i) (call g m) s.sh = (.done r, (adv (sched.count i) (call g m) s.sh).2) :=
      Prod.ext (Option.some.inj hr) rfl
    rw [Msg.marshal_ok g m hs hn]
    exact (adv_unique h e).1
  · refine ⟨N, fun sched' hq' hN => ⟨m.wire g, ?_⟩⟩
    rw [only_writer i sched' s _ hi hm hq', adv_after h _ hN]

/-- C73, each goroutine its own message. The messages may have elements in common; goroutine `k` encodes message `k`,
whatever is in its header. Under every schedule: who has finished has the encoding of their message, and everyone
finishes. -/
theorem C73_separate_partial (ms : List (Msg × Shared)) (hs : ∀ p ∈ ms, p.1.Shaped ∧ p.1.NoNil) (sched : List Nat)
    (k : Nat) (p : Msg × Shared) (hk : ms[k]? = some p) :
    (∀ r sh, (execOwn (ms.map fun p => (call g p.1, p.2)) sched)[k]? = some (.done r, sh) → Msg.marshal g p.1 = r) ∧
    ∃ N, N ≤ sched.count k →
      ∃ b sh, (execOwn (ms.map fun p => (call g p.1, p.2)) sched)[k]? = some (.done (.ok b), sh) := by
  have hrun : ∀ (st : List (Act × Shared)) (sched : List Nat) (x : Act × Shared), st[k]? = some x →
      (execOwn st sched)[k]? = some (adv (sched.count k) x.1 x.2) := by
    intro st sched
    induction sched generalizing st with
    | nil => intro x hx; simpa [execOwn, adv] using hx
    | cons j js ih =>
      intro x hx
      show (execOwn (moveOwn st j) js)[k]? = _
      have hlt : k < st.length := (List.getElem?_eq_some_iff.1 hx).1
      by_cases hjk : j = k
      · subst hjk
        rw [List.count_cons_self]
        obtain ⟨a, sh⟩ := x
        unfold moveOwn
        cases a with
        | done r =>
          rw [hx]
          simp only
          rw [ih st _ hx, adv_done, adv_done]
        | step v w eff kk =>
          rw [hx]
          simp only
          rw [ih _ (kk sh, eff sh) (by simp [hlt])]
          rfl
      · rw [List.count_cons_of_ne hjk]
        refine ih _ x ?_
        unfold moveOwn
        split
        · rw [List.getElem?_set_ne hjk]; exact hx
        · exact hx
  have h0 : (ms.map fun p => (call g p.1, p.2))[k]? = some (call g p.1, p.2) := by
    rw [List.getElem?_map, hk]; rfl
  have hwf := hs p (List.mem_of_getElem? hk)
  obtain ⟨s', N, h⟩ := call_gets g p.1 p.2
  have hr0 := hrun _ sched _ h0
  constructor
  · intro r sh hr
    rw [hr0] at hr
    rw [Msg.marshal_ok g p.1 hwf.1 hwf.2]
    exact (adv_unique h (Option.some.inj hr)).1
  · refine ⟨N, fun hN => ⟨p.1.wire g, s', ?_⟩⟩
    rw [hr0, adv_after h _ hN]

/-! ### What does not hold -/

theorem sent_eq (h : Header) (len : UInt16) (body : Bytes) :
    sent h len body = { h with length := len }.fixedPart ++ body := rfl

/-- Not C73: for every message and every two goroutines calling `Marshal` on it, there is a schedule under which both
report success and the first has a message of the right size whose body is all zeros: the array that the second has just
put in place. -/
theorem C73_zeros_violated (m : Msg) (hs : m.Shaped) (hn : m.NoNil) (s : Shared) :
    ∃ sched b z, Msg.marshal g m = .ok b ∧
      (State.exec ⟨[call g m, call g m], s⟩ sched).threads = [.done (.ok z), .done (.ok b)] ∧
      z = b.take m.headerLen ++ List.replicate (b.length - m.headerLen) 0 := by
  obtain ⟨p1, e1⟩ := exec_first (b := call g m) ((begin_gets g m.header m.elements s).trans
    (fillAll_gets g m.header m.elements _ s.next _ rfl (by simp [Shared.fresh])))
  obtain ⟨p2, e2⟩ := exec_second (a := setLength m.header (buffer g m.header m.elements))
    (begin_gets g m.header m.elements
      ((({ s with payload := none } : Shared).fresh (encList g m.elements).length).with s.next (encList g m.elements)))
  generalize hs2 : ((({ s with payload := none } : Shared).fresh (encList g m.elements).length).with s.next
    (encList g m.elements)) = s2 at e1 e2
  have hc := Shared.fresh_content { s2 with payload := none } (encList g m.elements).length
  obtain ⟨p3, e3⟩ := exec_first (b := fill g m.header (buffer g m.header m.elements) m.elements 0)
    (finish_gets m.header _ (buffer g m.header m.elements) (by
      rw [hc, buffer_length, List.length_replicate]) :
      Gets _ (({ s2 with payload := none } : Shared).fresh (encList g m.elements).length) _ _)
  rw [hc, List.length_replicate] at e3
  obtain ⟨s', h4⟩ := end_gets g m.header m.elements
    { (({ s2 with payload := none } : Shared).fresh (encList g m.elements).length) with
      length := lengthFor m.header (encList g m.elements).length } s2.next rfl (by simp [Shared.fresh])
  rw [wire_eq] at h4
  obtain ⟨p4, e4⟩ := exec_second (a := .done (.ok (sent m.header (lengthFor m.header (encList g m.elements).length)
    (List.replicate (encList g m.elements).length 0)))) h4
  refine ⟨p1 ++ (p2 ++ (p3 ++ p4)), m.wire g, sent m.header (lengthFor m.header (encList g m.elements).length)
    (List.replicate (encList g m.elements).length 0), Msg.marshal_ok g m hs hn, ?_, ?_⟩
  · rw [exec_append, exec_append, exec_append]
    rw [show State.exec ⟨[call g m, call g m], s⟩ p1 = _ from e1]
    rw [show State.exec ⟨[_, call g m], s2⟩ p2 = _ from e2, e3]
    exact congrArg State.threads e4
  · rw [Msg.headerLen_eq, ← wire_eq]
    have hf : (Header.fixedPart { m.header with length := lengthFor m.header (encList g m.elements).length }).length
      = Header.fixedLen m.header.flags := Header.fixedPart_length _
    unfold wire
    rw [sent_eq, sent_eq, List.take_left' hf, List.length_append, hf,
      Nat.add_sub_cancel_left]

/-- Not C73: for every message with an element there is a schedule under which the second goroutine succeeds and the first
gets an error, because the payload is nil when it writes its first element, -/
theorem C73_error_violated (m : Msg) (hs : m.Shaped) (hn : m.NoNil) (he : m.elements ≠ []) (s : Shared) :
    ∃ sched b, Msg.marshal g m = .ok b ∧
      (State.exec ⟨[call g m, call g m], s⟩ sched).threads = [.done (.err .invalidLength), .done (.ok b)] := by
  obtain ⟨p1, e1⟩ := exec_first (b := call g m) (begin_gets g m.header m.elements s)
  generalize ({ s with payload := none } : Shared).fresh (encList g m.elements).length = s1 at e1
  obtain ⟨p2, e2⟩ := exec_second (a := fill g m.header (buffer g m.header m.elements) m.elements 0)
    ((marshal_gets g m.header m.elements s1).trans (marshalTo_gets g m.header m.elements s1 _))
  have hfail : Gets (fill g m.header (buffer g m.header m.elements) m.elements 0) { s1 with payload := none }
      (.done (.err .invalidLength)) { s1 with payload := none } := by
    cases hm : m.elements with
    | nil => exact absurd hm he
    | cons e es =>
      unfold fill
      refine Gets.step ?_
      have : Msg.putIE g e ⟨[], []⟩ 0 = .err .invalidLength := by
        unfold Msg.putIE
        cases e
        simp [IE.marshalTo, Slice.len]
      simp only [this, id]
      exact Gets.refl _ _
  obtain ⟨p3, e3⟩ := exec_first (b := size g m.header m.elements (buffer g m.header m.elements)) hfail
  obtain ⟨s', h4⟩ := end_gets g m.header m.elements
    (({ s1 with payload := none } : Shared).fresh (encList g m.elements).length) s1.next rfl (by simp [Shared.fresh])
  rw [wire_eq] at h4
  obtain ⟨p4, e4⟩ := exec_second (a := .done (.err .invalidLength))
    (((size_gets g m.header m.elements { s1 with payload := none } (buffer g m.header m.elements) rfl).trans
      (store_gets g m.header m.elements _ _ _)).trans h4)
  refine ⟨p1 ++ (p2 ++ (p3 ++ p4)), m.wire g, Msg.marshal_ok g m hs hn, ?_⟩
  rw [exec_append, exec_append, exec_append]
  rw [show State.exec ⟨[call g m, call g m], s⟩ p1 = _ from e1]
  rw [show State.exec ⟨[_, call g m], s1⟩ p2 = _ from e2, e3, e4]

/-- and for every message with two elements one under which it panics. -/
theorem C73_panic_violated (m : Msg) (e e' : IE) (es : List IE) (he : m.elements = e :: e' :: es) (s : Shared) :
    ∃ sched, (State.exec ⟨[call g m, call g m], s⟩ sched).threads[0]? = some (.done .panic) := by
  have h1 := begin_gets g m.header m.elements s
  generalize hs0 : ({ s with payload := none } : Shared) = s0 at h1
  have h2 := fill_gets g m.header (buffer g m.header m.elements) s0.next [e] []
    (List.replicate (encList g m.elements).length 0) (s0.fresh (encList g m.elements).length) rfl
    (by rw [he]; simp [encList]) (e' :: es)
  rw [List.nil_append, Shared.fresh_with] at h2
  rw [show ([e] ++ e' :: es) = m.elements from he.symm] at h2
  obtain ⟨p1, e1⟩ := exec_first (b := call g m) (h1.trans h2)
  generalize (s0.fresh (encList g m.elements).length).with _ _ = s1 at e1
  obtain ⟨p2, e2⟩ := exec_second
    (a := fill g m.header (buffer g m.header m.elements) (e' :: es) ([] ++ encList g [e]).length)
    ((marshal_gets g m.header m.elements s1).trans (marshalTo_gets g m.header m.elements s1 _))
  have hfail : Gets (fill g m.header (buffer g m.header m.elements) (e' :: es) ([] ++ encList g [e]).length)
      { s1 with payload := none } (.done .panic) { s1 with payload := none } := by
    unfold fill
    refine Gets.step ?_
    have hpos : 0 < ([] ++ encList g [e]).length := by
      simp only [encList, List.append_nil, List.nil_append]
      have := enc_length_pos g e
      omega
    have : Msg.putIE g e' ⟨[], []⟩ ([] ++ encList g [e]).length = .panic := by
      unfold Msg.putIE
      rw [if_neg (by simp only [List.length_nil]; omega)]
    simp only [this, id]
    exact Gets.refl _ _
  obtain ⟨p3, e3⟩ := exec_first (b := size g m.header m.elements (buffer g m.header m.elements)) hfail
  refine ⟨p1 ++ (p2 ++ p3), ?_⟩
  rw [exec_append, exec_append]
  rw [show State.exec ⟨[call g m, call g m], s⟩ p1 = _ from e1]
  rw [show State.exec ⟨[_, call g m], s1⟩ p2 = _ from e2, e3]
  rfl

/-- and for every message with an element one under which `make` is asked for a negative size and panics, because the second
goroutine has put its array in place between two of the readings of the payload's length. -/
theorem C73_make_violated (m : Msg) (he : m.elements ≠ []) (s : Shared) :
    ∃ sched, (State.exec ⟨[call g m, call g m], s⟩ sched).threads[0]? = some (.done .panic) := by
  let B := buffer g m.header m.elements
  let K : Act := rdLen fun l2 => rdLen fun l3 =>
    if fixed m.header + 0 + elemsLen g m.elements < l2 + (fixed m.header + l3) then .done .panic
    else store g m.header m.elements B (fixed m.header + 0 + elemsLen g m.elements - (l2 + (fixed m.header + l3)))
  have h1 : Gets (call g m) s K { s with payload := none } := by
    refine (marshal_gets g m.header m.elements s).trans ((marshalTo_gets g m.header m.elements s _).trans ?_)
    unfold size
    exact Gets.rdLen (Gets.refl _ _)
  obtain ⟨p1, e1⟩ := exec_first (b := call g m) h1
  obtain ⟨p2, e2⟩ := exec_second (a := K) (begin_gets g m.header m.elements { s with payload := none })
  have hc := Shared.fresh_content { s with payload := none } (encList g m.elements).length
  generalize Shared.fresh { s with payload := none } (encList g m.elements).length = s1 at e2 hc
  have hpos : 0 < (encList g m.elements).length := by
    cases hm : m.elements with
    | nil => exact absurd hm he
    | cons e es =>
      have := enc_length_pos g e
      simp only [encList, List.length_append]
      omega
  have hfail : Gets K s1 (.done .panic) s1 := by
    refine Gets.rdLen (Gets.rdLen ?_)
    rw [hc, elemsLen_eq, List.length_replicate, if_pos (by omega)]
    exact Gets.refl _ _
  obtain ⟨p3, e3⟩ := exec_first (b := fill g m.header B m.elements 0) hfail
  refine ⟨p1 ++ (p2 ++ p3), ?_⟩
  rw [exec_append, exec_append]
  rw [show State.exec ⟨[call g m, call g m], s⟩ p1 = _ from e1]
  rw [show State.exec ⟨[K, call g m], _⟩ p2 = _ from e2, e3]
  rfl

/-- Not C73: in terms of the Go memory model, two goroutines encoding the same message race, for every message: both can be
about to write the payload. -/
theorem C73_race_violated (m : Msg) (s : Shared) :
    ∃ sched, (State.exec ⟨[call g m, call g m], s⟩ sched).Races := by
  have h0 := fun s => (marshal_gets g m.header m.elements s).trans ((marshalTo_gets g m.header m.elements s _).trans
    (size_gets g m.header m.elements _ _ rfl))
  obtain ⟨p1, e1⟩ := exec_first (b := call g m) (h0 s)
  obtain ⟨p2, e2⟩ := exec_second
    (a := store g m.header m.elements (buffer g m.header m.elements) (encList g m.elements).length)
    (h0 { s with payload := none })
  refine ⟨p1 ++ p2, ?_⟩
  rw [exec_append, show State.exec ⟨[call g m, call g m], s⟩ p1 = _ from e1]
  rw [show State.exec ⟨[_, call g m], _⟩ p2 = _ from e2]
  exact ⟨0, 1, _, _, .payload, true, true, by omega, rfl, rfl, rfl, rfl, rfl⟩

/-- A heartbeat request with its time stamp. -/
def sample : Msg := Msg.filed .heartbeatRequest ⟨0x20, 1, 0, 0, 9, 0, []⟩ [IE.mk 96 4 0 [1, 2, 3, 4] []]

/-- Nothing allocated, nil payload. -/
def clean : Shared := ⟨none, fun _ => [], 0, 0⟩

/-- Alone: sixteen octets after fifteen steps. -/
example : (State.exec ⟨[call (fun _ => false) sample], clean⟩ (List.replicate 15 0)).threads.map
      (fun a => match a with | .done r => some r | _ => none)
    = [some (.ok [0x20, 1, 0, 12, 0, 0, 9, 0, 0, 96, 0, 4, 1, 2, 3, 4])] := by decide

/-- Two at a time, switching once: the second replaces the array before the first has sent it. -/
example : (State.exec ⟨[call (fun _ => false) sample, call (fun _ => false) sample], clean⟩
      (List.replicate 9 0 ++ List.replicate 8 1 ++ List.replicate 6 0)).threads.head?.map
      (fun a => match a with | .done r => some r | _ => none)
    = some (some (.ok [0x20, 1, 0, 12, 0, 0, 9, 0, 0, 0, 0, 0, 0, 0, 0, 0])) := by decide

example : sample.Shaped ∧ sample.NoNil ∧ sample.elements ≠ [] :=
  ⟨Msg.filed_shaped _ _ _, Msg.filed_noNil _ _ _, by decide⟩

end Race
end Pfcp
