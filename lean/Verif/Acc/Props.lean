/-
Property theorems about the value accessors: C37 (foreign elements), C38 (grouped elements), C39 (no panic).
`g` is the set of grouped types in force, `mem` the bytes that follow a payload in memory; both are arbitrary.
-/
import Verif.Acc.Safe
import Verif.Acc.Home
import Verif.Config.Model

namespace Pfcp
open Fields

/-- The accessor has a case for this type (the `case` labels of its `switch i.Type`). -/
def Acc.handles (a : Acc) (t : IEType) : Bool := (a.table.cases.lookup t).isSome

/-! ## C37 -/

/-- On a foreign element with a payload of at least the length the accessor checks first, the answer is an
invalid-type error with the type of that element. -/
theorem C37_foreign_partial (g : IEType → Bool) (mem : IE → Bytes) (a : Acc) (i : IE) (h : a.handles i.typ = false)
    (hp : a.table.pre ≤ i.payload.length) : a.call g mem i = .err (.invalidTypeError i.typ) := by
  rw [call_eq, if_neg (by omega)]
  unfold Acc.handles at h
  split
  · rfl
  · rename_i e; rw [e] at h; cases h
  · rename_i e; rw [e] at h; cases h

example : Acc.call (fun _ => false) (fun _ => []) .FARID ⟨T.QERID, 4, 0, [0, 0, 0, 1], []⟩
    = .err (.invalidTypeError T.QERID) := rfl

/-- The accessors that look at the payload length before they look at the type. -/
def lengthFirst : List Acc := [
  .AveragePacketDelay, .DLBufferingDuration, .DownlinkDataNotificationDelay, .DurationMeasurement,
  .EthernetInactivityTimer, .NodeIDType, .NodeAddress, .CSIDs, .GBR, .MaximumPacketDelay, .MBR, .MeasurementPeriod,
  .MinimumPacketDelay, .MinimumWaitTime, .Exponent, .NFInstanceID, .OuterHeaderRemoval, .PagingPolicyIndicator,
  .QuotaHoldingTime, .QuotaValidityTime, .ReportingTriggers, .SNSSAI, .SubsequentTimeThreshold, .TGPPInterfaceType,
  .TimeOffsetMeasurement, .TimeOffsetThreshold, .TimeQuota, .TimeThreshold, .Timer, .TSNBridgeID,
  .UEIPAddressPoolIdentity, .UsageReportTrigger, .ValidityTimer]

theorem pre_zero (a : Acc) : (lengthFirst.contains a || a.table.pre == 0) = true :=
  forall_acc (p := fun a => lengthFirst.contains a || a.table.pre == 0) (by decide +kernel) a

/-- The property in full for every accessor outside that list. -/
theorem C37_foreign (g : IEType → Bool) (mem : IE → Bytes) (a : Acc) (ha : a ∉ lengthFirst) (i : IE)
    (h : a.handles i.typ = false) : a.call g mem i = .err (.invalidTypeError i.typ) := by
  refine C37_foreign_partial g mem a i h ?_
  have := pre_zero a
  simp only [Bool.or_eq_true, List.contains_iff_mem, beq_iff_eq] at this
  rcases this with h | h
  · exact absurd h ha
  · omega

example : Acc.FARID ∉ lengthFirst := by decide +kernel

/-- Each accessor of the list answers "unexpected EOF" to a foreign element with an empty payload. -/
theorem C37_short_foreign_violated (g : IEType → Bool) (mem : IE → Bytes) (a : Acc) (ha : a ∈ lengthFirst) (i : IE)
    (hp : i.payload = []) : a.call g mem i = .err .unexpectedEOF := by
  have h : (!lengthFirst.contains a || decide (0 < a.table.pre)) = true :=
    forall_acc (p := fun a => !lengthFirst.contains a || decide (0 < a.table.pre)) (by decide +kernel) a
  have h2 : lengthFirst.contains a = true := by simpa using ha
  rw [h2] at h
  rw [call_eq, if_pos (by rw [hp]; simpa using h)]

/-- None of them has a case for every type, so the previous theorem is about foreign elements as well. -/
theorem C37_short_foreign_exists_violated (g : IEType → Bool) (mem : IE → Bytes) (a : Acc) (ha : a ∈ lengthFirst) :
    ∃ i, a.handles i.typ = false ∧ a.call g mem i ≠ .err (.invalidTypeError i.typ) := by
  have h : (!a.handles 0) = true := forall_acc (p := fun a => !a.handles 0) (by decide +kernel) a
  refine ⟨⟨0, 0, 0, [], []⟩, by simpa using h, ?_⟩
  rw [C37_short_foreign_violated g mem a ha _ rfl]
  exact fun h => nomatch h

/-- An accessor has a case for exactly the types that carry its value (`Acc.home`) and for grouped types; what it does
on a grouped type other than a home type is to look at children (C38). -/
theorem C37_home (a : Acc) (t : IEType) :
    (t ∈ a.home → a.handles t = true) ∧
    (a.handles t = true → t ∈ a.home ∨ t ∈ defaultGroupedTypes) := by
  have h1 : a.home.all (fun t => a.handles t) = true :=
    forall_acc (p := fun a => a.home.all (fun t => a.handles t)) (by decide +kernel) a
  have h2 : a.table.cases.all (fun c => a.home.contains c.1 || defaultGroupedTypes.contains c.1) = true :=
    forall_acc (p := fun a => a.table.cases.all (fun c => a.home.contains c.1 || defaultGroupedTypes.contains c.1))
      (by decide +kernel) a
  refine ⟨fun h => List.all_eq_true.1 h1 t h, fun h => ?_⟩
  unfold Acc.handles at h
  obtain ⟨b, hb⟩ := Option.isSome_iff_exists.1 h
  have := List.all_eq_true.1 h2 _ (lookup_mem hb)
  simpa using this

/-- So a non-grouped element of any type but those is refused. -/
theorem C37_foreign_plain_partial (g : IEType → Bool) (mem : IE → Bytes) (a : Acc) (i : IE) (h : i.typ ∉ a.home)
    (hg : i.typ ∉ defaultGroupedTypes) (hp : a.table.pre ≤ i.payload.length) :
    a.call g mem i = .err (.invalidTypeError i.typ) := by
  refine C37_foreign_partial g mem a i ?_ hp
  cases hh : a.handles i.typ
  · rfl
  · rcases (C37_home a i.typ).2 hh with h' | h'
    · exact absurd h' h
    · exact absurd h' hg

example : T.QERID ∉ Acc.FARID.home ∧ T.QERID ∉ defaultGroupedTypes ∧ Acc.FARID.table.pre ≤ 0 := by decide +kernel

/-! ## C38 -/

/-- The types of children an accessor looks for in an element of type `t`; empty if it does not look at children. -/
def Acc.searched (a : Acc) (t : IEType) : List IEType :=
  match a.table.cases.lookup t with
  | some (.descend _ subs) => subs.map (·.1)
  | _ => []

/-- The accessor looks at the children of elements of this type. -/
def Acc.descends (a : Acc) (t : IEType) : Bool :=
  match a.table.cases.lookup t with
  | some (.descend _ _) => true
  | _ => false

/-- The accessor called on the child: the same one, except that `LocalFTEID` reads an F-TEID child with `FTEID`. -/
def Acc.onChild : Acc → Acc
  | .LocalFTEID => .FTEID
  | a => a

theorem findSub_spec (subs : List (IEType × Acc)) (b : Acc) (h : subs.all (fun p => p.2 = b) = true) (cs : List IE) :
    findSub subs cs = (cs.find? (fun c => (subs.map (·.1)).contains c.typ)).map (fun c => (c, b)) := by
  induction cs with
  | nil => rfl
  | cons c cs ih =>
    simp only [findSub, List.find?_cons]
    cases hl : subs.lookup c.typ with
    | none =>
      have : (subs.map (·.1)).contains c.typ = false := by
        cases hc : (subs.map (·.1)).contains c.typ
        · rfl
        · have hm : c.typ ∈ subs.map (·.1) := by simpa using hc
          obtain ⟨p, hp, he⟩ := List.mem_map.1 hm
          have := List.lookup_eq_none_iff.1 hl p hp
          rw [← he] at this
          simp at this
      rw [this]
      exact ih
    | some d =>
      have hm := lookup_mem hl
      have : (subs.map (·.1)).contains c.typ = true := by
        simpa using ⟨d, hm⟩
      rw [this]
      have hd : d = b := by
        have := List.all_eq_true.1 h _ hm
        simpa using this
      rw [hd]
      rfl

/-- All children are read with `onChild`. -/
theorem subs_onChild (a : Acc) : a.table.cases.all (fun c => match c.2 with
    | .leaf _ => true
    | .descend _ subs => subs.all (fun p => p.2 = a.onChild)) = true :=
  forall_acc (p := fun a => a.table.cases.all (fun c => match c.2 with
    | .leaf _ => true
    | .descend _ subs => subs.all (fun p => p.2 = a.onChild))) (by decide +kernel) a

/-- On a grouped element: the decoder's error if the payload does not decode, "not found" if there is no child of a
type that is looked for, and otherwise whatever the same accessor returns on the first such child. -/
theorem C38_grouped_partial (g : IEType → Bool) (mem : IE → Bytes) (a : Acc) (i : IE) (h : a.descends i.typ = true)
    (hp : a.table.pre ≤ i.payload.length) :
    a.call g mem i =
      match parseMulti g i.payload with
      | .panic => .panic
      | .err e => .err e
      | .ok cs =>
        match cs.find? (fun c => (a.searched i.typ).contains c.typ) with
        | none => .err .ieNotFound
        | some c => a.onChild.call g mem c := by
  rw [call_eq, if_neg (by omega)]
  unfold Acc.descends at h
  cases hl : a.table.cases.lookup i.typ with
  | none => rw [hl] at h; cases h
  | some b =>
    cases b with
    | leaf l => rw [hl] at h; cases h
    | descend via subs =>
      have hs := List.all_eq_true.1 (subs_onChild a) _ (lookup_mem hl)
      have hse : a.searched i.typ = subs.map (·.1) := by unfold Acc.searched; rw [hl]
      rw [hse]
      dsimp only at hs ⊢
      cases hm : parseMulti g i.payload with
      | panic => rfl
      | err e => rfl
      | ok cs =>
        dsimp only
        rw [findSub_spec subs a.onChild hs cs]
        cases cs.find? (fun c => (subs.map (·.1)).contains c.typ) <;> rfl

example : Acc.FARID.descends T.CreateFAR = true ∧ Acc.FARID.searched T.CreateFAR = [T.FARID]
    ∧ Acc.FARID.table.pre = 0 := by decide +kernel
example : Acc.call (fun t => t = T.CreateFAR) (fun _ => []) .FARID
    ⟨T.CreateFAR, 16, 0, [0, 44, 0, 1, 2, 0, 108, 0, 4, 0, 0, 0, 7], []⟩ = .ok (.u32 7) := rfl

/-- Without a leading length check there is no side condition. -/
theorem C38_grouped (g : IEType → Bool) (mem : IE → Bytes) (a : Acc) (ha : a ∉ lengthFirst) (i : IE)
    (h : a.descends i.typ = true) :
    a.call g mem i =
      match parseMulti g i.payload with
      | .panic => .panic
      | .err e => .err e
      | .ok cs =>
        match cs.find? (fun c => (a.searched i.typ).contains c.typ) with
        | none => .err .ieNotFound
        | some c => a.onChild.call g mem c := by
  refine C38_grouped_partial g mem a i h ?_
  have := pre_zero a
  simp only [Bool.or_eq_true, List.contains_iff_mem, beq_iff_eq] at this
  rcases this with h | h
  · exact absurd h ha
  · omega

/-- What is looked for is something the child accessor handles; a descent happens in grouped types only, never in a
home type. -/
theorem C38_searched (a : Acc) (t : IEType) (h : a.descends t = true) :
    t ∈ defaultGroupedTypes ∧ t ∉ a.home ∧ ∀ u ∈ a.searched t, a.onChild.handles u = true := by
  have key : a.table.cases.all (fun c => match c.2 with
      | .leaf _ => true
      | .descend _ subs => defaultGroupedTypes.contains c.1 && !a.home.contains c.1 &&
          subs.all (fun p => a.onChild.handles p.1)) = true :=
    forall_acc (p := fun a => a.table.cases.all (fun c => match c.2 with
      | .leaf _ => true
      | .descend _ subs => defaultGroupedTypes.contains c.1 && !a.home.contains c.1 &&
          subs.all (fun p => a.onChild.handles p.1))) (by decide +kernel) a
  unfold Acc.descends at h
  cases hl : a.table.cases.lookup t with
  | none => rw [hl] at h; cases h
  | some b =>
    cases b with
    | leaf l => rw [hl] at h; cases h
    | descend via subs =>
      have hs := List.all_eq_true.1 key _ (lookup_mem hl)
      simp only [Bool.and_eq_true] at hs
      refine ⟨by simpa using hs.1.1, by simpa using hs.1.2, ?_⟩
      intro u hu
      unfold Acc.searched at hu
      rw [hl] at hu
      obtain ⟨p, hp, rfl⟩ := List.mem_map.1 hu
      exact List.all_eq_true.1 hs.2 p hp

/-- `x` is the element `i` itself or is found in it by decoding payloads repeatedly. -/
inductive Contains (g : IEType → Bool) : IE → IE → Prop
  | here (i : IE) : Contains g i i
  | child {i c x : IE} {cs : List IE} (h : parseMulti g i.payload = .ok cs) (hc : c ∈ cs) (hx : Contains g c x) :
      Contains g i x

/-- A value returned by an accessor is the value of an element, inside the given one, that carries values of that
kind. -/
theorem C38_provenance (g : IEType → Bool) (mem : IE → Bytes) (a : Acc) (i : IE) (v : Val)
    (h : a.call g mem i = .ok v) :
    ∃ x, Contains g i x ∧ x.typ ∈ a.onChild.home ∧ a.onChild.call g mem x = .ok v := by
  generalize hn : i.payload.length = n
  induction n using Nat.strongRecOn generalizing a i with
  | ind n ih =>
    have key : a.table.cases.all (fun c => match c.2 with
        | .leaf .ambiguous => true
        | .leaf _ => a.home.contains c.1 && decide (a.onChild = a)
        | .descend _ _ => true) = true :=
      forall_acc (p := fun a => a.table.cases.all (fun c => match c.2 with
        | .leaf .ambiguous => true
        | .leaf _ => a.home.contains c.1 && decide (a.onChild = a)
        | .descend _ _ => true)) (by decide +kernel) a
    have key2 : (decide (a.onChild.onChild = a.onChild)) = true :=
      forall_acc (p := fun a => decide (a.onChild.onChild = a.onChild)) (by decide +kernel) a
    have key2 := of_decide_eq_true key2
    have h0 := h
    rw [call_eq] at h
    split at h
    · cases h
    · rename_i hpre
      split at h
      · cases h
      · rename_i l hl
        have hk := List.all_eq_true.1 key _ (lookup_mem hl)
        have hb : a.home.contains i.typ && decide (a.onChild = a) := by
          cases l <;> first | exact hk | cases h
        simp only [Bool.and_eq_true, decide_eq_true_eq] at hb
        refine ⟨i, .here i, ?_, ?_⟩
        · rw [hb.2]; simpa using hb.1
        · rw [hb.2]; exact h0
      · rename_i via subs hl
        split at h
        · cases h
        · cases h
        · rename_i cs hcs
          split at h
          · cases h
          · rename_i x b hf
            obtain ⟨hx, hb⟩ := findSub_mem hf
            have hs := List.all_eq_true.1 (subs_onChild a) _ (lookup_mem hl)
            have hbe : b = a.onChild := by
              have := List.all_eq_true.1 hs _ (lookup_mem hb)
              simpa using this
            have hlt := child_payload hcs hx
            obtain ⟨y, h1, h2, h3⟩ := ih x.payload.length (by omega) b x h rfl
            rw [hbe, key2] at h2 h3
            exact ⟨y, .child hcs hx h1, h2, h3⟩

theorem newGroupedLoop_typ {g : IEType → Bool} : ∀ (cs : List (Option IE)) (i j : IE),
    newGroupedLoop g cs i = .ok (some j) → j.typ = i.typ
  | [], i, j, h => by cases h; rfl
  | none :: cs, i, j, h => newGroupedLoop_typ cs i j h
  | some c :: cs, i, j, h => by
    simp only [newGroupedLoop] at h
    split at h
    · have := newGroupedLoop_typ cs _ j h
      exact this
    · cases h
    · cases h

theorem newGrouped_typ {g : IEType → Bool} {t : IEType} {eid : UInt16} {cs : List (Option IE)} {i : IE}
    (h : newGrouped g t eid cs = .ok (some i)) : i.typ = t := by
  unfold newGrouped at h
  obtain ⟨j, hj, h⟩ := Res.bind_eq_ok.1 h
  cases j with
  | none => cases h
  | some j =>
    cases h
    have := newGroupedLoop_typ cs _ _ hj
    exact this

/-- The same for a grouped element made by a constructor: the answer is that of the first child given to the
constructor that has a type looked for (children given as nil are skipped). -/
theorem C38_constructed (g : IEType → Bool) (mem : IE → Bytes) (a : Acc) (t : IEType) (cs : List (Option IE)) (hg : g t = true)
    (hv : isVendor t = false) (hwf : ∀ c ∈ cs.filterMap id, c.WF g)
    (hsz : (encList g (cs.filterMap id)).length ≤ 65535) (h : a.descends t = true) (ha : a ∉ lengthFirst) :
    ∃ i, newGrouped g t 0 cs = .ok (some i) ∧
      a.call g mem i =
        match (cs.filterMap id).find? (fun c => (a.searched t).contains c.typ) with
        | none => .err .ieNotFound
        | some c => a.onChild.call g mem c := by
  obtain ⟨i, b, h1, h2, h3, h4, h5⟩ := C07_newGrouped_roundtrip (g := g) t 0 cs hg (fun _ => rfl) hwf (by simpa [hv] using hsz)
  have ht : i.typ = t := newGrouped_typ h1
  refine ⟨i, h1, ?_⟩
  rw [C38_grouped g mem a ha i (by rw [ht]; exact h), h4, ht]

/-- The search in a PDI for a network instance never finds anything: /repo/ie/network-instance.go compares the type of
the PDI itself instead of the child. -/
theorem C38_pdi_network_instance_violated (g : IEType → Bool) (mem : IE → Bytes) (i : IE) (ht : i.typ = T.PDI)
    (cs : List IE) (hm : parseMulti g i.payload = .ok cs) :
    Acc.NetworkInstance.call g mem i = .err .ieNotFound := by
  rw [C38_grouped g mem .NetworkInstance (by decide +kernel) i (by rw [ht]; decide +kernel), hm, ht]
  have : Acc.NetworkInstance.searched T.PDI = [] := by decide +kernel
  rw [this]
  have : cs.find? (fun c => ([] : List IEType).contains c.typ) = none := by simp
  dsimp only
  rw [this]

example : ∃ cs, parseMulti (fun _ => false) [0, 22, 0, 1, 97] = .ok cs ∧ ∃ c ∈ cs, c.typ = T.NetworkInstance :=
  ⟨[⟨T.NetworkInstance, 1, 0, [97], []⟩], by decide +kernel, by simp⟩

/-- The search in an Update MAR for values of the access forwarding action information ignores the two "update"
variants, although the accessors handle them (/repo/ie/far-id.go:106-117 and the same in priority.go, urr-id.go,
weight.go). -/
theorem C38_update_mar_violated (g : IEType → Bool) (mem : IE → Bytes) (a : Acc)
    (ha : a ∈ [Acc.FARID, .Priority, .URRID, .Weight]) (i : IE) (ht : i.typ = T.UpdateMAR)
    (cs : List IE) (hm : parseMulti g i.payload = .ok cs)
    (hc : ∀ c ∈ cs, c.typ ≠ T.TGPPAccessForwardingActionInformation ∧
      c.typ ≠ T.NonTGPPAccessForwardingActionInformation) :
    a.call g mem i = .err .ieNotFound ∧ a.handles T.UpdateTGPPAccessForwardingActionInformation = true ∧
      a.handles T.UpdateNonTGPPAccessForwardingActionInformation = true := by
  have hs : a.searched T.UpdateMAR = [T.TGPPAccessForwardingActionInformation, T.NonTGPPAccessForwardingActionInformation]
      ∧ a.descends T.UpdateMAR = true ∧ a ∉ lengthFirst ∧
      a.handles T.UpdateTGPPAccessForwardingActionInformation = true ∧
      a.handles T.UpdateNonTGPPAccessForwardingActionInformation = true := by
    simp only [List.mem_cons, List.not_mem_nil, or_false] at ha
    rcases ha with rfl | rfl | rfl | rfl <;> decide +kernel
  obtain ⟨h1, h2, h3, h4, h5⟩ := hs
  refine ⟨?_, h4, h5⟩
  rw [C38_grouped g mem a h3 i (by rw [ht]; exact h2), hm, ht, h1]
  have : cs.find? (fun c => [T.TGPPAccessForwardingActionInformation, T.NonTGPPAccessForwardingActionInformation].contains c.typ) = none := by
    rw [List.find?_eq_none]
    intro c hcc
    have := hc c hcc
    simp [this.1, this.2]
  dsimp only
  rw [this]

/-- A grouped element shorter than the length an accessor checks first is answered with "unexpected EOF" instead of
"not found": an empty Create URR has no time threshold, but the answer is an EOF. -/
theorem C38_short_group_violated (g : IEType → Bool) (mem : IE → Bytes) :
    Acc.TimeThreshold.call g mem ⟨T.CreateURR, 0, 0, [], []⟩ = .err .unexpectedEOF ∧
    Acc.TimeThreshold.descends T.CreateURR = true ∧ parseMulti g [] = .ok [] := by
  refine ⟨?_, by decide +kernel, parseMulti_nil g⟩
  exact C37_short_foreign_violated g mem _ (by decide +kernel) _ rfl

/-! ## C39 -/

/-- The accessors with some input that makes them panic. -/
def panicky : List Acc := [
  .CTAG, .STAG, .DLBufferingSuggestedPacketCount, .FlowDescription, .CSIDs, .MACAddressesDetected,
  .MACAddressesRemoved, .OuterHeaderCreation, .PFDContents, .QFI, .RemoteGTPUPeer, .SDFFilter, .SourceIPAddress,
  .SubsequentTimeQuota, .TraceInformation, .UserPlaneIPResourceInformation]

theorem leaf_need (a : Acc) : (panicky.contains a || a.table.cases.all (fun c => match c.2 with
    | .leaf l => match l.need with
      | some n => decide (n ≤ a.table.pre)
      | none => false
    | .descend _ _ => true)) = true :=
  forall_acc (p := fun a => panicky.contains a || a.table.cases.all (fun c => match c.2 with
    | .leaf l => match l.need with
      | some n => decide (n ≤ a.table.pre)
      | none => false
    | .descend _ _ => true)) (by decide +kernel) a

/-- Every other accessor returns a value or an error on every element, whatever its type and payload; and it does not
depend on the bytes behind the payload. -/
theorem C39_safe (g : IEType → Bool) (mem : IE → Bytes) (a : Acc) (ha : a ∉ panicky) (i : IE) :
    a.call g mem i ≠ .panic ∧ ∀ mem', a.call g mem i = a.call g mem' i := by
  generalize hn : i.payload.length = n
  induction n using Nat.strongRecOn generalizing a i with
  | ind n ih =>
    have hneed := leaf_need a
    have hnp : panicky.contains a = false := by simpa using ha
    rw [hnp, Bool.false_or] at hneed
    rw [call_eq g mem]
    conv => rhs; intro mem'; rw [call_eq g mem']
    by_cases hpre : i.payload.length < a.table.pre
    · simp only [if_pos hpre]
      exact ⟨fun h => (nomatch h), fun _ => trivial⟩
    · simp only [if_neg hpre]
      cases hl : a.table.cases.lookup i.typ with
      | none => exact ⟨fun h => (nomatch h), fun _ => rfl⟩
      | some b =>
        cases b with
        | leaf l =>
          have hk := List.all_eq_true.1 hneed _ (lookup_mem hl)
          dsimp only at hk ⊢
          cases hln : l.need with
          | none => rw [hln] at hk; cases hk
          | some k =>
            rw [hln] at hk
            have hs := leaf_safe g l i k hln (by have := of_decide_eq_true hk; omega)
            exact ⟨(hs _).1, fun _ => (hs _).2 _⟩
        | descend via subs =>
          dsimp only
          cases hm : parseMulti g i.payload with
          | panic => exact absurd hm (C03_parse_total g i.payload).2
          | err e => exact ⟨fun h => (nomatch h), fun _ => rfl⟩
          | ok cs =>
            dsimp only
            cases hf : findSub subs cs with
            | none => exact ⟨fun h => (nomatch h), fun _ => rfl⟩
            | some p =>
              obtain ⟨x, b⟩ := p
              obtain ⟨hx, hb⟩ := findSub_mem hf
              have hs := List.all_eq_true.1 (subs_onChild a) _ (lookup_mem hl)
              have hbe : b = a.onChild := by
                have := List.all_eq_true.1 hs _ (lookup_mem hb)
                simpa using this
              have hlt := child_payload hm hx
              refine ih x.payload.length (by omega) b ?_ x rfl
              rw [hbe]
              have : (panicky.contains a || !panicky.contains a.onChild) = true :=
                forall_acc (p := fun a => panicky.contains a || !panicky.contains a.onChild) (by decide +kernel) a
              rw [hnp] at this
              simpa using this

example : Acc.FARID ∉ panicky := by decide +kernel

/-- Each accessor of the list panics on some element that a decoder can return: here are the bytes of one. -/
def panicBytes : Acc → Bytes
  | .CTAG | .STAG | .MACAddressesDetected => [0, 144, 0, 7, 0, 1, 2, 3, 4, 5, 6]
  | .MACAddressesRemoved => [0, 145, 0, 7, 0, 1, 2, 3, 4, 5, 6]
  | .DLBufferingSuggestedPacketCount => [0, 48, 0, 1]
  | .FlowDescription => [0, 92, 0, 1, 0]
  | .CSIDs => [0, 65, 0, 1, 0]
  | .OuterHeaderCreation => [0, 84, 0, 5, 0, 64, 0, 0, 0]
  | .PFDContents => [0, 61, 0, 6, 1, 0, 0, 3, 65, 66]
  | .QFI => [0, 45, 0, 2, 0, 0]
  | .RemoteGTPUPeer => [0, 103, 0, 3, 4, 0, 0]
  | .SDFFilter => [0, 23, 0, 5, 1, 0, 0, 9, 65]
  | .SourceIPAddress => [0, 192, 0, 5, 6, 192, 0, 2, 1]
  | .SubsequentTimeQuota => [0, 122, 0, 1, 0]
  | .TraceInformation => [0, 152, 0, 6, 0, 0, 0, 0, 0, 0]
  | .UserPlaneIPResourceInformation => [0, 116, 0, 2, 96, 0]
  | _ => []

/-- On these bytes, received in a buffer of their own, decoding succeeds and the accessor panics. -/
def panicsOn (g : IEType → Bool) (a : Acc) (b : Bytes) : Bool :=
  match parse g b with
  | .ok i => match a.call g (fun _ => []) i with
    | .panic => true
    | _ => false
  | _ => false

theorem panicsOn_iff {g : IEType → Bool} {a : Acc} {b : Bytes} (h : panicsOn g a b = true) :
    ∃ i, parse g b = .ok i ∧ a.call g (fun _ => []) i = .panic := by
  unfold panicsOn at h
  split at h
  · rename_i i hi
    refine ⟨i, hi, ?_⟩
    split at h
    · assumption
    · cases h
  · cases h

/-- So the property is false of each accessor of the list, and the list is exact. -/
theorem C39_panics_violated (a : Acc) (ha : a ∈ panicky) :
    ∃ i, parse (defaultGroupedTypes.contains ·) (panicBytes a) = .ok i ∧
      a.call (defaultGroupedTypes.contains ·) (fun _ => []) i = .panic := by
  have h : panicky.all (fun a => panicsOn (defaultGroupedTypes.contains ·) a (panicBytes a)) = true := by decide +kernel
  exact panicsOn_iff (List.all_eq_true.1 h a ha)

end Pfcp
