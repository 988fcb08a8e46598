/-
Property theorems about the flag functions: C30 (flags are reported), and the flag functions' part of C37, C38 and C39.
`g` is the set of grouped types in force, `mem` the bytes that follow a payload in memory; both are arbitrary.
-/
import Verif.Flag.Lemmas
import Verif.Flag.Ctor
import Verif.Ctor.Lemmas

namespace Pfcp
open Fields

/-- The two elements whose flag functions look at the wrong bits: see `C30_dl_flow_level_marking_violated`,
`C30_ip_version_violated`. -/
def misplaced (t : IEType) : Prop := t = T.DLFlowLevelMarking ∨ t = T.IPVersion

instance (t : IEType) : Decidable (misplaced t) := by unfold misplaced; infer_instance

theorem layout_ok {t : IEType} {k n : Nat} {f : Flag} (hn : n < 8) (h : flagAt t k n = some f) (hm : ¬ misplaced t) :
    flagOk t k n f = true := by
  have := layout_forall (p := fun t k n f => decide (misplaced t) || flagOk t k n f) (by decide +kernel) hn h
  simpa [hm] using this

/-- A flag function reports the bit where the specification puts the flag, whatever the other bits are. -/
theorem C30_layout_partial (g : IEType → Bool) (mem : IE → Bytes) (t : IEType) (k n : Nat) (f : Flag) (hn : n < 8)
    (hf : flagAt t k n = some f) (hm : ¬ misplaced t) (i : IE) (ht : i.typ = t) (hg : g t = false)
    (hk : k < i.payload.length) (hl : minOctets t ≤ i.payload.length) :
    f.call g mem i = .ok (i.payload[k].toNat.testBit n) := by
  have h := layout_ok hn hf hm
  unfold flagOk at h
  simp only [Bool.and_eq_true, decide_eq_true_eq] at h
  obtain ⟨⟨h1, -⟩, h2⟩ := h
  unfold Flag.call
  rw [if_neg (by omega), ht]
  split at h2
  · rename_i m k' n' hr
    simp only [Bool.and_eq_true, decide_eq_true_eq, beq_iff_eq] at h2
    obtain ⟨⟨rfl, rfl⟩, h3⟩ := h2
    rw [hr]
    dsimp only [FlagSrc.run]
    rw [if_neg (by omega)]
    unfold Slice.idx
    rw [List.getElem?_eq_getElem hk]
    show Res.ok (hasBit n' _) = _
    rw [hasBit_eq n' hn]
  · rename_i a n' hr
    simp only [Bool.and_eq_true, decide_eq_true_eq, beq_iff_eq] at h2
    obtain ⟨⟨⟨rfl, rfl⟩, h3⟩, h4⟩ := h2
    rw [hr]
    dsimp only [FlagSrc.run]
    split at h4
    · rename_i hl
      rw [call_leaf g mem a i .u8 (by rw [ht]; exact hl) (by omega), run_u8 g i (mem i) (by rw [ht]; exact hg) hk]
      show Res.ok (hasBit n' _) = _
      rw [hasBit_eq n' hn]
    · cases h4
  · rename_i a m k' n' hr
    simp only [Bool.and_eq_true, decide_eq_true_eq, beq_iff_eq] at h2
    obtain ⟨⟨⟨⟨rfl, rfl⟩, h3⟩, h4⟩, h5⟩ := h2
    rw [hr]
    dsimp only [FlagSrc.run]
    have key : a.call g mem i = .ok (.bytes i.payload) := by
      split at h5
      · rename_i hl
        rw [call_leaf g mem a i .payload (by rw [ht]; exact hl) (by omega)]
        rfl
      · rename_i q hl
        rw [call_leaf g mem a i (.payloadMin q) (by rw [ht]; exact hl) (by omega)]
        have h6 : q ≤ k' + 1 := by simpa using h5
        exact if_neg (show ¬ i.payload.length < q by omega)
      · cases h5
    rw [key]
    dsimp only
    rw [if_neg (by omega)]
    unfold Slice.idx
    rw [List.getElem?_eq_getElem hk]
    show Res.ok (hasBit n' _) = _
    rw [hasBit_eq n' hn]
  · cases h2

example : flagAt T.ApplyAction 1 2 = some .HasDDPN ∧ ¬ misplaced T.ApplyAction := by decide +kernel


/-- The check behind `C30_short`. -/
def flagShort (t : IEType) (k : Nat) (f : Flag) : Bool :=
  decide (max (k + 1) (minOctets t) ≤ f.table.pre) ||
  match f.rule t with
  | some (.payload m _ _) => decide (max (k + 1) (minOctets t) ≤ m)
  | some (.u8 a _) =>
    match a.table.cases.lookup t with
    | some (.leaf .u8) => decide (max (k + 1) (minOctets t) ≤ 1)
    | _ => false
  | some (.bytes a m _ _) =>
    match a.table.cases.lookup t with
    | some (.leaf .payload) => decide (max (k + 1) (minOctets t) ≤ max m a.table.pre)
    | some (.leaf (.payloadMin q)) => decide (max (k + 1) (minOctets t) ≤ max q (max m a.table.pre))
    | _ => false
  | _ => false

/-- A flag whose octet is missing is not reported. The one exception is `HasMAC`, which panics on an empty bridge identifier
(`C39_flags_violated`). -/
theorem C30_short_partial (g : IEType → Bool) (mem : IE → Bytes) (t : IEType) (k n : Nat) (f : Flag) (hn : n < 8)
    (hf : flagAt t k n = some f) (hx : f ≠ .HasMAC) (i : IE) (ht : i.typ = t)
    (hk : i.payload.length ≤ k ∨ i.payload.length < minOctets t) : f.call g mem i = .ok false := by
  have h := layout_forall (p := fun t k _ f => decide (f = .HasMAC) || flagShort t k f) (by decide +kernel) hn hf
  rw [decide_eq_false hx, Bool.false_or] at h
  have hlt : i.payload.length < max (k + 1) (minOctets t) := by omega
  unfold flagShort at h
  generalize max (k + 1) (minOctets t) = need at hlt h
  unfold Flag.call
  by_cases hp : i.payload.length < f.table.pre
  · rw [if_pos hp]
  rw [if_neg hp, ht]
  rw [decide_eq_false (show ¬ need ≤ f.table.pre by omega), Bool.false_or] at h
  split at h
  · rename_i m k' t' hr
    rw [hr]
    dsimp only [FlagSrc.run]
    rw [if_pos (by have := of_decide_eq_true h; omega)]
  · rename_i a t' hr
    rw [hr]
    dsimp only [FlagSrc.run]
    split at h
    · rename_i hl
      have h0 : i.payload.length = 0 := by have := of_decide_eq_true h; omega
      have : ∃ e, a.call g mem i = .err e := by
        rw [call_eq, ht, hl]
        split
        · exact ⟨_, rfl⟩
        · show ∃ e, (i.valueAsUint8 g >>= fun v => Res.ok (Val.u8 v)) = .err e
          unfold IE.valueAsUint8
          split
          · exact ⟨_, rfl⟩
          · rw [if_pos (by omega)]
            exact ⟨_, rfl⟩
      obtain ⟨e, he⟩ := this
      rw [he]
    · cases h
  · rename_i a m k' t' hr
    rw [hr]
    dsimp only [FlagSrc.run]
    have key : (∃ e, a.call g mem i = .err e) ∨ (a.call g mem i = .ok (.bytes i.payload) ∧ i.payload.length < m) := by
      by_cases hpre : i.payload.length < a.table.pre
      · rw [call_eq, if_pos hpre]
        exact .inl ⟨_, rfl⟩
      · split at h
        · rename_i hl
          have h0 := of_decide_eq_true h
          rw [call_leaf g mem a i .payload (by rw [ht]; exact hl) (by omega)]
          exact .inr ⟨rfl, by omega⟩
        · rename_i q hl
          have h0 := of_decide_eq_true h
          rw [call_leaf g mem a i (.payloadMin q) (by rw [ht]; exact hl) (by omega)]
          by_cases hq : i.payload.length < q
          · exact .inl ⟨_, if_pos hq⟩
          · exact .inr ⟨if_neg hq, by omega⟩
        · cases h
    rcases key with ⟨e, he⟩ | ⟨he, hm⟩
    · rw [he]
    · rw [he]
      exact if_pos hm
  · cases h

example : flagAt T.ReportingTriggers 2 0 = some .HasREEMR := by decide +kernel

/-- No flag has two places in an element. -/
theorem C30_once (t : IEType) (k n k' n' : Nat) (f : Flag) (hn : n < 8) (hn' : n' < 8) (h : flagAt t k n = some f)
    (h' : flagAt t k' n' = some f) : k = k' ∧ n = n' := by
  have key := layout_forall (p := fun t k n f => (List.range 4).all fun k' => (List.range 8).all fun n' =>
    decide (flagAt t k' n' = some f → k = k' ∧ n = n')) (by decide +kernel) hn h
  have hk : decide (k' < 4) = true := layout_forall (p := fun _ k _ _ => decide (k < 4)) (by decide +kernel) hn' h'
  have h1 := List.all_eq_true.1 key k' (List.mem_range.2 (of_decide_eq_true hk))
  exact of_decide_eq_true (List.all_eq_true.1 h1 n' (List.mem_range.2 hn')) h'

theorem testBit_setBit (o : UInt8) (n m : Nat) (hn : n < 8) (hm : m < 8) :
    (o ||| (1 <<< UInt8.ofNat n)).toNat.testBit m = (o.toNat.testBit m || decide (m = n)) := by
  have h : ∀ n : Fin 8, ∀ m : Fin 8, (1 <<< UInt8.ofNat n.val : UInt8).toNat.testBit m.val = decide (m.val = n.val) := by
    decide +kernel
  rw [UInt8.toNat_or, Nat.testBit_or, h ⟨n, hn⟩ ⟨m, hm⟩]

/-- Setting one flag in an element makes its function report it and leaves the answer of every other function of that
element as it was. -/
theorem C30_independent_partial (g : IEType → Bool) (mem : IE → Bytes) (t : IEType) (k n : Nat) (f : Flag) (hn : n < 8)
    (hf : flagAt t k n = some f) (hm : ¬ misplaced t) (i j : IE) (ht : i.typ = t) (htj : j.typ = t) (hg : g t = false)
    (hk : k < i.payload.length) (hl : minOctets t ≤ i.payload.length)
    (hj : j.payload = i.payload.set k (i.payload[k] ||| (1 <<< UInt8.ofNat n))) :
    f.call g mem j = .ok true ∧
    ∀ k' n' f', n' < 8 → flagAt t k' n' = some f' → f' ≠ f → f'.call g mem j = f'.call g mem i := by
  have hlen : j.payload.length = i.payload.length := by rw [hj]; exact List.length_set
  constructor
  · rw [C30_layout_partial g mem t k n f hn hf hm j htj hg (by omega) (by omega)]
    simp only [hj, List.getElem_set_self, testBit_setBit _ n n hn hn]
    simp
  · intro k' n' f' hn' hf' hne
    by_cases hk' : k' < i.payload.length
    · rw [C30_layout_partial g mem t k' n' f' hn' hf' hm j htj hg (by omega) (by omega),
        C30_layout_partial g mem t k' n' f' hn' hf' hm i ht hg hk' hl]
      by_cases he : k = k'
      · subst he
        have : n' ≠ n := fun e => hne (by rw [e, hf] at hf'; exact (Option.some.inj hf').symm)
        simp only [hj, List.getElem_set_self, testBit_setBit _ n n' hn hn', decide_eq_false this, Bool.or_false]
      · simp only [hj, List.getElem_set_ne he]
    · have hx : f' ≠ .HasMAC := by
        rintro rfl
        have hk0 := layout_forall (p := fun _ k _ f => decide (f = .HasMAC → k = 0)) (by decide +kernel) hn' hf'
        have := of_decide_eq_true hk0 rfl
        omega
      rw [C30_short_partial g mem t k' n' f' hn' hf' hx j htj (.inl (by omega)),
        C30_short_partial g mem t k' n' f' hn' hf' hx i ht (.inl (by omega))]

/-! ## Constructors -/

/-- The argument for a flag. -/
def bitArg (b : Bool) : UInt8 := if b then 1 else 0

theorem testBit_arg (b : Bool) (s n : Nat) (hs : s < 8) (hn : n < 8) :
    (bitArg b <<< UInt8.ofNat s).toNat.testBit n = (b && decide (n = s)) := by
  have h : ∀ b : Bool, ∀ s n : Fin 8, (bitArg b <<< UInt8.ofNat s.val).toNat.testBit n.val = (b && decide (n.val = s.val)) := by
    decide +kernel
  exact h b ⟨s, hs⟩ ⟨n, hn⟩

theorem flagOctet_absent : ∀ (ss : List Nat) (as : List Bool) (n : Nat), n < 8 → (∀ s ∈ ss, s < 8) → n ∉ ss →
    (flagOctet ss (as.map bitArg)).toNat.testBit n = false
  | [], _, n, _, _, _ => by simp [flagOctet]
  | s :: ss, [], n, _, _, _ => by simp [flagOctet]
  | s :: ss, a :: as, n, hn, hs, h => by
    rw [List.map_cons, flagOctet, UInt8.toNat_or, Nat.testBit_or, testBit_arg a s n (hs s (by simp)) hn,
      flagOctet_absent ss as n hn (fun x hx => hs x (by simp [hx])) (fun hx => h (by simp [hx]))]
    have : n ≠ s := fun e => h (by simp [e])
    simp [this]

theorem flagOctet_bit : ∀ (ss : List Nat) (as : List Bool) (j : Nat) (n : Nat) (b : Bool), (∀ s ∈ ss, s < 8) → ss.Nodup →
    ss[j]? = some n → as[j]? = some b → (flagOctet ss (as.map bitArg)).toNat.testBit n = b
  | [], _, _, _, _, _, _, h, _ => by simp at h
  | _ :: _, [], _, _, _, _, _, _, h => by simp at h
  | s :: ss, a :: as, 0, n, b, hs, hd, h1, h2 => by
    simp only [List.getElem?_cons_zero, Option.some.injEq] at h1 h2
    subst h1 h2
    have hd := List.nodup_cons.1 hd
    rw [List.map_cons, flagOctet, UInt8.toNat_or, Nat.testBit_or, testBit_arg a s s (hs s (by simp)) (hs s (by simp)),
      flagOctet_absent ss as s (hs s (by simp)) (fun x hx => hs x (by simp [hx])) hd.1]
    simp
  | s :: ss, a :: as, j + 1, n, b, hs, hd, h1, h2 => by
    simp only [List.getElem?_cons_succ] at h1 h2
    have hd := List.nodup_cons.1 hd
    have hm : n ∈ ss := List.mem_of_getElem? h1
    have hne : n ≠ s := fun e => hd.1 (e ▸ hm)
    rw [List.map_cons, flagOctet, UInt8.toNat_or, Nat.testBit_or, testBit_arg a s n (hs s (by simp)) (hs n (by simp [hm])),
      flagOctet_bit ss as j n b (fun x hx => hs x (by simp [hx])) hd.2 h1 h2]
    simp [hne]

/-- Each of the constructors that take flags makes an element that survives the wire and on which the function with the name of
each parameter reports exactly the argument. `NewIPVersion` is the exception: `C30_ip_version_violated`. -/
theorem C30_constructor_partial (g : IEType → Bool) (mem : IE → Bytes) (c : FlagCtor) (hc : c ≠ .NewIPVersion) (args : List Bool)
    (rest : Bytes) (hg : g c.def.1 = false) :
    ∃ b, (c.build (args.map bitArg)).marshal g = .ok b ∧ parse g (b ++ rest) = .ok (c.build (args.map bitArg)) ∧
      ∀ (j : Nat) (f : Flag) (v : Bool), c.params[j]? = some f → args[j]? = some v → f.call g mem (c.build (args.map bitArg)) = .ok v := by
  have key : isVendor c.def.1 = false ∧ ¬ misplaced c.def.1 ∧ minOctets c.def.1 = 1 ∧ (∀ s ∈ c.def.2, s < 8) ∧ c.def.2.Nodup ∧
      c.params.length = c.def.2.length ∧
      ∀ j, j < 4 → ∀ f, c.params[j]? = some f → ((c.def.2)[j]?.any fun n => flagAt c.def.1 0 n = some f) = true := by
    have h4 : ∀ j, j < 4 → j = 0 ∨ j = 1 ∨ j = 2 ∨ j = 3 := by omega
    cases c <;> first | exact absurd rfl hc | refine ⟨by decide +kernel, by decide +kernel, by decide +kernel, by decide +kernel, by decide +kernel, by decide +kernel, ?_⟩
    all_goals
      intro j hj f hf
      rcases h4 j hj with rfl | rfl | rfl | rfl <;> simp only [FlagCtor.params, List.getElem?_cons_zero, List.getElem?_cons_succ, List.getElem?_nil, Option.some.injEq, reduceCtorEq] at hf <;> subst hf <;> decide +kernel
  have hlen : c.params.length ≤ 4 := by cases c <;> decide
  obtain ⟨h1, h2, h3, h4, h5, h6, h7⟩ := key
  obtain ⟨b, hb1, hb2⟩ := new_wire g c.def.1 [flagOctet c.def.2 (args.map bitArg)] rest hg h1 (by simp)
  refine ⟨b, hb1, hb2, ?_⟩
  intro j f v hf hv
  have hj : j < 4 := by
    have := (List.getElem?_eq_some_iff.1 hf).1
    omega
  have h8 := h7 j hj f hf
  cases hn : (c.def.2)[j]? with
  | none => rw [hn] at h8; cases h8
  | some n =>
    rw [hn] at h8
    have h9 : flagAt c.def.1 0 n = some f := by simpa using h8
    have hn8 := h4 n (List.mem_of_getElem? hn)
    rw [C30_layout_partial g mem c.def.1 0 n f hn8 h9 h2 (c.build (args.map bitArg)) rfl hg
      (show 0 < 1 by omega) (show minOctets _ ≤ 1 by omega)]
    show Res.ok ((flagOctet c.def.2 (args.map bitArg)).toNat.testBit n) = _
    rw [flagOctet_bit c.def.2 args j n v h4 h5 hn hv]

/-- The default set of grouped types leaves all of them out. -/
theorem C30_constructor_default (c : FlagCtor) : defaultGroupedTypes.contains c.def.1 = false := by
  cases c <;> decide +kernel

example : FlagCtor.NewReportType.params[2]? = some .HasUSAR ∧ [true, false, true, false][2]? = some true := by decide

/-- The same with the first octet named. -/
theorem layout_head (g : IEType → Bool) (mem : IE → Bytes) (t : IEType) (n : Nat) (f : Flag) (hn : n < 8)
    (hf : flagAt t 0 n = some f) (hm : ¬ misplaced t) (hl : minOctets t = 1) (i : IE) (ht : i.typ = t) (hg : g t = false) (o : UInt8)
    (r : Bytes) (hp : i.payload = o :: r) : f.call g mem i = .ok (o.toNat.testBit n) := by
  rw [C30_layout_partial g mem t 0 n f hn hf hm i ht hg (by rw [hp]; simp) (by rw [hp, hl]; simp)]
  simp only [hp, List.getElem_cons_zero]

/-- The two flags of `NewDownlinkDataServiceInformation`. -/
theorem C30_downlink_data_service_information (g : IEType → Bool) (mem : IE → Bytes) (p q : Bool) (ppi qfi : UInt8) (rest : Bytes)
    (hg : g T.DownlinkDataServiceInformation = false) :
    ∃ b, (newDownlinkDataServiceInformation p q ppi qfi).marshal g = .ok b ∧
      parse g (b ++ rest) = .ok (newDownlinkDataServiceInformation p q ppi qfi) ∧
      Flag.HasPPI.call g mem (newDownlinkDataServiceInformation p q ppi qfi) = .ok p ∧
      Flag.HasQFI.call g mem (newDownlinkDataServiceInformation p q ppi qfi) = .ok q := by
  have hlen : (newDownlinkDataServiceInformation p q ppi qfi).payload.length ≤ 65535 := by
    cases p <;> cases q <;> simp [newDownlinkDataServiceInformation, IE.new, IE.setLength]
  obtain ⟨b, h1, h2⟩ := new_wire g T.DownlinkDataServiceInformation _ rest hg (by decide) hlen
  refine ⟨b, h1, h2, ?_, ?_⟩
  · refine (layout_head g mem T.DownlinkDataServiceInformation 0 .HasPPI (by decide) (by decide +kernel) (by decide +kernel)
      (by decide +kernel) _ rfl hg _ _ rfl).trans ?_
    cases p <;> cases q <;> rfl
  · refine (layout_head g mem T.DownlinkDataServiceInformation 1 .HasQFI (by decide) (by decide +kernel) (by decide +kernel)
      (by decide +kernel) _ rfl hg _ _ rfl).trans ?_
    cases p <;> cases q <;> rfl

/-- The two flags of `NewDroppedDLTrafficThreshold`. -/
theorem C30_dropped_dl_traffic_threshold (g : IEType → Bool) (mem : IE → Bytes) (p q : Bool) (packets bytes : UInt64) (rest : Bytes)
    (hg : g T.DroppedDLTrafficThreshold = false) :
    ∃ b, (newDroppedDLTrafficThreshold p q packets bytes).marshal g = .ok b ∧
      parse g (b ++ rest) = .ok (newDroppedDLTrafficThreshold p q packets bytes) ∧
      Flag.HasDLPA.call g mem (newDroppedDLTrafficThreshold p q packets bytes) = .ok p ∧
      Flag.HasDLBY.call g mem (newDroppedDLTrafficThreshold p q packets bytes) = .ok q := by
  have hlen : (newDroppedDLTrafficThreshold p q packets bytes).payload.length ≤ 65535 := by
    cases p <;> cases q <;> simp [newDroppedDLTrafficThreshold, IE.new, IE.setLength, be64]
  obtain ⟨b, h1, h2⟩ := new_wire g T.DroppedDLTrafficThreshold _ rest hg (by decide) hlen
  refine ⟨b, h1, h2, ?_, ?_⟩
  · cases p <;> cases q <;>
      exact (layout_head g mem T.DroppedDLTrafficThreshold 0 .HasDLPA (by decide) (by decide +kernel) (by decide +kernel)
        (by decide +kernel) _ rfl hg _ _ rfl).trans (by decide)
  · cases p <;> cases q <;>
      exact (layout_head g mem T.DroppedDLTrafficThreshold 1 .HasDLBY (by decide) (by decide +kernel) (by decide +kernel)
        (by decide +kernel) _ rfl hg _ _ rfl).trans (by decide)

/-! ## Where it fails -/

/-- A rule that reads the first octet of the payload. -/
theorem call_payload0 (g : IEType → Bool) (mem : IE → Bytes) (f : Flag) (i : IE) (m : Nat) (t : Test) (hp : f.table.pre ≤ 1)
    (hr : f.rule i.typ = some (.payload m 0 t)) (hm : m ≤ 1) (hk : 0 < i.payload.length) :
    f.call g mem i = .ok (t.eval i.payload[0]) := by
  unfold Flag.call
  rw [if_neg (by omega), hr]
  dsimp only [FlagSrc.run]
  rw [if_neg (by omega)]
  unfold Slice.idx
  rw [List.getElem?_eq_getElem hk]
  rfl

/-- A rule that reads a one-octet accessor. -/
theorem call_u8 (g : IEType → Bool) (mem : IE → Bytes) (f : Flag) (i : IE) (a : Acc) (t : Test) (hp : f.table.pre ≤ 1)
    (hr : f.rule i.typ = some (.u8 a t)) (ha : a.table.pre ≤ 1) (hl : a.table.cases.lookup i.typ = some (.leaf .u8))
    (hg : g i.typ = false) (hk : 0 < i.payload.length) : f.call g mem i = .ok (t.eval i.payload[0]) := by
  unfold Flag.call
  rw [if_neg (by omega), hr]
  dsimp only [FlagSrc.run]
  rw [call_leaf g mem a i .u8 hl (by omega), run_u8 g i (mem i) hg hk]

/-- The two functions for DL Flow Level Marking have changed places: an element with only the traffic class reports only a
service class indicator (/repo/ie/dl-flow-level-marking.go:33-57; the structure decoder of the same file reads the bits as
specified). -/
theorem C30_dl_flow_level_marking_violated (g : IEType → Bool) (mem : IE → Bytes) (i : IE) (ht : i.typ = T.DLFlowLevelMarking)
    (hk : 0 < i.payload.length) :
    Flag.HasTTC.call g mem i = .ok (i.payload[0].toNat.testBit 1) ∧ Flag.HasSCI.call g mem i = .ok (i.payload[0].toNat.testBit 0) := by
  constructor
  · rw [call_payload0 g mem .HasTTC i 1 (.bit 1) (by decide) (by rw [ht]; decide) (by decide) hk]
    exact congrArg Res.ok (hasBit_eq 1 (by decide) _)
  · rw [call_payload0 g mem .HasSCI i 1 (.bit 0) (by decide) (by rw [ht]; decide) (by decide) hk]
    exact congrArg Res.ok (hasBit_eq 0 (by decide) _)

/-- `NewIPVersion` and the functions `HasIPv4`, `HasIPv6` disagree for all arguments that differ (/repo/ie/ip-version.go). -/
theorem C30_ip_version_violated (g : IEType → Bool) (mem : IE → Bytes) (hg : g T.IPVersion = false) (v4 v6 : Bool) :
    Flag.HasIPv4.call g mem (FlagCtor.NewIPVersion.build [bitArg v4, bitArg v6]) = .ok v6 ∧
    Flag.HasIPv6.call g mem (FlagCtor.NewIPVersion.build [bitArg v4, bitArg v6]) = .ok v4 := by
  constructor
  · refine (call_u8 g mem .HasIPv4 (FlagCtor.NewIPVersion.build [bitArg v4, bitArg v6]) .IPVersion (.bit 1) (by decide) rfl (by decide)
      rfl hg (Nat.lt_succ_self 0)).trans ?_
    cases v4 <;> cases v6 <;> rfl
  · refine (call_u8 g mem .HasIPv6 (FlagCtor.NewIPVersion.build [bitArg v4, bitArg v6]) .IPVersion (.bit 0) (by decide) rfl (by decide)
      rfl hg (Nat.lt_succ_self 0)).trans ?_
    cases v4 <;> cases v6 <;> rfl

/-- `HasIPv4` and `HasIPv6` on a UE IP Address. The specification wants IPv6 with CHV6 (bit 6) clear; the function looks at CHV4
(bit 5), /repo/ie/outer-header-creation.go:191. -/
theorem C30_ue_ip_address_partial (g : IEType → Bool) (mem : IE → Bytes) (i : IE) (ht : i.typ = T.UEIPAddress)
    (hk : 0 < i.payload.length) :
    Flag.HasIPv4.call g mem i = .ok (i.payload[0].toNat.testBit 1 && !i.payload[0].toNat.testBit 4) ∧
    Flag.HasIPv6.call g mem i = .ok (i.payload[0].toNat.testBit 0 && !i.payload[0].toNat.testBit 4) := by
  constructor
  · rw [call_payload0 g mem .HasIPv4 i 1 (.bitNot 1 4) (by decide) (by rw [ht]; decide) (by decide) hk]
    simp only [Test.eval, hasBit_eq 1 (by decide), hasBit_eq 4 (by decide)]
  · rw [call_payload0 g mem .HasIPv6 i 1 (.bitNot 0 4) (by decide) (by rw [ht]; decide) (by decide) hk]
    simp only [Test.eval, hasBit_eq 0 (by decide), hasBit_eq 4 (by decide)]

/-- An element that asks the UP function to allocate an IPv6 address (V6 and CHV6 set, no address in it) is reported to have
one. -/
theorem C30_ue_ip_address_violated (g : IEType → Bool) (mem : IE → Bytes) :
    Flag.HasCHV6.call g mem (IE.new T.UEIPAddress [0x21]) = .ok true ∧
    Flag.HasIPv6.call g mem (IE.new T.UEIPAddress [0x21]) = .ok true := ⟨rfl, rfl⟩

/-- The allocation of a URR identifier: on an element with a payload, exactly one of the two functions says yes. Which of them
is the opposite of TS 29.244 8.2.54 (bit 8 clear: allocated by the CP function), see DESIGN.md. -/
theorem C30_urr_allocation (g : IEType → Bool) (mem : IE → Bytes) (i : IE) (ht : i.typ = T.URRID) (hk : 0 < i.payload.length) :
    Flag.IsAllocatedByCPFunction.call g mem i = .ok (i.payload[0].toNat.testBit 7) ∧
    Flag.IsAllocatedByUPFunction.call g mem i = .ok (!i.payload[0].toNat.testBit 7) := by
  constructor
  · rw [call_payload0 g mem .IsAllocatedByCPFunction i 1 (.bit 7) (by decide) (by rw [ht]; decide) (by decide) hk]
    simp only [Test.eval, hasBit_eq 7 (by decide)]
  · rw [call_payload0 g mem .IsAllocatedByUPFunction i 1 (.notBit 7) (by decide) (by rw [ht]; decide) (by decide) hk]
    simp only [Test.eval, hasBit_eq 7 (by decide)]

/-- An argument other than 0 and 1 (the parameters are integers) sets flags of other parameters: volume 2 sets the event
flag. -/
theorem C30_argument_violated (g : IEType → Bool) (mem : IE → Bytes) (hg : g T.MeasurementMethod = false) :
    Flag.HasEVENT.call g mem (FlagCtor.NewMeasurementMethod.build [0, 2, 0]) = .ok true ∧
    Flag.HasVOLUM.call g mem (FlagCtor.NewMeasurementMethod.build [0, 2, 0]) = .ok false := by
  constructor
  · exact (layout_head g mem T.MeasurementMethod 2 .HasEVENT (by decide) (by decide +kernel) (by decide +kernel)
        (by decide +kernel) _ rfl hg _ _ rfl).trans (by decide)
  · exact (layout_head g mem T.MeasurementMethod 1 .HasVOLUM (by decide) (by decide +kernel) (by decide +kernel)
        (by decide +kernel) _ rfl hg _ _ rfl).trans (by decide)

end Pfcp
