/-
The accessors that combine others, on elements of any type and payload: they never panic, do not look behind the payload,
and refuse announced lengths that exceed it (C39).
-/
import Verif.Ctor.MultiProps2
import Verif.Acc.Props

namespace Pfcp
open Fields

/-- What accessor `a` returns is the payload of an element of type `t` with at least `n` octets. -/
theorem payload_of (g : IEType → Bool) (mem : IE → Bytes) (a : Acc) (t : IEType) (n : Nat) (i : IE) (v : Val)
    (hc : a.onChild = a) (hh : a.home = [t]) (hl : a.table.cases.lookup t = some (.leaf .payload)) (hp : n ≤ a.table.pre)
    (h : a.call g mem i = .ok v) : ∃ p, v = .bytes p ∧ n ≤ p.length := by
  obtain ⟨x, -, h2, h3⟩ := C38_provenance g mem a i v h
  rw [hc] at h2 h3
  rw [hh, List.mem_singleton] at h2
  rw [call_eq, h2, hl] at h3
  split at h3
  · cases h3
  · cases h3
    exact ⟨_, rfl, by omega⟩

theorem snssai_of (g : IEType → Bool) (mem : IE → Bytes) (i : IE) (v : Val) (h : Acc.SNSSAI.call g mem i = .ok v) :
    ∃ p, v = .bytes p ∧ p.length = 4 := by
  obtain ⟨x, -, h2, h3⟩ := C38_provenance g mem .SNSSAI i v h
  have h2 : x.typ = T.SNSSAI := List.mem_singleton.1 h2
  have hl : Acc.SNSSAI.onChild.table.cases.lookup T.SNSSAI = some (.leaf (.prefix 4)) := rfl
  rw [call_eq, h2, hl] at h3
  split at h3
  · cases h3
  · rename_i hp
    have hp : 4 ≤ x.payload.length := Nat.le_of_not_lt hp
    have : Slice.sub ⟨x.payload, mem x⟩ 0 4 = .ok ⟨x.payload.take 4, x.payload.drop 4 ++ mem x⟩ := by
      have := sub_first (x.payload.take 4) (x.payload.drop 4) (mem x) 4 (by rw [List.length_take]; omega)
      rwa [List.take_append_drop] at this
    simp only [Leaf.run] at h3
    rw [this] at h3
    cases h3
    exact ⟨_, rfl, by rw [List.length_take]; omega⟩

theorem bytes_cases (g : IEType → Bool) (mem : IE → Bytes) (a : Acc) (i : IE) (ha : a ∉ panicky)
    (ht : a.returns = .bytes ∨ a.returns = .string) :
    (∃ p, a.call g mem i = .ok (.bytes p)) ∨ ∃ e, a.call g mem i = .err e := by
  have h := (C39_safe g mem a ha i).1
  have hk := (C55_kinds g mem a i).2.1 ht
  cases hc : a.call g mem i with
  | panic => exact absurd hc h
  | err e => exact .inr ⟨e, rfl⟩
  | ok v =>
    rw [hc] at hk
    cases v with
    | bytes p => exact .inl ⟨p, rfl⟩
    | _ => exact absurd (hk rfl) (by simp)

theorem u8_cases (g : IEType → Bool) (mem : IE → Bytes) (a : Acc) (i : IE) (ha : a ∉ panicky) (ht : a.returns = .uint8) :
    (∃ p, a.call g mem i = .ok (.u8 p)) ∨ ∃ e, a.call g mem i = .err e := by
  have h := (C39_safe g mem a ha i).1
  have hk := (C55_kinds g mem a i).1 ht
  cases hc : a.call g mem i with
  | panic => exact absurd hc h
  | err e => exact .inr ⟨e, rfl⟩
  | ok v =>
    rw [hc] at hk
    cases v with
    | u8 p => exact .inl ⟨p, rfl⟩
    | _ => exact absurd (hk rfl) (by simp)

/-- A slice of the first octets does not depend on what is behind it. -/
theorem sub_within (p sp : Bytes) (lo hi : Nat) (h1 : lo ≤ hi) (h2 : hi ≤ p.length) :
    ∃ r, Slice.sub ⟨p, sp⟩ lo hi = .ok r ∧ r.data = (p.take hi).drop lo := by
  unfold Slice.sub
  rw [if_pos (by simp only [Slice.cap, Slice.len]; omega)]
  refine ⟨_, rfl, ?_⟩
  simp [List.take_append_of_le_length h2]

/-- The outcome `r` of a function that looks at what an accessor returned: the same error, or `f` of the octets. -/
def Combines {α : Type} (c : Res Val) (r : Res α) (f : Bytes → Res α) : Prop :=
  (∃ e, c = .err e ∧ r = .err e) ∨ ∃ p, c = .ok (.bytes p) ∧ r = f p

theorem combines_rate (g : IEType → Bool) (mem : IE → Bytes) (a : Acc) (t : IEType) (i : IE) (sp : Bytes) (lo : Nat) (hlo : lo + 5 ≤ 10)
    (ha : a ∉ panicky) (ht : a.returns = .bytes) (hc : a.onChild = a) (hh : a.home = [t])
    (hl : a.table.cases.lookup t = some (.leaf .payload)) (hp : 10 ≤ a.table.pre) :
    Combines (a.call g mem i) (asBytes (a.call g mem i) >>= fun v => rate40 v sp lo)
      fun p => .ok (uint40To64 ((p.take (lo + 5)).drop lo)) := by
  rcases bytes_cases g mem a i ha (.inl ht) with ⟨p, h⟩ | ⟨e, h⟩
  · obtain ⟨q, hq, hlen⟩ := payload_of g mem a t 10 i _ hc hh hl hp h
    cases hq
    refine .inr ⟨p, h, ?_⟩
    rw [h]
    obtain ⟨r, h1, h2⟩ := sub_within p sp lo (lo + 5) (by omega) (by omega)
    show (Slice.sub ⟨p, sp⟩ lo (lo + 5) >>= fun x => Res.ok (uint40To64 x.data)) = _
    rw [h1]
    show Res.ok (uint40To64 r.data) = _
    rw [h2]
  · refine .inl ⟨e, h, ?_⟩
    rw [h]
    rfl

/-- Bit rates, on any element: the error of the underlying accessor, or the first and second five octets. No panic, and
nothing from behind the payload. -/
theorem C39_rates (g : IEType → Bool) (mem : IE → Bytes) (i : IE) (sp : Bytes) :
    Combines (Acc.MBR.call g mem i) (mbrUL g mem sp i) (fun p => .ok (uint40To64 (p.take 5))) ∧
    Combines (Acc.MBR.call g mem i) (mbrDL g mem sp i) (fun p => .ok (uint40To64 ((p.take 10).drop 5))) ∧
    Combines (Acc.GBR.call g mem i) (gbrUL g mem sp i) (fun p => .ok (uint40To64 (p.take 5))) ∧
    Combines (Acc.GBR.call g mem i) (gbrDL g mem sp i) (fun p => .ok (uint40To64 ((p.take 10).drop 5))) :=
  ⟨combines_rate g mem .MBR T.MBR i sp 0 (by decide) (by decide) rfl rfl rfl rfl (by decide),
   combines_rate g mem .MBR T.MBR i sp 5 (by decide) (by decide) rfl rfl rfl rfl (by decide),
   combines_rate g mem .GBR T.GBR i sp 0 (by decide) (by decide) rfl rfl rfl rfl (by decide),
   combines_rate g mem .GBR T.GBR i sp 5 (by decide) (by decide) rfl rfl rfl rfl (by decide)⟩

example : Acc.MBR.call (fun _ => false) (fun _ => []) (IE.new T.MBR [0, 0, 0, 0, 1, 0, 0, 0, 0, 2]) =
    .ok (.bytes [0, 0, 0, 0, 1, 0, 0, 0, 0, 2]) := by
  rw [call_new _ _ _ _ _ .payload 10 rfl (by decide) (by decide)]
  rfl

/-- The description and the extension header of a removal: the latter is refused if it was not sent. -/
theorem C39_outer_header_removal (g : IEType → Bool) (mem : IE → Bytes) (i : IE) :
    Combines (Acc.OuterHeaderRemoval.call g mem i) (outerHeaderRemovalDescription g mem i)
      (fun p => match p with | o :: _ => .ok o | [] => .err .unexpectedEOF) ∧
    Combines (Acc.OuterHeaderRemoval.call g mem i) (gtpuExtensionHeaderDeletion g mem i)
      (fun p => match p with | _ :: o :: _ => .ok o | _ => .err .unexpectedEOF) := by
  rcases bytes_cases g mem .OuterHeaderRemoval i (by decide) (.inl rfl) with ⟨p, h⟩ | ⟨e, h⟩
  · obtain ⟨q, hq, hlen⟩ := payload_of g mem .OuterHeaderRemoval T.OuterHeaderRemoval 1 i _ rfl rfl rfl (by decide) h
    cases hq
    unfold outerHeaderRemovalDescription gtpuExtensionHeaderDeletion
    rw [h]
    match p, hlen with
    | [o], _ => exact ⟨.inr ⟨_, rfl, rfl⟩, .inr ⟨_, rfl, rfl⟩⟩
    | o :: x :: r, _ =>
      refine ⟨.inr ⟨_, rfl, rfl⟩, .inr ⟨_, rfl, ?_⟩⟩
      show (if (o :: x :: r).length < 2 then (Res.err .unexpectedEOF : Res UInt8) else Slice.idx ⟨o :: x :: r, []⟩ 1) = _
      rw [if_neg (by simp)]
      rfl
  · unfold outerHeaderRemovalDescription gtpuExtensionHeaderDeletion
    rw [h]
    exact ⟨.inl ⟨e, rfl, rfl⟩, .inl ⟨e, rfl, rfl⟩⟩

/-- Slice type and differentiator, on any element. -/
theorem C39_snssai (g : IEType → Bool) (mem : IE → Bytes) (i : IE) (sp : Bytes) :
    (∃ e, Acc.SNSSAI.call g mem i = .err e ∧ sst g mem i = .err e ∧ sd g mem sp i = .err e) ∨
    ∃ a b c d, Acc.SNSSAI.call g mem i = .ok (.bytes [a, b, c, d]) ∧ sst g mem i = .ok a ∧
      sd g mem sp i = .ok (uint24To32 [b, c, d]) := by
  unfold sst sd
  rcases bytes_cases g mem .SNSSAI i (by decide) (.inl rfl) with ⟨p, h⟩ | ⟨e, h⟩
  · obtain ⟨q, hq, hlen⟩ := snssai_of g mem i _ h
    cases hq
    rw [h]
    match p, hlen with
    | [a, b, c, d], _ =>
      refine .inr ⟨a, b, c, d, rfl, rfl, ?_⟩
      show (Slice.sub ⟨[a, b, c, d], sp⟩ 1 4 >>= fun x => Res.ok (uint24To32 x.data)) = _
      rw [show Slice.sub ⟨[a, b, c, d], sp⟩ 1 4 = _ from sub_mid [a] [b, c, d] [] sp 1 4 rfl rfl]
      rfl
  · rw [h]
    exact .inl ⟨e, rfl, rfl, rfl⟩

/-- An identifier with a length in front: read exactly if as many octets as announced are there, from the payload only. -/
theorem C39_identifiers (g : IEType → Bool) (mem : IE → Bytes) (i : IE) (sp : Bytes) :
    Combines (Acc.ForwardingPolicy.call g mem i) (forwardingPolicyIdentifier g mem sp i)
      (fun p => match p with
        | [] => .err .unexpectedEOF
        | n :: r => if r.length < n.toNat then .err .unexpectedEOF else .ok (r.take n.toNat)) ∧
    Combines (Acc.UEIPAddressPoolIdentity.call g mem i) (ueIPAddressPoolIdentityString g mem sp i)
      (fun p => match p with
        | a :: b :: r => if r.length < 256 * a.toNat + b.toNat then .err .unexpectedEOF else .ok (r.take (256 * a.toNat + b.toNat))
        | _ => .err .unexpectedEOF) := by
  constructor
  · unfold forwardingPolicyIdentifier
    rcases bytes_cases g mem .ForwardingPolicy i (by decide) (.inl rfl) with ⟨p, h⟩ | ⟨e, h⟩
    · rw [h]
      refine .inr ⟨p, rfl, ?_⟩
      match p with
      | [] => rfl
      | n :: r =>
        show (if (n :: r).length < 1 then (Res.err .unexpectedEOF : Res Bytes) else if (n :: r).length < n.toNat + 1 then .err .unexpectedEOF else
          Slice.sub ⟨n :: r, sp⟩ 1 (n.toNat + 1) >>= fun x => Res.ok x.data) = _
        rw [if_neg (by simp)]
        dsimp only
        split
        · rename_i hl
          rw [if_pos (by simpa using hl)]
        · rename_i hl
          rw [if_neg (by simpa using hl)]
          obtain ⟨x, h1, h2⟩ := sub_within (n :: r) sp 1 (n.toNat + 1) (by omega) (by omega)
          rw [h1]
          show Res.ok x.data = _
          rw [h2]
          rfl
    · rw [h]
      exact .inl ⟨e, rfl, rfl⟩
  · unfold ueIPAddressPoolIdentityString
    rcases bytes_cases g mem .UEIPAddressPoolIdentity i (by decide) (.inl rfl) with ⟨p, h⟩ | ⟨e, h⟩
    · rw [h]
      refine .inr ⟨p, rfl, ?_⟩
      match p with
      | [] => rfl
      | [a] => rfl
      | a :: b :: r =>
        have hd : Slice.u16At ⟨a :: b :: r, sp⟩ 0 = .ok (dec16 [a, b]) := by
          unfold Slice.u16At
          rw [show Slice.sub ⟨a :: b :: r, sp⟩ 0 (0 + 2) = _ from sub_first [a, b] r sp 2 rfl]
          rfl
        have hv : (dec16 [a, b]).toNat = 256 * a.toNat + b.toNat := by
          have ha := a.toNat_lt
          have hb := b.toNat_lt
          simp only [dec16, UInt16.toNat_ofNat', beNat, List.foldl_cons, List.foldl_nil]
          omega
        show (if (a :: b :: r).length < 2 then (Res.err .unexpectedEOF : Res Bytes) else Slice.u16At ⟨a :: b :: r, sp⟩ 0 >>= fun n =>
          if (a :: b :: r).length < n.toNat + 2 then .err .unexpectedEOF else
          Slice.sub ⟨a :: b :: r, sp⟩ 2 (n.toNat + 2) >>= fun x => Res.ok x.data) = _
        rw [if_neg (by simp), hd]
        simp only [Res.ok_bind]
        rw [hv]
        split
        · rename_i hl
          rw [if_pos (by simpa using hl)]
        · rename_i hl
          rw [if_neg (by simpa using hl)]
          obtain ⟨x, h1, h2⟩ := sub_within (a :: b :: r) sp 2 (256 * a.toNat + b.toNat + 2) (by omega) (by omega)
          rw [h1]
          show Res.ok x.data = _
          rw [h2]
          rfl
    · rw [h]
      exact .inl ⟨e, rfl, rfl⟩

example : ([3, 1, 2] : Bytes).length < 4 ∧ ¬ ([1, 2, 3] : Bytes).length < (3 : UInt8).toNat := by decide

/-- Gates and access availability: the two fields of the octet, on any element. -/
theorem C39_gates (g : IEType → Bool) (mem : IE → Bytes) (i : IE) :
    (∃ e, Acc.GateStatus.call g mem i = .err e ∧ gateStatusUL g mem i = .err e ∧ gateStatusDL g mem i = .err e ∧
      gateStatusULDL g mem i = .err e) ∨
    ∃ o, Acc.GateStatus.call g mem i = .ok (.u8 o) ∧ gateStatusUL g mem i = .ok ((o >>> 2) &&& 3) ∧
      gateStatusDL g mem i = .ok (o &&& 3) ∧ gateStatusULDL g mem i = .ok ((o >>> 2) &&& 3, o &&& 3) := by
  unfold gateStatusUL gateStatusDL gateStatusULDL
  rcases u8_cases g mem .GateStatus i (by decide) rfl with ⟨o, h⟩ | ⟨e, h⟩
  · rw [h]
    exact .inr ⟨o, rfl, rfl, rfl, rfl⟩
  · rw [h]
    exact .inl ⟨e, rfl, rfl, rfl, rfl⟩

theorem C39_access_availability (g : IEType → Bool) (mem : IE → Bytes) (i : IE) :
    (∃ e, Acc.AccessAvailabilityInformation.call g mem i = .err e ∧ availabilityStatus g mem i = .err e ∧ accessType g mem i = .err e) ∨
    ∃ o, Acc.AccessAvailabilityInformation.call g mem i = .ok (.u8 o) ∧ availabilityStatus g mem i = .ok ((o >>> 2) &&& 3) ∧
      accessType g mem i = .ok (o &&& 3) := by
  unfold availabilityStatus accessType
  rcases u8_cases g mem .AccessAvailabilityInformation i (by decide) rfl with ⟨o, h⟩ | ⟨e, h⟩
  · rw [h]
    exact .inr ⟨o, rfl, rfl, rfl⟩
  · rw [h]
    exact .inl ⟨e, rfl, rfl, rfl⟩

/-- Names: on any element, the error of `NetworkInstance` or a text; never a panic. -/
theorem C39_names (g : IEType → Bool) (mem : IE → Bytes) (i : IE) :
    networkInstanceFQDN g mem i ≠ .panic ∧ networkInstanceHeuristic g mem i ≠ .panic ∧ (∃ v, mustAPNDNN g mem i = .ok v) := by
  have h1 : networkInstanceFQDN g mem i ≠ .panic ∧ networkInstanceHeuristic g mem i ≠ .panic := by
    unfold networkInstanceHeuristic networkInstanceFQDN
    rcases bytes_cases g mem .NetworkInstance i (by decide) (.inr rfl) with ⟨p, h⟩ | ⟨e, h⟩
    · rw [h]
      show Text.decodeFQDN i.payload ≠ .panic ∧ (Text.decodeFQDN i.payload >>= fun v => if v ≠ [] then .ok v else .ok p) ≠ .panic
      have := Text.C33_total i.payload
      cases hd : Text.decodeFQDN i.payload with
      | panic => exact absurd hd this
      | err e => exact ⟨by simp, by intro h; cases h⟩
      | ok v =>
        refine ⟨by simp, ?_⟩
        simp only [Res.ok_bind]
        split <;> simp
    · rw [h]
      constructor <;> (intro h; cases h)
  refine ⟨h1.1, h1.2, ?_⟩
  unfold mustAPNDNN
  rcases bytes_cases g mem .APNDNN i (by decide) (.inr rfl) with ⟨p, h⟩ | ⟨e, h⟩
  · rw [h]; exact ⟨p, rfl⟩
  · rw [h]; exact ⟨[], rfl⟩

/-- The n-th F-TEID: never a panic. -/
theorem C39_local_fteid (g : IEType → Bool) (mem : IE → Bytes) (n : Int) (i : IE) : localFTEIDN g mem n i ≠ .panic := by
  unfold localFTEIDN
  split
  · simp
  split
  · have h0 := (C39_safe g mem .CreatedTrafficEndpoint (by decide) i).1
    have hk := (C55_kinds g mem .CreatedTrafficEndpoint i).2.2.1 rfl
    cases hc : asIEs (Acc.CreatedTrafficEndpoint.call g mem i) with
    | panic => exact absurd (hk hc) h0
    | err e => simp
    | ok cs =>
      show localLoop g mem n cs 0 ≠ .panic
      have : ∀ (cs : List IE) (c : Int), localLoop g mem n cs c ≠ .panic := by
        intro cs
        induction cs with
        | nil => intro c; simp [localLoop]
        | cons x xs ih =>
          intro c
          unfold localLoop
          split
          · split
            · intro h
              exact (C39_safe g mem .FTEID (by decide) x).1 ((C55_kinds g mem .FTEID x).2.2.2 rfl h)
            · exact ih _
          · exact ih _
      exact this cs 0
  · simp

end Pfcp
