/-
Exact versions of the message properties that do not hold throughout: nil elements (C25), names (C28)
and the standard's fields (C46).
-/
import Verif.Message.Props

namespace Pfcp
namespace Msg

variable (g : IEType → Bool)

/-! ### C25 nil elements -/

theorem lenFields_nil (m : Msg) (suf : List (FieldName × Slot)) (l : Nat)
    (hget : ∀ p ∈ suf, m.get p.1 = .ok p.2) (hnil : ¬ ∀ p ∈ suf, p.2.NoNil) :
    lenFields g m (suf.map (·.1)) l = .panic := by
  induction suf generalizing l with
  | nil => exact absurd (by simp) hnil
  | cons p suf ih =>
    simp only [List.map_cons, lenFields]
    rw [hget p (by simp), Res.ok_bind]
    by_cases hp : p.2.NoNil
    · rw [lenSlot_eq g _ _ hp, Res.ok_bind]
      refine ih _ (fun q hq => hget q (by simp [hq])) ?_
      intro h
      apply hnil
      intro q hq
      rcases List.mem_cons.1 hq with rfl | hq
      · exact hp
      · exact h q hq
    · obtain ⟨n, s⟩ := p
      cases s with
      | one v => exact absurd (by simp [Slot.NoNil]) hp
      | many vs =>
        simp only [lenSlot]
        rw [lenMany_panic g _ _ (by simpa [Slot.NoNil] using hp)]
        rfl

/-- C25, encoding, exactly: with the fields of its kind, a message can be measured and encoded if and only
if no repeated field holds a nil; otherwise both panic. Nils in pointer fields and in the extra list do no
harm. -/
theorem C25_encode_iff (m : Msg) (hs : m.Shaped) :
    (marshal g m = .panic ↔ ∃ p ∈ m.fields, ∃ vs, p.2 = .many vs ∧ none ∈ vs) ∧
    (marshalLen g m = .panic ↔ ∃ p ∈ m.fields, ∃ vs, p.2 = .many vs ∧ none ∈ vs) ∧
    ((¬ ∃ p ∈ m.fields, ∃ vs, p.2 = .many vs ∧ none ∈ vs) → ∃ b, marshal g m = .ok b ∧
      marshalLen g m = .ok b.length) := by
  have hiff : m.NoNil ↔ ¬ ∃ p ∈ m.fields, ∃ vs, p.2 = .many vs ∧ none ∈ vs := by
    constructor
    · rintro h ⟨p, hp, vs, he, hv⟩
      have := h p hp
      rw [he] at this
      exact this hv
    · intro h p hp
      cases hq : p.2 with
      | one v => simp [Slot.NoNil]
      | many vs => exact fun hv => h ⟨p, hp, vs, hq, hv⟩
  by_cases hn : m.NoNil
  · have h1 := marshal_ok g m hs hn
    have h2 := marshalLen_ok g m hs hn
    have hx := hiff.1 hn
    refine ⟨⟨(fun h => by rw [h1] at h; cases h), fun h => absurd h hx⟩,
      ⟨(fun h => by rw [h2] at h; cases h), fun h => absurd h hx⟩, fun _ => ⟨_, h1, ?_⟩⟩
    rw [h2, wire_length]
  · have hx : ∃ p ∈ m.fields, ∃ vs, p.2 = .many vs ∧ none ∈ vs := by
      apply Classical.byContradiction
      intro h; exact hn (hiff.2 h)
    have h2 : marshalLen g m = .panic := by
      unfold marshalLen
      rw [Kind.lenOrder_eq, ← hs.names,
        lenFields_nil g m m.fields _ (fun p hp => get_ok m hs.nodup p hp) hn]
      rfl
    have h1 : marshal g m = .panic := by
      unfold marshal marshalSt
      rw [h2]; rfl
    exact ⟨⟨fun _ => hx, fun _ => h1⟩, ⟨fun _ => hx, fun _ => h2⟩, fun h => absurd hx h⟩

example : ({ zero .associationSetupRequest with fields :=
      (zero .associationSetupRequest).fields.map fun p =>
        (p.1, match p.2 with | .many _ => .many [none] | s => s) } : Msg).Shaped := by
  unfold Shaped
  decide

/-- C25, constructors, exactly: a nil among the list elements makes the constructor panic except for the
seven kinds listed; in every other case it succeeds, whatever the positional arguments. -/
theorem C25_constructor_iff (k : Kind) (hk : k ≠ .generic)
    (mp fo : UInt8) (seid : UInt64) (seq : UInt32) (pri : UInt8) (args ies : List (Option IE)) :
    (new g k mp fo seid seq pri args ies = .panic ↔
      none ∈ ies ∧ k ∉ [Kind.associationReleaseRequest, .associationReleaseResponse,
        .versionNotSupportedResponse, .nodeReportResponse, .sessionSetDeletionRequest,
        .sessionSetDeletionResponse, .sessionDeletionRequest]) ∧
    (¬ (none ∈ ies ∧ k ∉ [Kind.associationReleaseRequest, .associationReleaseResponse,
        .versionNotSupportedResponse, .nodeReportResponse, .sessionSetDeletionRequest,
        .sessionSetDeletionResponse, .sessionDeletionRequest]) →
      ∃ m, new g k mp fo seid seq pri args ies = .ok m) := by
  have key : (none ∈ ies ∧ k ∉ [Kind.associationReleaseRequest, .associationReleaseResponse,
        .versionNotSupportedResponse, .nodeReportResponse, .sessionSetDeletionRequest,
        .sessionSetDeletionResponse, .sessionDeletionRequest] →
        new g k mp fo seid seq pri args ies = .panic) ∧
      (¬ (none ∈ ies ∧ k ∉ [Kind.associationReleaseRequest, .associationReleaseResponse,
        .versionNotSupportedResponse, .nodeReportResponse, .sessionSetDeletionRequest,
        .sessionSetDeletionResponse, .sessionDeletionRequest]) →
        ∃ m, new g k mp fo seid seq pri args ies = .ok m) := by
    constructor
    · rintro ⟨hn, hk7⟩
      apply C25_constructor_nil_violated g k _ mp fo seid seq pri args ies hn
      revert hk hk7
      cases k <;> decide
    · intro h
      by_cases hk7 : k ∈ [Kind.associationReleaseRequest, .associationReleaseResponse,
        .versionNotSupportedResponse, .nodeReportResponse, .sessionSetDeletionRequest,
        .sessionSetDeletionResponse, .sessionDeletionRequest]
      · obtain ⟨m, _, hm, _⟩ := C25_constructor_nil_partial g k hk7 mp fo seid seq pri args ies
        exact ⟨m, hm⟩
      · have hn : none ∉ ies := fun hn => h ⟨hn, hk7⟩
        obtain ⟨hs, hnn, hkk, _⟩ := preNew_shaped k mp fo seid seq pri args ies
        have hni : none ∉ (preNew k mp fo seid seq pri args ies).ies := by
          unfold preNew
          split
          · simp [filed]
          · exact hn
        have := setLength_ok g _ hs hnn (.inr hni)
        rw [new_eq]
        split
        · rw [if_neg hn]; exact ⟨_, this⟩
        · exact ⟨_, this⟩
  refine ⟨⟨fun hp => ?_, key.1⟩, key.2⟩
  apply Classical.byContradiction
  intro h
  obtain ⟨m, hm⟩ := key.2 h
  rw [hm] at hp
  cases hp

/-! ### C28 names -/

/-- Reads the digits at the end of a generic message's name. -/
def readNumber (s : String) : Nat :=
  s.toList.foldl (fun n c => if c.isDigit then n * 10 + (c.toNat - 48) else n) 0

theorem readNumber_name : ∀ b : UInt8,
    readNumber ("Unknown (" ++ toString b.toNat ++ ")") = b.toNat := by
  apply forall_byte
  decide +kernel

theorem unknown_start : ∀ b : UInt8,
    ("Unknown (" ++ toString b.toNat ++ ")").toList.head? = some 'U' ∧
    ¬ "Request".toList <:+ ("Unknown (" ++ toString b.toNat ++ ")").toList := by
  apply forall_byte
  decide +kernel

theorem name_start (k : Kind) (hk : k ≠ .generic) : k.tab.typeName.toList.head? ≠ some 'U' := by
  revert hk
  cases k <;> decide +kernel

theorem kind_names (k k' : Kind) : k.tab.typeName = k'.tab.typeName ↔
    k = k' ∨ (k, k') ∈ [(Kind.associationUpdateRequest, Kind.associationUpdateResponse),
      (.associationUpdateResponse, .associationUpdateRequest),
      (.nodeReportResponse, .sessionSetDeletionResponse),
      (.sessionSetDeletionResponse, .nodeReportResponse)] := by
  cases k <;> cases k' <;> decide +kernel

/-- C28 (b), exactly: two messages have the same name if and only if they are of the same kind (and, of
unknown type, have the same type number), or are an association update request and response, or a node
report response and a session set deletion response. -/
theorem C28_names_iff (m m' : Msg) : m.typeName = m'.typeName ↔
    (m.kind = m'.kind ∧ (m.kind = .generic → m.header.typ = m'.header.typ)) ∨
    (m.kind, m'.kind) ∈ [(Kind.associationUpdateRequest, Kind.associationUpdateResponse),
      (.associationUpdateResponse, .associationUpdateRequest),
      (.nodeReportResponse, .sessionSetDeletionResponse),
      (.sessionSetDeletionResponse, .nodeReportResponse)] := by
  have hn : ∀ m : Msg, m.kind ≠ .generic → m.typeName = m.kind.tab.typeName := by
    intro m h
    unfold typeName
    split
    · rename_i h'; exact absurd h' h
    · rfl
  have hg : ∀ m : Msg, m.kind = .generic →
      m.typeName = "Unknown (" ++ toString m.header.typ.toNat ++ ")" := by
    intro m h
    unfold typeName
    rw [h]
  by_cases h : m.kind = .generic <;> by_cases h' : m'.kind = .generic
  · rw [hg m h, hg m' h', h, h']
    constructor
    · intro he
      have := congrArg readNumber he
      rw [readNumber_name, readNumber_name] at this
      exact .inl ⟨rfl, fun _ => UInt8.toNat_inj.1 this⟩
    · rintro (⟨_, he⟩ | he)
      · rw [he rfl]
      · simp at he
  · rw [hg m h, hn m' h']
    constructor
    · intro he
      have h1 := (unknown_start m.header.typ).1
      rw [he] at h1
      exact absurd h1 (name_start _ h')
    · rintro (⟨he, _⟩ | he)
      · exact absurd (he ▸ h) h'
      · rw [h] at he; simp at he
  · rw [hn m h, hg m' h']
    constructor
    · intro he
      have h1 := (unknown_start m'.header.typ).1
      rw [← he] at h1
      exact absurd h1 (name_start _ h)
    · rintro (⟨he, _⟩ | he)
      · exact absurd (he ▸ h') h
      · rw [h'] at he; simp at he
  · rw [hn m h, hn m' h', kind_names]
    constructor
    · rintro (he | he)
      · exact .inl ⟨he, fun h0 => absurd h0 h⟩
      · exact .inr he
    · rintro (⟨he, _⟩ | he)
      · exact .inl he
      · exact .inr he

/-- C28, exactly: the name ends in "Request" precisely for requests, except for association update
responses, whose name ends so although they are none. -/
theorem C28_suffix_iff (m : Msg) :
    "Request".toList <:+ m.typeName.toList ↔ m.isRequest = true ∨ m.kind = .associationUpdateResponse := by
  obtain ⟨k, hd, fs, ies⟩ := m
  unfold isRequest
  cases k
  case generic =>
    refine ⟨fun h => absurd h (unknown_start hd.typ).2, ?_⟩
    rintro (h | h) <;> cases h
  all_goals
    simp only [typeName]
    decide +kernel

/-! ### C46 fields of the standard -/

/-- C46, exactly: a field collects the standard's type and no other if and only if it is none of the two
fields of the session modification response named in `C46_field_type_violated`. -/
theorem C46_field_type_iff (k : Kind) (n : FieldName) (hn : n ∈ k.names) :
    (∀ t, k.tab.parseSwitch.lookup t = some n ↔ t = standardIE k n) ↔
      ¬ (k = .sessionModificationResponse ∧ (n = .PacketRateStatusReport ∨ n = .CreatedBridgeInfoForTSC)) := by
  constructor
  · rintro h ⟨rfl, rfl | rfl⟩
    · have := (h 264).2 rfl
      rw [C46_field_type_violated.2.2.1] at this
      cases this
    · have := (h 200).2 rfl
      rw [C46_field_type_violated.2.2.2.1] at this
      cases this
  · intro h t
    apply C46_field_type_partial k n hn t
    intro hk
    exact ⟨fun hn => h ⟨hk, .inl hn⟩, fun hn => h ⟨hk, .inr hn⟩⟩

example : FieldName.PacketRateStatusReport ∈ Kind.sessionModificationResponse.names ∧
    FieldName.Cause ∈ Kind.sessionModificationResponse.names := by decide

end Msg
end Pfcp
