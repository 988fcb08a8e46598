/- Property theorems about the header of constructed messages: C51. -/
import Verif.Message.Props

namespace Pfcp.Msg

open Header

variable (g : IEType → Bool)

/-- TS 29.244 7.2.2: session-related messages are the types 50 to 57. -/
def sessionType (t : UInt8) : Prop := 50 ≤ t.toNat ∧ t.toNat ≤ 57

instance (t : UInt8) : Decidable (sessionType t) := inferInstanceAs (Decidable (_ ∧ _))

theorem Kind.session_iff (k : Kind) (hk : k ≠ .generic) :
    k.tab.session = decide (sessionType k.tab.msgType) := by
  cases k <;> first | exact absurd rfl hk | decide +kernel

theorem new_header (k : Kind) (mp fo : UInt8) (seid : UInt64) (seq : UInt32)
    (pri : UInt8) (args ies : List (Option IE)) (m : Msg)
    (h : new g k mp fo seid seq pri args ies = .ok m) :
    m.header = { ctorHeader k mp fo seid seq pri with length := m.header.length } := by
  have hpre : (preNew k mp fo seid seq pri args ies).header = ctorHeader k mp fo seid seq pri :=
    (preNew_shaped k mp fo seid seq pri args ies).2.2.2
  have hs : setLength g (preNew k mp fo seid seq pri args ies) = .ok m := by
    rw [new_eq] at h
    split at h
    · split at h
      · cases h
      · exact h
    · exact h
  obtain ⟨_, _, _, h4⟩ := setLength_kind g hs
  rw [hpre] at h4
  exact h4

/-- C51 (a). A session message (type 50 to 57) built by its constructor carries the session id and
sequence number given, the S flag, the MP and FO flags asked for, version 1, and the priority octet. -/
theorem C51_session (k : Kind) (hk : k ≠ .generic) (mp fo : Bool) (seid : UInt64) (seq : UInt32)
    (pri : UInt8) (args ies : List (Option IE)) (m : Msg)
    (h : new g k (if mp then 1 else 0) (if fo then 1 else 0) seid seq pri args ies = .ok m)
    (hs : sessionType m.messageType) :
    m.seid = seid ∧ m.header.seq = seq ∧ m.header.pri = pri ∧ m.header.payload = [] ∧
    m.header.flags.toNat.testBit 0 = true ∧ m.header.flags.toNat.testBit 1 = mp ∧
    m.header.flags.toNat.testBit 2 = fo ∧ m.header.flags.toNat / 32 = 1 := by
  have hh := new_header g k _ _ seid seq pri args ies m h
  have ht : m.messageType = k.tab.msgType := by
    unfold messageType; rw [hh]; unfold ctorHeader; split <;> rfl
  rw [ht] at hs
  have hses : k.tab.session = true := by rw [Kind.session_iff k hk]; simpa using hs
  unfold ctorHeader at hh
  simp only [hses, if_true] at hh
  have key : ∀ mp fo : Bool, let f : UInt8 := (((1 : UInt8) &&& 0x7) <<< 5) |||
        ((if fo then (1 : UInt8) else 0) <<< 2) ||| ((if mp then (1 : UInt8) else 0) <<< 1) ||| 1
      has1stBit f = true ∧ f.toNat.testBit 0 = true ∧ f.toNat.testBit 1 = mp ∧
        f.toNat.testBit 2 = fo ∧ f.toNat / 32 = 1 := by decide
  have := key mp fo
  unfold Msg.seid seidVal hasSEID
  rw [hh]
  obtain ⟨k1, k2, k3, k4, k5⟩ := this
  refine ⟨?_, rfl, rfl, rfl, k2, k3, k4, k5⟩
  show (if (!has1stBit _) = true then (0 : UInt64) else seid) = seid
  rw [if_neg]
  rw [Bool.not_eq_true, Bool.not_eq_false']
  exact k1

/-- C51 (b). Any other message built by its constructor has no session id: only version 1 in the flags,
the sequence number given, and eight octets of header. -/
theorem C51_node (k : Kind) (hk : k ≠ .generic) (mp fo : UInt8) (seid : UInt64) (seq : UInt32)
    (pri : UInt8) (args ies : List (Option IE)) (m : Msg)
    (h : new g k mp fo seid seq pri args ies = .ok m) (hs : ¬ sessionType m.messageType) :
    m.seid = 0 ∧ m.header.seq = seq ∧ m.header.pri = 0 ∧ m.header.payload = [] ∧
    m.header.flags = 0x20 ∧ m.header.marshalLen = 8 := by
  have hh := new_header g k _ _ seid seq pri args ies m h
  have ht : m.messageType = k.tab.msgType := by
    unfold messageType; rw [hh]; unfold ctorHeader; split <;> rfl
  rw [ht] at hs
  have hses : k.tab.session = false := by rw [Kind.session_iff k hk]; simpa using hs
  unfold ctorHeader at hh
  simp only [hses, if_neg Bool.false_ne_true] at hh
  have hf : m.header.flags = 0x20 := by rw [hh]; rfl
  have hp : m.header.payload = [] := by rw [hh]; rfl
  refine ⟨?_, by rw [hh]; rfl, by rw [hh]; rfl, hp, hf, ?_⟩
  · unfold Msg.seid seidVal hasSEID; rw [hf]; rfl
  · unfold Header.marshalLen hasSEID; rw [hf, hp]; rfl

/-- C51 (c). The two Generic constructors: with and without session id. -/
theorem C51_generic (t : UInt8) (seid : UInt64) (seq : UInt32) (ies : List (Option IE)) (m : Msg) :
    (newGeneric g t seid seq ies = .ok m →
      m.seid = seid ∧ m.header.seq = seq ∧ m.header.flags = 0x21 ∧ m.header.pri = 0) ∧
    (newGenericWithoutSEID g t seq ies = .ok m →
      m.seid = 0 ∧ m.header.seq = seq ∧ m.header.flags = 0x20 ∧ m.header.pri = 0) := by
  constructor
  · intro h
    obtain ⟨_, _, _, h4⟩ := setLength_kind g h
    have hf : m.header.flags = 0x21 := by rw [h4]; rfl
    have hs : m.header.seid = seid := by rw [h4]; rfl
    refine ⟨?_, by rw [h4]; rfl, hf, by rw [h4]; rfl⟩
    unfold Msg.seid seidVal hasSEID; rw [hf, hs]; rfl
  · intro h
    obtain ⟨_, _, _, h4⟩ := setLength_kind g h
    have hf : m.header.flags = 0x20 := by rw [h4]; rfl
    refine ⟨?_, by rw [h4]; rfl, hf, by rw [h4]; rfl⟩
    unfold Msg.seid seidVal hasSEID; rw [hf]; rfl

/-- C51 (d). `SEID()` of any message is the session id field when the S flag is set, and zero
otherwise, whatever the field holds. -/
theorem C51_seid (m : Msg) :
    m.seid = if m.header.flags.toNat.testBit 0 then m.header.seid else 0 := by
  have key : ∀ f : UInt8, has1stBit f = f.toNat.testBit 0 := by
    apply forall_byte; decide +kernel
  unfold Msg.seid seidVal hasSEID
  rw [key]
  cases m.header.flags.toNat.testBit 0 <;> rfl

example : ∃ m, new (fun _ => false) .sessionEstablishmentRequest 1 0 7 9 16 [] [] = .ok m ∧
    sessionType m.messageType ∧ m.header.flags = 0x23 := by
  refine ⟨_, rfl, ?_, ?_⟩ <;> decide +kernel

example : ∃ m, new (fun _ => false) .heartbeatRequest 0 0 0 9 0 [] [] = .ok m ∧
    ¬ sessionType m.messageType := by
  refine ⟨_, rfl, ?_⟩; decide +kernel

end Pfcp.Msg
