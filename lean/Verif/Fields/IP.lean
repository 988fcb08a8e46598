/- The two conversions of Go's package net that the codecs use (Go standard library, src/net/ip.go). -/
import Verif.Fields.Sound

namespace Pfcp

/-- A `net.IP` or other byte slice that may be nil. -/
abbrev IP := Option Bytes

/-- The prefix of an IPv4 address in 16-byte form. -/
def v4Prefix : Bytes := [0, 0, 0, 0, 0, 0, 0, 0, 0, 0, 0xff, 0xff]

/-- `net.IP.To4`; the result `[]` stands for nil. -/
def to4 (ip : Bytes) : Bytes :=
  if ip.length = 4 then ip
  else if ip.length = 16 ∧ ip.take 12 = v4Prefix then ip.drop 12
  else []

/-- `net.IP.To16`; the result `[]` stands for nil. -/
def to16 (ip : Bytes) : Bytes :=
  if ip.length = 4 then v4Prefix ++ ip
  else if ip.length = 16 then ip
  else []

/-- The value of a possibly nil slice where only its contents matter. -/
def IP.val (ip : IP) : Bytes := ip.getD []

/-- `ip` is an IPv4 address, in either representation. -/
def IsV4 (ip : Bytes) : Prop := ip.length = 4 ∨ (ip.length = 16 ∧ ip.take 12 = v4Prefix)

/-- `ip` is an address usable as an IPv6 one, in either representation. -/
def IsV16 (ip : Bytes) : Prop := ip.length = 4 ∨ ip.length = 16

theorem to4_length {ip : Bytes} (h : IsV4 ip) : (to4 ip).length = 4 := by
  unfold to4
  rcases h with h | ⟨h1, h2⟩
  · simp [h]
  · simp [h1, h2]

theorem to16_length {ip : Bytes} (h : IsV16 ip) : (to16 ip).length = 16 := by
  unfold to16
  rcases h with h | h
  · simp [h, v4Prefix]
  · simp [h]

/-- A 4-byte (16-byte) address is its own canonical form. -/
theorem to4_eq {ip : Bytes} (h : ip.length = 4) : to4 ip = ip := by simp [to4, h]
theorem to16_eq {ip : Bytes} (h : ip.length = 16) : to16 ip = ip := by simp [to16, h]

/-- Decoded address of an optional argument. -/
def IP.as4 (ip : IP) : IP := ip.map to4
def IP.as16 (ip : IP) : IP := ip.map to16

/-- An optional argument is nil or an address. -/
def IP.Is4 (ip : IP) : Prop := ∀ a, ip = some a → IsV4 a
def IP.Is16 (ip : IP) : Prop := ∀ a, ip = some a → IsV16 a

/-! ### Optional addresses on the wire -/

/-- The octets of an optional IPv4 (IPv6) address: none, or its 4 (16) octets. -/
def wire4 : IP → Bytes
  | none => []
  | some a => to4 a
def wire16 : IP → Bytes
  | none => []
  | some a => to16 a

theorem wire4_length {ip : IP} (h : ip.Is4) : (wire4 ip).length = if ip.isSome then 4 else 0 := by
  cases ip with
  | none => rfl
  | some a => exact to4_length (h a rfl)
theorem wire16_length {ip : IP} (h : ip.Is16) : (wire16 ip).length = if ip.isSome then 16 else 0 := by
  cases ip with
  | none => rfl
  | some a => exact to16_length (h a rfl)

theorem IP.none_is4 : IP.Is4 none := by intro a h; cases h
theorem IP.none_is16 : IP.Is16 none := by intro a h; cases h

/-- `if c { if l < offset+4 {..}; copy(b[offset:offset+4], ip.To4()); offset += 4 }` -/
def W.ip4 (c : Bool) (ip : IP) : W := W.opt c (W.need 4 ;; W.copy 4 (to4 ip.val))
/-- `if c { if l < offset+16 {..}; copy(b[offset:offset+16], ip.To16()); offset += 16 }` -/
def W.ip16 (c : Bool) (ip : IP) : W := W.opt c (W.need 16 ;; W.copy 16 (to16 ip.val))

theorem W.Emits.ip4 {c : Bool} {ip : IP} (hc : c = ip.isSome) (h : ip.Is4) :
    W.Emits (W.ip4 c ip) (wire4 ip) := by
  subst hc
  cases ip with
  | none => exact W.Emits.nop
  | some a =>
    have hl := to4_length (h a rfl)
    exact W.Emits.need (by simp [wire4, hl]) (W.Emits.copy _ hl)

theorem W.Emits.ip16 {c : Bool} {ip : IP} (hc : c = ip.isSome) (h : ip.Is16) :
    W.Emits (W.ip16 c ip) (wire16 ip) := by
  subst hc
  cases ip with
  | none => exact W.Emits.nop
  | some a =>
    have hl := to16_length (h a rfl)
    exact W.Emits.need (by simp [wire16, hl]) (W.Emits.copy _ hl)

theorem P.Reads.ip4 {c : Bool} {ip : IP} (hc : c = ip.isSome) (h : ip.Is4) :
    P.Reads (P.opt c (P.ip 4) none) (wire4 ip) ip.as4 := by
  subst hc
  cases ip with
  | none => exact P.Reads.pure _
  | some a => exact P.Reads.ip _ (to4_length (h a rfl))

theorem P.Reads.ip16 {c : Bool} {ip : IP} (hc : c = ip.isSome) (h : ip.Is16) :
    P.Reads (P.opt c (P.ip 16) none) (wire16 ip) ip.as16 := by
  subst hc
  cases ip with
  | none => exact P.Reads.pure _
  | some a => exact P.Reads.ip _ (to16_length (h a rfl))

theorem P.Takes.ip4 {k : Nat} {c : Bool} : P.Takes k (P.opt c (P.ip 4) none) 0
    (fun x w => w = wire4 x ∧ x.isSome = c ∧ IP.Is4 x) := by
  refine (P.Takes.opt (P.Takes.ip 4) (Nat.zero_le _)).weaken ?_
  rintro x w (⟨rfl, rfl, h⟩ | ⟨rfl, rfl, rfl⟩)
  · refine ⟨(to4_eq h).symm, rfl, ?_⟩
    rintro a ⟨⟩; exact Or.inl h
  · exact ⟨rfl, rfl, IP.none_is4⟩

theorem P.Takes.ip16 {k : Nat} {c : Bool} : P.Takes k (P.opt c (P.ip 16) none) 0
    (fun x w => w = wire16 x ∧ x.isSome = c ∧ IP.Is16 x) := by
  refine (P.Takes.opt (P.Takes.ip 16) (Nat.zero_le _)).weaken ?_
  rintro x w (⟨rfl, rfl, h⟩ | ⟨rfl, rfl, rfl⟩)
  · refine ⟨(to16_eq h).symm, rfl, ?_⟩
    rintro a ⟨⟩; exact Or.inr h
  · exact ⟨rfl, rfl, IP.none_is16⟩

/-- An address as far as a flag announces it. -/
def IP.when (c : Bool) (ip : IP) : IP := if c then ip else none

theorem IP.when_is4 {c : Bool} {ip : IP} (h : c = true → ip.Is4) : (IP.when c ip).Is4 := by
  cases c
  · exact IP.none_is4
  · exact h rfl
theorem IP.when_is16 {c : Bool} {ip : IP} (h : c = true → ip.Is16) : (IP.when c ip).Is16 := by
  cases c
  · exact IP.none_is16
  · exact h rfl
theorem IP.when_isSome {c : Bool} {ip : IP} (h : c = true → ip.isSome = true) : (IP.when c ip).isSome = c := by
  cases c
  · rfl
  · exact h rfl

/-- Written under a flag: an announced address must be there. -/
theorem W.Emits.when4 {c : Bool} {ip : IP} (hc : c = true → ip.isSome = true) (h : c = true → ip.Is4) :
    W.Emits (W.ip4 c ip) (wire4 (ip.when c)) := by
  cases c
  · exact W.Emits.nop
  · exact W.Emits.ip4 (hc rfl).symm (h rfl)
theorem W.Emits.when16 {c : Bool} {ip : IP} (hc : c = true → ip.isSome = true) (h : c = true → ip.Is16) :
    W.Emits (W.ip16 c ip) (wire16 (ip.when c)) := by
  cases c
  · exact W.Emits.nop
  · exact W.Emits.ip16 (hc rfl).symm (h rfl)
theorem P.Reads.when4 {c : Bool} {ip : IP} (hc : c = true → ip.isSome = true) (h : c = true → ip.Is4) :
    P.Reads (P.opt c (P.ip 4) none) (wire4 (ip.when c)) (ip.when c).as4 :=
  P.Reads.ip4 (IP.when_isSome hc).symm (IP.when_is4 h)
theorem P.Reads.when16 {c : Bool} {ip : IP} (hc : c = true → ip.isSome = true) (h : c = true → ip.Is16) :
    P.Reads (P.opt c (P.ip 16) none) (wire16 (ip.when c)) (ip.when c).as16 :=
  P.Reads.ip16 (IP.when_isSome hc).symm (IP.when_is16 h)

theorem wire4_when_length {c : Bool} {ip : IP} (hc : c = true → ip.isSome = true) (h : c = true → ip.Is4) :
    (wire4 (ip.when c)).length = if c then 4 else 0 := by
  rw [wire4_length (IP.when_is4 h), IP.when_isSome hc]
theorem wire16_when_length {c : Bool} {ip : IP} (hc : c = true → ip.isSome = true) (h : c = true → ip.Is16) :
    (wire16 (ip.when c)).length = if c then 16 else 0 := by
  rw [wire16_length (IP.when_is16 h), IP.when_isSome hc]

theorem IP.when_eq {c : Bool} {ip : IP} (h : ip.isSome = c) : ip.when c = ip := by
  subst h
  cases ip <;> rfl

/-- Announced addresses are there and are addresses. -/
def IP.Ready4 (c : Bool) (ip : IP) : Prop := c = true → ip.isSome = true ∧ ip.Is4
def IP.Ready16 (c : Bool) (ip : IP) : Prop := c = true → ip.isSome = true ∧ ip.Is16

end Pfcp
