/-
What `copy` into the slices of a used value leaves, octet by octet.
-/
import Verif.Fields.Loc
import Verif.Fields.Reuse

namespace Pfcp
namespace P

theorem bytes_inv {s : Slice} {n o o' : Nat} {x : Bytes} (h : P.bytes n s o = .ok (x, o')) (hl : o + n ≤ s.data.length) :
    x = (s.data.drop o).take n ∧ o' = o + n := by
  obtain ⟨d, sp⟩ := s
  unfold P.bytes at h
  rw [sub_data d sp o (o + n) (by omega) hl] at h
  cases h
  refine ⟨?_, rfl⟩
  simp [List.drop_take]
theorem peekBytes_inv {s : Slice} {n o o' : Nat} {x : Bytes} (h : P.peekBytes n s o = .ok (x, o'))
    (hl : o + n ≤ s.data.length) : x = (s.data.drop o).take n ∧ o' = o := by
  obtain ⟨d, sp⟩ := s
  unfold P.peekBytes at h
  rw [sub_data d sp o (o + n) (by omega) hl] at h
  cases h
  refine ⟨?_, rfl⟩
  simp [List.drop_take]
theorem field_inv {s : Slice} {n o o' : Nat} {x : Bytes} (h : P.field n s o = .ok (x, o')) :
    x = (s.data.drop o).take n ∧ o' = o + n ∧ o + n ≤ s.data.length := by
  obtain ⟨_, o1, h1, h2⟩ := P.bind_inv h
  obtain ⟨hl, rfl⟩ := need_inv h1
  obtain ⟨hx, ho⟩ := bytes_inv h2 hl
  exact ⟨hx, ho, hl⟩

end P

namespace Fields

/-- The octets of `now` are those of `old` with the first ones replaced by the `n` octets of `data` from `o` on, as many as
fit: what `copy(old, data[o:o+n])` leaves. -/
def CopiedOver (old now data : Bytes) (o n : Nat) : Prop :=
  now.length = old.length ∧ o + n ≤ data.length ∧
    ∀ i, i < old.length → now[i]? = if i < n then data[o + i]? else old[i]?

theorem copiedOver {old data x : Bytes} {o n : Nat} (hl : o + n ≤ data.length) (hx : x = (data.drop o).take n) :
    CopiedOver old (overCopy old x) data o n := by
  have hn : x.length = n := by subst hx; simp; omega
  refine ⟨by unfold overCopy; simp; omega, hl, fun i hi => ?_⟩
  unfold overCopy
  rw [List.getElem?_append]
  simp only [List.length_take, hn]
  by_cases h : i < n
  · rw [if_pos (by omega), if_pos h, hx]
    rw [List.getElem?_take, if_pos (by omega), List.getElem?_take, if_pos h, List.getElem?_drop]
  · rw [if_neg (by omega), if_neg h, List.getElem?_drop]
    congr 1
    omega

/-- The same for an address: `copy` into a nil slice copies nothing. -/
def CopiedOverIP (old now : IP) (data : Bytes) (o n : Nat) : Prop :=
  o + n ≤ data.length ∧ (old = none → now = none) ∧
    ∀ x, old = some x → ∃ y, now = some y ∧ CopiedOver x y data o n

theorem copiedOverIP {old : IP} {data x : Bytes} {o n : Nat} (hl : o + n ≤ data.length) (hx : x = (data.drop o).take n) :
    CopiedOverIP old (overCopyIP old x) data o n := by
  refine ⟨hl, ?_, ?_⟩
  · rintro rfl; rfl
  · rintro y rfl
    exact ⟨_, rfl, copiedOver hl hx⟩

theorem TraceInformation.copied_inv {s : Slice} {o o' : Nat} {r : UInt8 × Bytes}
    (h : TraceInformation.parseCopied s o = .ok (r, o')) :
    r.2 = (s.data.drop (o + 1)).take r.1.toNat ∧ o' = o + 1 + r.1.toNat ∧ o + 1 + r.1.toNat ≤ s.data.length := by
  unfold TraceInformation.parseCopied at h
  obtain ⟨n, o1, h1, hT⟩ := P.bind_inv h; clear h; have h := hT; clear hT
  unfold TraceInformation.parseOctet at h1
  obtain ⟨_, o2, h2, hT⟩ := P.bind_inv h1; clear h1; have h1 := hT; clear hT
  obtain ⟨_, rfl⟩ := P.need_inv h2
  obtain ⟨_, rfl⟩ := P.u8_inv h1
  obtain ⟨_, o3, h3, hT⟩ := P.bind_inv h; clear h; have h := hT; clear hT
  obtain ⟨hl, rfl⟩ := P.need_inv h3
  obtain ⟨x, o4, h4, hT⟩ := P.bind_inv h; clear h; have h := hT; clear hT
  obtain ⟨hx, rfl⟩ := P.bytes_inv h4 hl
  cases h
  exact ⟨hx, rfl, hl⟩

theorem TraceInformation.octet_inv {s : Slice} {o o' : Nat} {r : UInt8} (h : TraceInformation.parseOctet s o = .ok (r, o')) :
    o' = o + 1 := by
  unfold TraceInformation.parseOctet at h
  obtain ⟨_, o2, h2, h1⟩ := P.bind_inv h
  obtain ⟨_, rfl⟩ := P.need_inv h2
  exact (P.u8_inv h1).2

theorem MACAddresses.copied_inv {s : Slice} {o o' : Nat} {r : UInt8 × Bytes}
    (h : MACAddresses.parseCopied s o = .ok (r, o')) :
    r.2 = (s.data.drop o).take r.1.toNat ∧ o' = o ∧ o + r.1.toNat ≤ s.data.length := by
  unfold MACAddresses.parseCopied at h
  obtain ⟨_, o2, h2, hT⟩ := P.bind_inv h; clear h; have h := hT; clear hT
  obtain ⟨_, rfl⟩ := P.need_inv h2
  obtain ⟨n, o1, h1, hT⟩ := P.bind_inv h; clear h; have h := hT; clear hT
  have e : o1 = o2 := by
    unfold P.peek at h1
    cases hx : s.idx (o2 + 0) with
    | panic => rw [hx] at h1; cases h1
    | err e => rw [hx] at h1; cases h1
    | ok x => rw [hx] at h1; cases h1; rfl
  subst e
  obtain ⟨_, o3, h3, hT⟩ := P.bind_inv h; clear h; have h := hT; clear hT
  obtain ⟨hl, rfl⟩ := P.need_inv h3
  obtain ⟨x, o4, h4, hT⟩ := P.bind_inv h; clear h; have h := hT; clear hT
  obtain ⟨hx, rfl⟩ := P.peekBytes_inv h4 hl
  cases h
  exact ⟨hx, rfl, hl⟩

theorem MACAddresses.macs_inv (k : Nat) {s : Slice} {o o' : Nat} {r : List Bytes}
    (h : MACAddresses.parseMacs k s o = .ok (r, o')) : o' = o + 6 * k := by
  induction k generalizing o o' r with
  | zero => unfold MACAddresses.parseMacs at h; cases h; rfl
  | succ k ih =>
    unfold MACAddresses.parseMacs at h
    obtain ⟨m, o1, h1, hT⟩ := P.bind_inv h; clear h; have h := hT; clear hT
    obtain ⟨_, rfl, _⟩ := P.field_inv h1
    obtain ⟨x, o2, h2, hT⟩ := P.bind_inv h; clear h; have h := hT; clear hT
    have := ih h2
    cases h
    omega

end Fields
end Pfcp
