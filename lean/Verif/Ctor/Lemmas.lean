/- Helper lemmas for the constructor theorems. -/
import Verif.Ctor.Model
import Verif.Ctor.Spec
import Verif.Acc.Safe
import Verif.Config.Model

namespace Pfcp
open Fields

theorem IECtor.mem_all (c : IECtor) : c ∈ IECtor.all := by cases c <;> decide +kernel

theorem forall_ctor {p : IECtor → Bool} (h : IECtor.all.all p = true) (c : IECtor) : p c = true :=
  List.all_eq_true.1 h c (IECtor.mem_all c)

/-- No constructor makes an element of a vendor-specific or a grouped type. -/
theorem ctor_plain (c : IECtor) : isVendor c.def.1 = false ∧ c.def.1 ∉ defaultGroupedTypes := by
  have h := forall_ctor (p := fun c => !isVendor c.def.1 && !defaultGroupedTypes.contains c.def.1) (by decide +kernel) c
  simpa using h

/-- An element with a payload of at most 65535 octets survives the wire. -/
theorem new_wire (g : IEType → Bool) (t : IEType) (p rest : Bytes) (hg : g t = false) (hv : isVendor t = false)
    (hp : p.length ≤ 65535) : ∃ b, (IE.new t p).marshal g = .ok b ∧ parse g (b ++ rest) = .ok (IE.new t p) :=
  C01_ie_roundtrip (g := g) _ ((C10_new_partial (g := g) t 0 p (by simpa [hv] using hp) hg).1 hv) rest

/-- A call on a type with a direct case. -/
theorem call_leaf (g : IEType → Bool) (mem : IE → Bytes) (a : Acc) (i : IE) (l : Leaf)
    (h : a.table.cases.lookup i.typ = some (.leaf l)) (hp : a.table.pre ≤ i.payload.length) :
    a.call g mem i = l.run g i (mem i) := by
  rw [call_eq, if_neg (by omega), h]

theorem sub_prefix (p sp : Bytes) (n : Nat) (h : p.length = n) : Slice.sub ⟨p, sp⟩ 0 n = .ok ⟨p, sp⟩ := by
  unfold Slice.sub Slice.cap
  rw [if_pos ⟨by omega, by dsimp only; omega⟩]
  subst h
  simp

theorem u16At_be16 (v : UInt16) (sp : Bytes) : Slice.u16At ⟨be16 v, sp⟩ 0 = .ok v := by
  unfold Slice.u16At
  rw [sub_prefix _ _ (0 + 2) rfl]
  show Res.ok (dec16 (be16 v)) = _
  rw [dec16_be16]
theorem u32At_be32 (v : UInt32) (sp : Bytes) : Slice.u32At ⟨be32 v, sp⟩ 0 = .ok v := by
  unfold Slice.u32At
  rw [sub_prefix _ _ (0 + 4) rfl]
  show Res.ok (dec32 (be32 v)) = _
  rw [dec32_be32]
theorem u64At_be64 (v : UInt64) (sp : Bytes) : Slice.u64At ⟨be64 v, sp⟩ 0 = .ok v := by
  unfold Slice.u64At
  rw [sub_prefix _ _ (0 + 8) rfl]
  show Res.ok (dec64 (be64 v)) = _
  rw [dec64_be64]

theorem valueAsUint8_new (g : IEType → Bool) (t : IEType) (v : UInt8) (hg : g t = false) :
    (IE.new t [v]).valueAsUint8 g = .ok v := by
  unfold IE.valueAsUint8
  rw [show g (IE.new t [v]).typ = false from hg]
  rfl
theorem valueAsUint16_new (g : IEType → Bool) (t : IEType) (v : UInt16) (hg : g t = false) :
    (IE.new t (be16 v)).valueAsUint16 g = .ok v := by
  unfold IE.valueAsUint16
  rw [show g (IE.new t (be16 v)).typ = false from hg]
  show Res.ok (dec16 (be16 v)) = _
  rw [dec16_be16]
theorem valueAsUint32_new (g : IEType → Bool) (t : IEType) (v : UInt32) (hg : g t = false) :
    (IE.new t (be32 v)).valueAsUint32 g = .ok v := by
  unfold IE.valueAsUint32
  rw [show g (IE.new t (be32 v)).typ = false from hg]
  show Res.ok (dec32 (be32 v)) = _
  rw [dec32_be32]
theorem valueAsUint64_new (g : IEType → Bool) (t : IEType) (v : UInt64) (hg : g t = false) :
    (IE.new t (be64 v)).valueAsUint64 g = .ok v := by
  unfold IE.valueAsUint64
  rw [show g (IE.new t (be64 v)).typ = false from hg]
  show Res.ok (dec64 (be64 v)) = _
  rw [dec64_be64]

theorem and_ff (v : UInt8) : v &&& 0xff = v := by
  apply UInt8.toBitVec_inj.1
  show v.toBitVec &&& BitVec.allOnes 8 = _
  exact BitVec.and_allOnes

theorem wireName_length : ∀ ls : List Bytes, ls ≠ [] → (Text.wireName ls).length = (Text.dotted ls).length + 1
  | [l], _ => by simp [Text.wireName, Text.dotted]
  | l :: m :: ls, _ => by
    have h := wireName_length (m :: ls) (by simp)
    have e : Text.dotted (l :: m :: ls) = l ++ 46 :: Text.dotted (m :: ls) := rfl
    rw [e]
    unfold Text.wireName at h ⊢
    rw [List.flatMap_cons, List.length_append, h, List.length_append]
    simp only [List.length_cons]
    omega

/-- The units from the largest to the smallest. -/
def unitsDown : List Int := [36000000000000, 3600000000000, 600000000000, 60000000000, 2000000000]

theorem tmod_zero (d u : Int) : d.tmod u = 0 ↔ d % u = 0 := by
  rw [← Int.dvd_iff_tmod_eq_zero, ← Int.dvd_iff_emod_eq_zero]

theorem timerUnit_eq (d : Int) : timerUnit d = unitsDown.find? (fun u => d % u = 0) := by
  unfold timerUnit
  simp only [tmod_zero]
  rfl

theorem tdiv_mul (k u : Int) (hu : u ≠ 0) : (k * u).tdiv u = k := Int.mul_tdiv_cancel _ hu

/-- Below 32 units, the count survives. -/
theorem unit_back (d u : Int) (hu : 0 < u) (h0 : d % u = 0) : d.tdiv u % 32 * u = d ↔ 0 ≤ d ∧ d ≤ 31 * u := by
  obtain ⟨k, hk⟩ := Int.dvd_of_emod_eq_zero h0
  have e : d.tdiv u = k := by rw [hk, Int.mul_tdiv_cancel_left _ (by omega)]
  rw [e, hk, Int.mul_comm u k]
  constructor
  · intro h
    have := Int.eq_of_mul_eq_mul_right (by omega) h
    exact ⟨Int.mul_nonneg (by omega) (by omega), Int.mul_le_mul_of_nonneg_right (by omega) (by omega)⟩
  · rintro ⟨h1, h2⟩
    have h3 : k ≤ 31 := Int.le_of_mul_le_mul_right h2 hu
    have h4 : 0 ≤ k := Int.nonneg_of_mul_nonneg_left h1 hu
    rw [Int.emod_eq_of_lt h4 (by omega)]

/-- What a timer returns for `d`. -/
def timerBack (d : Int) : Int :=
  match unitsDown.find? (fun u => d % u = 0) with
  | some u => (d.tdiv u % 32) * u
  | none => 2 ^ 63 - 1

theorem timerBack_eq (d : Int) :
    timerBack d = d ↔ (∃ u ∈ unitsDown, ∃ k : Nat, k ≤ 31 ∧ d = k * u) ∨ d = 2 ^ 63 - 1 := by
  unfold timerBack
  cases hf : unitsDown.find? (fun u => d % u = 0) with
  | none =>
    have hn := List.find?_eq_none.1 hf
    simp only [decide_eq_true_eq] at hn
    constructor
    · intro h
      exact .inr h.symm
    · rintro (⟨u, hu, k, _, e⟩ | h)
      · exact absurd (by rw [e]; exact Int.mul_emod_left _ _) (hn u hu)
      · exact h.symm
  | some u =>
    have hu := List.mem_of_find?_eq_some hf
    have h0 : d % u = 0 := by simpa using List.find?_some hf
    have hpos : 0 < u := by
      simp only [unitsDown, List.mem_cons, List.not_mem_nil, or_false] at hu
      omega
    dsimp only
    rw [unit_back d u hpos h0]
    constructor
    · rintro ⟨h1, h2⟩
      obtain ⟨k, hk⟩ := Int.dvd_of_emod_eq_zero h0
      have h4 : 0 ≤ k := Int.nonneg_of_mul_nonneg_right (by omega) hpos
      refine .inl ⟨u, hu, k.toNat, ?_, ?_⟩
      · have h3 : k ≤ 31 := Int.le_of_mul_le_mul_right (a := u) (by rw [Int.mul_comm]; omega) hpos
        omega
      · rw [Int.toNat_of_nonneg h4, hk, Int.mul_comm]
    · rintro (⟨v, hv, k, hk, e⟩ | h)
      · have hvp : 0 < v := by
          simp only [unitsDown, List.mem_cons, List.not_mem_nil, or_false] at hv
          omega
        have h1 : 0 ≤ d := by
          rw [e]
          exact Int.mul_nonneg (by omega) (by omega)
        refine ⟨h1, ?_⟩
        have hvu : v ≤ u := by
          obtain ⟨-, as, bs, hab, has⟩ := List.find?_eq_some_iff_append.1 hf
          have hp : unitsDown.Pairwise (fun x y => y ≤ x) := by decide
          rw [hab] at hp hv
          rcases List.mem_append.1 hv with h | h
          · have h2 := has v h
            rw [e, Int.mul_emod_left] at h2
            simp at h2
          · rcases List.mem_cons.1 h with h | h
            · omega
            · exact (List.pairwise_cons.1 (List.pairwise_append.1 hp).2.1).1 v h
        have h5 : d ≤ 31 * v := by
          rw [e]
          exact Int.mul_le_mul_of_nonneg_right (by omega) (by omega)
        omega
      · rw [h] at h0
        simp only [unitsDown, List.mem_cons, List.not_mem_nil, or_false] at hu
        rcases hu with hu | hu | hu | hu | hu <;> subst hu <;> simp at h0

theorem ofInt8 (n : Nat) : UInt8.ofInt n = UInt8.ofNat n := by
  apply UInt8.toNat_inj.1
  unfold UInt8.ofInt
  rw [UInt8.toNat_ofNat', UInt8.toNat_ofNat']
  omega
theorem ofInt16 (n : Nat) : UInt16.ofInt n = UInt16.ofNat n := by
  apply UInt16.toNat_inj.1
  unfold UInt16.ofInt
  rw [UInt16.toNat_ofNat', UInt16.toNat_ofNat']
  omega
theorem ofInt32 (n : Nat) : UInt32.ofInt n = UInt32.ofNat n := by
  apply UInt32.toNat_inj.1
  unfold UInt32.ofInt
  rw [UInt32.toNat_ofNat', UInt32.toNat_ofNat']
  omega

/-- A duration written as 64 bits is read back, negative or not. -/
theorem nanos_back (d : Int64) : (UInt64.ofInt d.toInt).toInt64.toInt = d.toInt := by
  show ((UInt64.ofInt d.toInt).toBitVec).toInt = d.toBitVec.toInt
  congr 1
  apply BitVec.eq_of_toNat_eq
  unfold UInt64.ofInt
  have h : d.toInt = d.toBitVec.toInt := rfl
  rw [h, BitVec.toInt_eq_toNat_bmod]
  show (UInt64.ofNat _).toNat = d.toBitVec.toNat
  rw [UInt64.toNat_ofNat']
  have h2 := d.toBitVec.isLt
  have h3 : (d.toBitVec.toNat : Int).bmod (2 ^ 64) % 2 ^ 64 = (d.toBitVec.toNat : Int) % 2 ^ 64 := Int.bmod_emod
  rw [h3]
  omega

/-- The element is made, survives the wire, and is read as `w`. -/
theorem reads (g : IEType → Bool) (mem : IE → Bytes) (f : SecondsConv) (c : IECtor) (v w : Val) (rest p : Bytes) (l : Leaf)
    (hb : c.def.2.payload f v = some p) (hg : g c.def.1 = false) (hlen : p.length ≤ 65535)
    (hl : c.acc.table.cases.lookup c.def.1 = some (.leaf l)) (hpre : c.acc.table.pre ≤ p.length)
    (hr : l.run g (IE.new c.def.1 p) (mem (IE.new c.def.1 p)) = .ok w) :
    ∃ i b, c.build f v = some i ∧ i.marshal g = .ok b ∧ parse g (b ++ rest) = .ok i ∧ c.acc.call g mem i = .ok w := by
  obtain ⟨b, h1, h2⟩ := new_wire g c.def.1 p rest hg (ctor_plain c).1 hlen
  refine ⟨IE.new c.def.1 p, b, ?_, h1, h2, ?_⟩
  · unfold IECtor.build
    rw [hb]
    rfl
  · rw [call_leaf g mem c.acc (IE.new c.def.1 p) l hl hpre]
    exact hr

end Pfcp
