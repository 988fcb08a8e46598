/- Helper lemmas about the flag functions. -/
import Verif.Flag.Model
import Verif.Flag.Spec
import Verif.Acc.Props

namespace Pfcp
open Fields

theorem Flag.mem_all (f : Flag) : f ∈ Flag.all := by cases f <;> decide +kernel

/-- A decidable fact about all flag functions can be checked over the list. -/
theorem forall_flag {p : Flag → Bool} (h : Flag.all.all p = true) (f : Flag) : p f = true :=
  List.all_eq_true.1 h f (Flag.mem_all f)

theorem hasBit_eq (n : Nat) (hn : n < 8) (o : UInt8) : hasBit n o = o.toNat.testBit n := by
  have h : ∀ n : Fin 8, ∀ o : Fin 256, hasBit n.val (UInt8.ofNat o.val) = (UInt8.ofNat o.val).toNat.testBit n.val := by
    decide +kernel
  exact forall_byte (p := fun o => hasBit n o = o.toNat.testBit n) (h ⟨n, hn⟩) o

/-- The value of a one-octet accessor. -/
theorem run_u8 (g : IEType → Bool) (i : IE) (sp : Bytes) (hg : g i.typ = false) (hk : 0 < i.payload.length) :
    Leaf.run g .u8 i sp = .ok (.u8 i.payload[0]) := by
  show (i.valueAsUint8 g >>= fun v => Res.ok (Val.u8 v)) = _
  unfold IE.valueAsUint8
  rw [hg, if_neg (by decide), if_neg (by omega)]
  unfold index
  rw [List.getElem?_eq_getElem hk]
  rfl

/-- Elements that have at least two octets by definition. -/
def minOctets (t : IEType) : Nat :=
  if t = T.ReportingTriggers ∨ t = T.UsageReportTrigger ∨ t = T.AdditionalUsageReportsInformation then 2 else 1

/-- The function reads bit `n` of octet `k` of elements of type `t`. -/
def flagOk (t : IEType) (k n : Nat) (f : Flag) : Bool :=
  decide (f.table.pre ≤ k + 1) && decide (n < 8) &&
  match f.rule t with
  | some (.payload m k' (.bit n')) => k' == k && n' == n && decide (m ≤ max (k + 1) (minOctets t))
  | some (.u8 a (.bit n')) => k == 0 && n' == n && decide (a.table.pre ≤ 1) &&
    match a.table.cases.lookup t with
    | some (.leaf .u8) => true
    | _ => false
  | some (.bytes a m k' (.bit n')) => k' == k && n' == n && decide (m ≤ k + 1) &&
    decide (a.table.pre ≤ max (k + 1) (minOctets t)) &&
    match a.table.cases.lookup t with
    | some (.leaf .payload) => true
    | some (.leaf (.payloadMin q)) => decide (q ≤ k + 1)
    | _ => false
  | _ => false

/-- `flagAt` visits the layout. -/
theorem flagAt_mem {t : IEType} {k n : Nat} {f : Flag} (h : flagAt t k n = some f) :
    ∃ octets bits, flagLayout.lookup t = some octets ∧ (t, octets) ∈ flagLayout ∧ octets[k]? = some bits ∧ bits[n]? = some (some f) := by
  unfold flagAt at h
  split at h
  · cases h
  · rename_i octets ho
    split at h
    · cases h
    · rename_i bits hb
      refine ⟨octets, bits, ho, lookup_mem ho, hb, ?_⟩
      cases hn : bits[n]? with
      | none => rw [hn] at h; cases h
      | some x => rw [hn] at h; exact congrArg some h

/-- A check of every entry of the layout. -/
def layoutAll (p : IEType → Nat → Nat → Flag → Bool) : Bool :=
  flagLayout.all fun (t, octets) => (List.range octets.length).all fun k => (List.range 8).all fun n =>
    match flagAt t k n with
    | none => true
    | some f => p t k n f

theorem layout_forall {p : IEType → Nat → Nat → Flag → Bool} (h : layoutAll p = true) {t : IEType} {k n : Nat} {f : Flag}
    (hn : n < 8) (hf : flagAt t k n = some f) : p t k n f = true := by
  obtain ⟨octets, bits, _, hm, hk, _⟩ := flagAt_mem hf
  have h1 := List.all_eq_true.1 h _ hm
  have hk2 : k < octets.length := by
    have := List.getElem?_eq_some_iff.1 hk
    exact this.1
  have h2 := List.all_eq_true.1 (List.all_eq_true.1 h1 k (List.mem_range.2 hk2)) n (List.mem_range.2 hn)
  rw [hf] at h2
  exact h2

end Pfcp
