/- Facts about the message tables, each checked over the whole (finite) table by evaluation. -/
import Verif.Message.Spec

namespace Pfcp
namespace Kind

theorem names_nodup : ∀ k : Kind, (k.tab.fields.map (·.1)).Nodup := by
  intro k; cases k <;> decide +kernel

theorem lenOrder_eq : ∀ k : Kind, k.tab.lenOrder = k.tab.fields.map (·.1) := by
  intro k; cases k <;> rfl

theorem marshalOrder_eq : ∀ k : Kind, k.tab.marshalOrder = k.tab.fields.map (·.1) := by
  intro k; cases k <;> rfl

theorem switch_names : ∀ k : Kind, k.tab.parseSwitch.map (·.2) = k.tab.fields.map (·.1) := by
  intro k; cases k <;> rfl

theorem switch_types : ∀ k : Kind, ∀ c ∈ k.tab.parseSwitch, c.1 = fieldIE k c.2 := by
  intro k; cases k <;> decide +kernel

theorem switch_nodup : ∀ k : Kind, (k.tab.parseSwitch.map (·.1)).Nodup := by
  intro k; cases k <;> decide +kernel

theorem setLen_eq : ∀ k : Kind, k.tab.setLen = none ∨ k.tab.setLen = some (k.tab.fields.map (·.1)) := by
  intro k; cases k <;> decide +kernel

theorem ctor_eq : ∀ k : Kind, k.tab.ctor = .switch k.tab.parseSwitch ∨
    (k.tab.ctor = .args (k.tab.fields.map (·.1)) ∧ ∀ p ∈ k.tab.fields, p.2 = .one) := by
  intro k; cases k <;> decide +kernel

theorem msgType_assigned : ∀ k : Kind, k ≠ .generic → (k.tab.msgType, k) ∈ assignedKinds := by
  intro k; cases k <;> decide +kernel

end Kind

theorem kindOf_assigned : ∀ c ∈ assignedKinds, kindOf c.1 = c.2 := by decide +kernel

theorem kindOf_unassigned : ∀ t : UInt8, t ∉ assignedKinds.map (·.1) → kindOf t = .generic := by
  apply forall_byte; decide +kernel

theorem kindOf_not_generic : ∀ t : UInt8, t ∈ assignedKinds.map (·.1) → kindOf t ≠ .generic := by
  apply forall_byte; decide +kernel

end Pfcp
