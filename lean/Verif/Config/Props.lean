/- Property theorems about the grouped-type configuration: C11, C47. -/
import Verif.Config.Model

namespace Pfcp
namespace Config

/-! ### Specification: what the documentation says, read off the history alone -/

/-- The function most recently installed, if any. -/
def lastSet : List Call → Option Fun
  | [] => none
  | .add _ :: cs => lastSet cs
  | .set f :: cs => some ((lastSet cs).getD f)

/-- `t` was registered at some point. -/
def Added (t : IEType) (cs : List Call) : Prop := ∃ ts, Call.add ts ∈ cs ∧ t ∈ ts

/-- A user calls `SetIsGroupedFun` only with functions. -/
def Proper (cs : List Call) : Prop := ∀ f, Call.set f ∈ cs → ∃ u, f = .user u

/-! ### Lemmas -/

theorem mem_addGrouped (ks ts : List IEType) (t : IEType) :
    t ∈ ts.foldl (fun ks t => if t ∈ ks then ks else ks ++ [t]) ks ↔ t ∈ ks ∨ t ∈ ts := by
  induction ts generalizing ks with
  | nil => simp
  | cons a ts ih =>
    simp only [List.foldl_cons]
    rw [ih]
    split
    · rename_i h
      constructor
      · rintro (h1 | h1)
        · exact .inl h1
        · exact .inr (List.mem_cons_of_mem _ h1)
      · rintro (h1 | h1)
        · exact .inl h1
        · rcases List.mem_cons.1 h1 with rfl | h2
          · exact .inl h
          · exact .inr h2
    · simp only [List.mem_append, List.mem_cons, List.not_mem_nil, or_false]
      constructor
      · rintro ((h1 | h1) | h1)
        · exact .inl h1
        · exact .inr (.inl h1)
        · exact .inr (.inr h1)
      · rintro (h1 | h1 | h1)
        · exact .inl (.inl h1)
        · exact .inl (.inr h1)
        · exact .inr h1

theorem mem_run (cs : List Call) (s : State) (t : IEType) :
    t ∈ (run s cs).keys ↔ t ∈ s.keys ∨ Added t cs := by
  induction cs generalizing s with
  | nil => simp [run, Added]
  | cons c cs ih =>
    have h : run s (c :: cs) = run (step s c) cs := rfl
    rw [h, ih]
    cases c with
    | add ts =>
      simp only [step, addGrouped]
      rw [mem_addGrouped]
      unfold Added
      constructor
      · rintro ((h1 | h1) | ⟨ts', h1, h2⟩)
        · exact .inl h1
        · exact .inr ⟨ts, List.mem_cons_self, h1⟩
        · exact .inr ⟨ts', List.mem_cons_of_mem _ h1, h2⟩
      · rintro (h1 | ⟨ts', h1, h2⟩)
        · exact .inl (.inl h1)
        · rcases List.mem_cons.1 h1 with h3 | h3
          · cases h3; exact .inl (.inr h2)
          · exact .inr ⟨ts', h3, h2⟩
    | set f =>
      simp only [step, setFun]
      unfold Added
      constructor
      · rintro (h1 | ⟨ts', h1, h2⟩)
        · exact .inl h1
        · exact .inr ⟨ts', List.mem_cons_of_mem _ h1, h2⟩
      · rintro (h1 | ⟨ts', h1, h2⟩)
        · exact .inl h1
        · rcases List.mem_cons.1 h1 with h3 | h3
          · cases h3
          · exact .inr ⟨ts', h3, h2⟩

theorem fn_run (cs : List Call) (s : State) : (run s cs).fn = (lastSet cs).getD s.fn := by
  induction cs generalizing s with
  | nil => rfl
  | cons c cs ih =>
    have h : run s (c :: cs) = run (step s c) cs := rfl
    rw [h, ih]
    cases c with
    | add ts => rfl
    | set f => simp [step, setFun, lastSet]

theorem lastSet_user (cs : List Call) (hp : Proper cs) (f : Fun) (h : lastSet cs = some f) :
    ∃ u, f = .user u := by
  have key : ∀ cs : List Call, ∀ f, lastSet cs = some f → Call.set f ∈ cs := by
    intro cs
    induction cs with
    | nil => intro f h; cases h
    | cons c cs ih =>
      intro f h
      cases c with
      | add ts => exact List.mem_cons_of_mem _ (ih f h)
      | set f' =>
        simp only [lastSet] at h
        cases hl : lastSet cs with
        | none => rw [hl] at h; cases h; exact List.mem_cons_self
        | some f'' =>
          rw [hl] at h
          cases h
          exact List.mem_cons_of_mem _ (ih _ hl)
  exact hp f (key cs f h)

/-! ### C11 -/

/-- C11. After any history of configuration calls, an element counts as grouped exactly when the last
installed function says so or, if none was installed, when its type is a default or was added. -/
theorem C11_grouped_rule (cs : List Call) (hp : Proper cs) (t : IEType) :
    ∃ v, isGrouped (run init cs) t = .ok v ∧
      (v = true ↔
        match lastSet cs with
        | some (.user f) => f t = true
        | _ => t ∈ defaultGroupedTypes ∨ Added t cs) := by
  unfold isGrouped
  rw [fn_run]
  cases hl : lastSet cs with
  | none =>
    refine ⟨_, rfl, ?_⟩
    rw [decide_eq_true_iff, mem_run]
    rfl
  | some f =>
    obtain ⟨u, rfl⟩ := lastSet_user cs hp f hl
    exact ⟨_, rfl, Iff.rfl⟩

/-- C11 (b). Repeating and reordering registrations does not matter: two histories that register the same
types and install the same last function classify every type alike. -/
theorem C11_order_irrelevant (cs cs' : List Call) (hl : lastSet cs = lastSet cs')
    (ha : ∀ t, Added t cs ↔ Added t cs') (t : IEType) :
    isGrouped (run init cs) t = isGrouped (run init cs') t := by
  have hm : t ∈ (run init cs).keys ↔ t ∈ (run init cs').keys := by
    rw [mem_run, mem_run, ha]
  unfold isGrouped
  rw [fn_run, fn_run, hl]
  cases (lastSet cs').getD init.fn with
  | initial => simp only [hm]
  | user f => rfl
  | nil => rfl

/-- What the rule means for registrations made after a function was installed: they have no effect. -/
theorem C11_add_after_set (cs : List Call) (f : IEType → Bool) (ts : List (List IEType)) (t : IEType) :
    isGrouped (run init (cs ++ [.set (.user f)] ++ ts.map .add)) t = .ok (f t) := by
  have : ∀ (ts : List (List IEType)) (s : State), (run s (ts.map .add)).fn = s.fn := by
    intro ts
    induction ts with
    | nil => intro s; rfl
    | cons a ts ih =>
      intro s
      have h : run s ((a :: ts).map Call.add) = run (addGrouped s a) (ts.map Call.add) := rfl
      rw [h, ih]
      rfl
  have hrun : run init (cs ++ [.set (.user f)] ++ ts.map .add)
      = run (setFun (run init cs) (.user f)) (ts.map .add) := by
    simp [run, List.foldl_append, step]
  unfold isGrouped
  rw [hrun, this]
  rfl

/-- Outside the rule: installing a nil function makes every later query, hence every decode, panic. -/
theorem C11_nil_function_panics (cs : List Call) (t : IEType) :
    isGrouped (run init (cs ++ [.set .nil])) t = .panic := by
  unfold isGrouped
  rw [fn_run]
  have : lastSet (cs ++ [Call.set .nil]) = some .nil := by
    induction cs with
    | nil => rfl
    | cons c cs ih =>
      cases c with
      | add ts => exact ih
      | set f => simp only [List.cons_append, lastSet, ih]; rfl
  rw [this]
  rfl

/-- A history meeting the hypotheses: register a vendor type, install a function, register another. -/
example : Proper [.add [0x8001], .set (.user fun t => t == 7), .add [0x8002]] := by
  intro f h
  simp at h
  exact ⟨_, h⟩

example : Added 0x8001 [.add [0x8001]] := ⟨_, List.mem_cons_self, by decide⟩

/-! ### C47 -/

/-- Types for which the package exports a constructor taking child elements: every call of `newGroupedIE` in
/repo/ie/*.go with a literal type, and the types accepted by the accessors of the four constructors that take
the type as a parameter (/repo/ie/update-bar.go:8-33, usage-report.go:8-40, tsc-management-information.go). -/
def groupedConstructors : List IEType := [
  T.AccessAvailabilityControlInformation,
  T.AccessAvailabilityReport,
  T.AdditionalMonitoringTime,
  T.AggregatedURRs,
  T.ApplicationDetectionInformation,
  T.ApplicationIDsPFDs,
  T.ATSSSControlParameters,
  T.ATSSSLLParameters,
  T.ClockDriftControlInformation,
  T.ClockDriftReport,
  T.CreateBAR,
  T.CreateFAR,
  T.CreateMAR,
  T.CreatePDR,
  T.CreateQER,
  T.CreateSRR,
  T.CreateTrafficEndpoint,
  T.CreateURR,
  T.CreatedBridgeInfoForTSC,
  T.CreatedPDR,
  T.CreatedTrafficEndpoint,
  T.DownlinkDataReport,
  T.DuplicatingParameters,
  T.ErrorIndicationReport,
  T.EthernetContextInformation,
  T.EthernetPacketFilter,
  T.EthernetTrafficInformation,
  T.ForwardingParameters,
  T.GTPUPathQoSControlInformation,
  T.GTPUPathQoSReport,
  T.IPMulticastAddressingInfo,
  T.JoinIPMulticastInformationWithinUsageReport,
  T.LeaveIPMulticastInformationWithinUsageReport,
  T.LoadControlInformation,
  T.MPTCPParameters,
  T.NonTGPPAccessForwardingActionInformation,
  T.OverloadControlInformation,
  T.PacketRateStatusReport,
  T.PacketRateStatusReportWithinSessionModificationResponse,
  T.PDI,
  T.PFCPSessionRetentionInformation,
  T.PFDContext,
  T.PMFParameters,
  T.ProvideATSSSControlInformation,
  T.ProvideRDSConfigurationInformation,
  T.QoSInformationInGTPUPathQoSReport,
  T.QoSMonitoringPerQoSFlowControlInformation,
  T.QoSMonitoringReport,
  T.QueryPacketRateStatusWithinSessionModificationRequest,
  T.QueryURR,
  T.RedundantTransmissionForwardingParameters,
  T.RedundantTransmissionParameters,
  T.RemoveBAR,
  T.RemoveFAR,
  T.RemoveMAR,
  T.RemovePDR,
  T.RemoveQER,
  T.RemoveSRR,
  T.RemoveTrafficEndpoint,
  T.RemoveURR,
  T.SessionReport,
  T.TGPPAccessForwardingActionInformation,
  T.TransportDelayReporting,
  T.TSCManagementInformationWithinSessionModificationRequest,
  T.TSCManagementInformationWithinSessionModificationResponse,
  T.TSCManagementInformationWithinSessionReportRequest,
  T.PortManagementInformationForTSCWithinSessionModificationRequest,
  T.PortManagementInformationForTSCWithinSessionModificationResponse,
  T.PortManagementInformationForTSCWithinSessionReportRequest,
  T.UEIPAddressPoolInformation,
  T.UEIPAddressUsageInformation,
  T.UpdateTGPPAccessForwardingActionInformation,
  T.UpdateDuplicatingParameters,
  T.UpdateFAR,
  T.UpdateForwardingParameters,
  T.UpdateMAR,
  T.UpdateNonTGPPAccessForwardingActionInformation,
  T.UpdatePDR,
  T.UpdateQER,
  T.UpdateSRR,
  T.UpdateTrafficEndpoint,
  T.UpdateURR,
  T.UpdatedPDR,
  T.UserPlanePathFailureReport,
  T.UserPlanePathRecoveryReport,
  T.UpdateBARWithinSessionModificationRequest,
  T.UpdateBARWithinSessionReportResponse,
  T.UsageReportWithinSessionDeletionResponse,
  T.UsageReportWithinSessionModificationResponse,
  T.UsageReportWithinSessionReportRequest
]

/-- C47. By default exactly those types are treated as grouped, so what a constructor nests the decoder
un-nests. -/
theorem C47_grouped_constructors (t : IEType) :
    isGrouped init t = .ok true ↔ t ∈ groupedConstructors := by
  have h1 : ∀ t ∈ defaultGroupedTypes, t ∈ groupedConstructors := by decide +kernel
  have h2 : ∀ t ∈ groupedConstructors, t ∈ defaultGroupedTypes := by decide +kernel
  show Res.ok (decide (t ∈ defaultGroupedTypes)) = .ok true ↔ _
  simp only [Res.ok.injEq, decide_eq_true_eq]
  exact ⟨h1 t, h2 t⟩

end Config
end Pfcp
