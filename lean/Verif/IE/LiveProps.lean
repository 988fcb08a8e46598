/- C50: decoding while another goroutine changes the set of grouped types. -/
import Verif.IE.Live
import Verif.Config.Props

namespace Pfcp
namespace Live

/-- `h n` is the configuration in force at the decoder's `n`-th call of `IsGrouped`; between two calls other
goroutines make any number of configuration calls satisfying `ok`. -/
def History (ok : Config.Call → Prop) (h : Nat → Config.State) : Prop :=
  (∃ cs, (∀ c ∈ cs, c ≠ .set .nil ∧ c ≠ .set .initial) ∧ h 0 = Config.run Config.init cs) ∧
  ∀ n, ∃ cs, (∀ c ∈ cs, ok c) ∧ h (n + 1) = Config.run (h n) cs

/-- The answers the decoder sees. -/
def answers (h : Nat → Config.State) : Oracle := fun n t =>
  match Config.isGrouped (h n) t with
  | .ok v => v
  | _ => false

/-- A registration. -/
def IsAdd (c : Config.Call) : Prop := ∃ ts, c = .add ts

/-- An installation of a function. -/
def IsSet (c : Config.Call) : Prop := ∃ f, c = .set (.user f)

theorem run_adds (cs : List Config.Call) (s : Config.State) (hc : ∀ c ∈ cs, IsAdd c) :
    (Config.run s cs).fn = s.fn ∧ ∀ t ∈ s.keys, t ∈ (Config.run s cs).keys := by
  refine ⟨?_, fun t ht => (Config.mem_run cs s t).2 (.inl ht)⟩
  rw [Config.fn_run]
  have : Config.lastSet cs = none := by
    induction cs with
    | nil => rfl
    | cons c cs ih =>
      obtain ⟨ts, rfl⟩ := hc c List.mem_cons_self
      exact ih (fun c hc' => hc c (List.mem_cons_of_mem _ hc'))
  rw [this]; rfl

/-- C50 (safety). While other goroutines only register types, decoding any bytes neither panics nor loops. -/
theorem C50_decode_while_registering_partial (h : Nat → Config.State) (hh : History IsAdd h) (b : Bytes) :
    parseMulti (answers h) b 0 ≠ .panic := by
  have hg : Growing (answers h) := by
    intro n t ht
    obtain ⟨cs, hcs, he⟩ := hh.2 n
    have hr := run_adds cs (h n) hcs
    unfold answers Config.isGrouped at ht ⊢
    rw [he, hr.1]
    cases hf : (h n).fn with
    | initial =>
      rw [hf] at ht
      simp only [decide_eq_true_eq] at ht ⊢
      exact hr.2 t ht
    | user f => rw [hf] at ht; exact ht
    | nil => rw [hf] at ht; cases ht
  exact ((growing_safe hg (2 * b.length + 2)).2 b 0 (Nat.le_refl _)).1

/-- C50 (no change). If nothing changes, the result is the one of that configuration, so the live decoder is
the decoder of the other properties. -/
theorem C50_no_change (s : Config.State) (b : Bytes) :
    (parseMulti (answers fun _ => s) b 0 >>= fun r => .ok r.1)
      = Pfcp.parseMulti (fun t => answers (fun _ => s) 0 t) b := by
  exact (live_const (fun t => answers (fun _ => s) 0 t) (2 * b.length + 2)).2 b 0

/-- The answers of the witness below. -/
def script : Nat → IEType → Bool := fun n t =>
  if n = 1 then false else if n = 5 then false else t == 1 || t == 2

/-- C50 fails when functions are installed while decoding: a received datagram can make the decoder panic. -/
theorem C50_decode_while_setting_violated :
    ∃ h b, History IsSet h ∧ parseMulti (answers h) b 0 = .panic := by
  refine ⟨fun n => ⟨defaultGroupedTypes, .user (script n)⟩, [0, 1, 0, 8, 0, 2, 0, 4, 0, 3, 0, 0], ⟨?_, ?_⟩, ?_⟩
  · exact ⟨[.set (.user (script 0))], by simp, rfl⟩
  · intro n
    exact ⟨[.set (.user (script (n + 1)))], by intro c hc; simp at hc; exact ⟨_, hc⟩, rfl⟩
  · rfl

/-- A history in which the vendor type 0x7fff is registered between the decoder's first two calls. -/
def lateAdd : Nat → Config.State := fun n =>
  if n = 0 then Config.init else Config.addGrouped Config.init [0x7fff]

/-- C50 fails even when types are only registered: the decoded list can be one that no configuration that
was ever in force gives. Here the child of the new grouped type is returned twice, once in the payload of its
parent and once after it. -/
theorem C50_one_configuration_violated :
    ∃ h b is n, History IsAdd h ∧ parseMulti (answers h) b 0 = .ok (is, n) ∧
      ∀ m, Pfcp.parseMulti (fun t => answers h m t) b ≠ .ok is := by
  refine ⟨lateAdd, [0x7f, 0xff, 0, 4, 0, 3, 0, 0],
    [⟨0x7fff, 4, 0, [0, 3, 0, 0], []⟩, ⟨3, 0, 0, [], []⟩], 3, ⟨⟨[], by simp, rfl⟩, ?_⟩, ?_, ?_⟩
  · intro n
    cases n with
    | zero => exact ⟨[.add [0x7fff]], by intro c hc; simp at hc; exact ⟨_, hc⟩, rfl⟩
    | succ n => exact ⟨[], by simp, rfl⟩
  · decide +kernel
  · intro m
    cases m with
    | zero => decide +kernel
    | succ m =>
      have h0 : (fun t => answers lateAdd (m + 1) t) = answers lateAdd 1 := rfl
      rw [h0]
      decide +kernel

end Live
end Pfcp
