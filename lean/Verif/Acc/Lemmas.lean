/- Helper lemmas about the accessor interpreter: enough fuel, and the unfolding equation of a call. -/
import Verif.Acc.Model
import Verif.IE.Accept
import Verif.IE.Props

namespace Pfcp

theorem Acc.mem_all (a : Acc) : a ∈ Acc.all := by cases a <;> decide +kernel

/-- A decidable fact about all accessors can be checked over the list. -/
theorem forall_acc {p : Acc → Bool} (h : Acc.all.all p = true) (a : Acc) : p a = true :=
  List.all_eq_true.1 h a (Acc.mem_all a)

/-- The container accessor of every descent returns the children of the element, without further conditions. -/
def viaOk (a : Acc) : Bool :=
  a.table.cases.all fun (t, b) =>
    match b with
    | .leaf _ => true
    | .descend via _ => via.table.pre == 0 &&
      match via.table.cases.lookup t with
      | some (.leaf .ies) => true
      | _ => false

theorem viaOk_all (a : Acc) : viaOk a = true := forall_acc (p := viaOk) (by decide +kernel) a

theorem lookup_mem {β : Type} {l : List (IEType × β)} {t : IEType} {b : β} (h : l.lookup t = some b) : (t, b) ∈ l := by
  induction l with
  | nil => simp at h
  | cons p l ih =>
    obtain ⟨u, c⟩ := p
    rw [List.lookup_cons] at h
    split at h
    · rename_i hu
      have : t = u := by simpa using hu
      cases h
      rw [this]
      exact List.mem_cons_self
    · exact List.mem_cons_of_mem _ (ih h)

theorem via_ies {a : Acc} {t : IEType} {via : Acc} {subs : List (IEType × Acc)}
    (h : a.table.cases.lookup t = some (.descend via subs)) :
    via.table.pre = 0 ∧ via.table.cases.lookup t = some (.leaf .ies) := by
  have h1 := List.all_eq_true.1 (viaOk_all a) _ (lookup_mem h)
  simp only [Bool.and_eq_true, beq_iff_eq] at h1
  refine ⟨h1.1, ?_⟩
  have h2 := h1.2
  revert h2
  split
  · rename_i e
    exact fun _ => e
  · intro h; exact Bool.noConfusion h

theorem skelList_mem {g : IEType → Bool} {cs : List IE} (h : SkelList g cs) {c : IE} (hc : c ∈ cs) : c.Skel g := by
  induction cs with
  | nil => cases hc
  | cons d ds ih =>
    cases hc with
    | head => exact h.1
    | tail _ hc => exact ih h.2 hc

theorem enc_le_encList {g : IEType → Bool} {cs : List IE} {c : IE} (hc : c ∈ cs) :
    (c.enc g).length ≤ (encList g cs).length := by
  induction cs with
  | nil => cases hc
  | cons d ds ih =>
    simp only [encList, List.length_append]
    cases hc with
    | head => omega
    | tail _ hc => have := ih hc; omega

theorem skel_payload {g : IEType → Bool} {c : IE} (h : c.Skel g) : c.payload.length + 4 ≤ (c.enc g).length := by
  obtain ⟨t, len, eid, p, cs⟩ := c
  have h4 := hdrLen_pos t
  simp only [IE.enc, List.length_append, encHdr_length]
  simp only [IE.Skel] at h
  obtain ⟨_, h⟩ := h
  by_cases hg : g t = true
  · rw [if_pos hg] at h ⊢
    rw [← h.1]
    omega
  · rw [if_neg hg]
    omega

/-- The payload of a decoded child is at least four bytes shorter than what it was decoded from. -/
theorem child_payload {g : IEType → Bool} {b : Bytes} {cs : List IE} (h : parseMulti g b = .ok cs) {c : IE}
    (hc : c ∈ cs) : c.payload.length + 4 ≤ b.length := by
  have h1 := skel_payload (skelList_mem (parseMulti_Skel h) hc)
  have h2 := enc_le_encList (g := g) hc
  have h3 := ((parse_sound g b.length).2 b (Nat.le_refl _)).2 cs h
  rw [h3] at h2
  omega

theorem findSub_mem {subs : List (IEType × Acc)} {cs : List IE} {x : IE} {b : Acc} (h : findSub subs cs = some (x, b)) :
    x ∈ cs ∧ subs.lookup x.typ = some b := by
  induction cs with
  | nil => cases h
  | cons c cs ih =>
    simp only [findSub] at h
    split at h
    · rename_i e
      cases h
      exact ⟨List.mem_cons_self, e⟩
    · obtain ⟨h1, h2⟩ := ih h
      exact ⟨List.mem_cons_of_mem _ h1, h2⟩

/-- The value of a container accessor on its own element. -/
theorem run_via {g : IEType → Bool} {mem : IE → Bytes} {via : Acc} {i : IE} (n : Nat) (h0 : via.table.pre = 0)
    (h : via.table.cases.lookup i.typ = some (.leaf .ies)) :
    Acc.run g mem (n + 1) via i = some (parseMulti g i.payload >>= fun v => .ok (.ies v)) := by
  simp only [Acc.run, h0, h]
  rw [if_neg (by omega)]
  rfl

/-- One step of the interpreter, with the container accessor resolved. -/
def Acc.step (g : IEType → Bool) (mem : IE → Bytes) (k : Acc → IE → Option (Res Val)) (a : Acc) (i : IE) :
    Option (Res Val) :=
  if i.payload.length < a.table.pre then some (.err .unexpectedEOF)
  else
    match a.table.cases.lookup i.typ with
    | none => some (.err (.invalidTypeError i.typ))
    | some (.leaf l) => some (l.run g i (mem i))
    | some (.descend _ subs) =>
      match parseMulti g i.payload with
      | .err e => some (.err e)
      | .panic => some .panic
      | .ok cs =>
        match findSub subs cs with
        | none => some (.err .ieNotFound)
        | some (x, b) => k b x

theorem run_step (g : IEType → Bool) (mem : IE → Bytes) (n : Nat) (a : Acc) (i : IE) :
    Acc.run g mem (n + 2) a i = Acc.step g mem (Acc.run g mem (n + 1)) a i := by
  rw [Acc.run]
  unfold Acc.step
  by_cases hp : i.payload.length < a.table.pre
  · rw [if_pos hp, if_pos hp]
  · rw [if_neg hp, if_neg hp]
    match hl : a.table.cases.lookup i.typ with
    | none => rfl
    | some (.leaf l) => rfl
    | some (.descend via subs) =>
      obtain ⟨h0, h1⟩ := via_ies hl
      dsimp only
      rw [run_via n h0 h1]
      cases parseMulti g i.payload <;> rfl

theorem step_congr {g : IEType → Bool} {mem : IE → Bytes} {k k' : Acc → IE → Option (Res Val)} {a : Acc} {i : IE}
    (h : ∀ b x, x.payload.length + 4 ≤ i.payload.length → k b x = k' b x) :
    Acc.step g mem k a i = Acc.step g mem k' a i := by
  unfold Acc.step
  split
  · rfl
  · split
    · rfl
    · rfl
    · split
      · rfl
      · rfl
      · rename_i cs hp
        split
        · rfl
        · rename_i x b hf
          exact h b x (child_payload hp (findSub_mem hf).1)

/-- More fuel than needed changes nothing. -/
theorem run_fuel (g : IEType → Bool) (mem : IE → Bytes) : ∀ (N : Nat) (a : Acc) (i : IE), i.payload.length ≤ N →
    ∀ n m, i.payload.length + 2 ≤ n → i.payload.length + 2 ≤ m → Acc.run g mem n a i = Acc.run g mem m a i := by
  intro N
  induction N using Nat.strongRecOn with
  | ind N ih =>
    intro a i hi n m hn hm
    obtain ⟨n, rfl⟩ : ∃ n', n = n' + 2 := ⟨n - 2, by omega⟩
    obtain ⟨m, rfl⟩ : ∃ m', m = m' + 2 := ⟨m - 2, by omega⟩
    rw [run_step, run_step]
    apply step_congr
    intro b x hx
    exact ih x.payload.length (by omega) b x (Nat.le_refl _) (n + 1) (m + 1) (by omega) (by omega)

/-- The fuel of `Acc.call` is enough: it never runs out. -/
theorem run_total (g : IEType → Bool) (mem : IE → Bytes) : ∀ (N : Nat) (a : Acc) (i : IE), i.payload.length ≤ N →
    Acc.run g mem (i.payload.length + 2) a i = some (Acc.call g mem a i) := by
  intro N
  induction N using Nat.strongRecOn with
  | ind N ih =>
    intro a i hi
    have key : Acc.run g mem (i.payload.length + 2) a i ≠ none := by
      rw [run_step]
      unfold Acc.step
      split
      · simp
      · split
        · simp
        · simp
        · split
          · simp
          · simp
          · rename_i cs hp
            split
            · simp
            · rename_i x b hf
              have hx := child_payload hp (findSub_mem hf).1
              rw [run_fuel g mem x.payload.length b x (Nat.le_refl _) (i.payload.length + 1) (x.payload.length + 2)
                (by omega) (Nat.le_refl _), ih x.payload.length (by omega) b x (Nat.le_refl _)]
              simp
    unfold Acc.call
    split
    · assumption
    · rename_i h; exact absurd h key

/-- The unfolding equation of an accessor call. -/
theorem call_eq (g : IEType → Bool) (mem : IE → Bytes) (a : Acc) (i : IE) :
    Acc.call g mem a i =
      if i.payload.length < a.table.pre then .err .unexpectedEOF
      else
        match a.table.cases.lookup i.typ with
        | none => .err (.invalidTypeError i.typ)
        | some (.leaf l) => l.run g i (mem i)
        | some (.descend _ subs) =>
          match parseMulti g i.payload with
          | .err e => .err e
          | .panic => .panic
          | .ok cs =>
            match findSub subs cs with
            | none => .err .ieNotFound
            | some (x, b) => Acc.call g mem b x := by
  have h := run_total g mem i.payload.length a i (Nat.le_refl _)
  rw [run_step] at h
  have h2 : Acc.step g mem (Acc.run g mem (i.payload.length + 1)) a i
      = Acc.step g mem (fun b x => some (Acc.call g mem b x)) a i := by
    apply step_congr
    intro b x hx
    rw [← run_total g mem x.payload.length b x (Nat.le_refl _)]
    exact run_fuel g mem x.payload.length b x (Nat.le_refl _) _ _ (by omega) (Nat.le_refl _)
  rw [h2] at h
  apply Option.some.inj
  rw [← h]
  unfold Acc.step
  split
  · rfl
  · split
    · rfl
    · rfl
    · split
      · rfl
      · rfl
      · split <;> rfl

end Pfcp
