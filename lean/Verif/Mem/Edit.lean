/- Helper lemmas about editing in the memory model. -/
import Verif.Mem.Lemmas
import Verif.IE.Props

namespace Pfcp
namespace Mem

theorem viewAll_mem {f : Nat → Res IE} {qs : List (Option Nat)} {cs : List IE} (h : viewAll f qs = .ok cs) {c : Nat}
    (hc : some c ∈ qs) : ∃ j, f c = .ok j := by
  induction qs generalizing cs with
  | nil => cases hc
  | cons q qs ih =>
    cases q with
    | none => cases h
    | some q =>
      unfold viewAll at h
      obtain ⟨c', hc', h⟩ := Res.bind_eq_ok.1 h
      obtain ⟨cs', hcs, h⟩ := Res.bind_eq_ok.1 h
      rcases List.mem_cons.1 hc with e | hm
      · cases e; exact ⟨c', hc'⟩
      · exact ih hcs hm

theorem child_view {h : Heap} {n p c : Nat} {i : IE} {x qs} (hv : viewF h (n + 1) p = .ok i) (hx : h.nodes[p]? = some x)
    (hqs : h.ptrs x.kids = .ok qs) (hc : some c ∈ qs) : ∃ j, viewF h n c = .ok j := by
  obtain ⟨m, x', pl, qs', cs, e, hx', hpl, hqs', hcs, rfl⟩ := viewF_some hv
  cases e
  rw [hx'] at hx
  cases hx
  rw [hqs'] at hqs
  cases hqs
  exact viewAll_mem hcs hc

theorem reach_view {h : Heap} {p q : Nat} (hr : Reach h p q) : ∀ {n i}, viewF h n p = .ok i → ∃ j, viewF h n q = .ok j := by
  induction hr with
  | refl p => exact fun hv => ⟨_, hv⟩
  | step hx hqs hc _ ih =>
    intro n i hv
    cases n with
    | zero => cases hv
    | succ n =>
      obtain ⟨j, hj⟩ := child_view hv hx hqs hc
      exact ih (viewF_succ hj)

/-- An element that can be read to the end does not contain itself. -/
theorem acyclic {h : Heap} {n : Nat} : ∀ {p c : Nat} {i : IE} {x qs}, viewF h n p = .ok i → h.nodes[p]? = some x →
    h.ptrs x.kids = .ok qs → some c ∈ qs → ¬ Reach h c p := by
  induction n with
  | zero => intro p c i x qs hv; cases hv
  | succ n ih =>
    intro p c i x qs hv hx hqs hc hr
    obtain ⟨j, hj⟩ := child_view hv hx hqs hc
    obtain ⟨i', hi'⟩ := reach_view hr hj
    exact ih hi' hx hqs hc hr

/-- A struct reads the same in both memories. -/
structure Kept (h h' : Heap) (q : Nat) : Prop where
  node : ∀ x, h.nodes[q]? = some x → h'.nodes[q]? = some x
  read : ∀ x b, h.nodes[q]? = some x → h.read x.payload = .ok b → h'.read x.payload = .ok b
  ptrs : ∀ x qs, h.nodes[q]? = some x → h.ptrs x.kids = .ok qs → h'.ptrs x.kids = .ok qs

theorem view_kept {h h' : Heap} {n : Nat} : ∀ {p i}, (∀ q, Reach h p q → Kept h h' q) → viewF h n p = .ok i →
    viewF h' n p = .ok i := by
  induction n with
  | zero => intro p i _ hv; cases hv
  | succ n ih =>
    intro p i hk hv
    obtain ⟨m, x, pl, qs, cs, e, hx, hpl, hqs, hcs, rfl⟩ := viewF_some hv
    cases e
    have hp := hk p (.refl p)
    exact viewF_intro (hp.node x hx) (hp.read x pl hx hpl) (hp.ptrs x qs hx hqs)
      (viewAll_mono (fun q c hm hc => ih (fun r hr => hk r (.step hx hqs hm hr)) hc) hcs)

theorem Inv.empty (bufs : List Bytes) : Inv ⟨bufs, [], []⟩ :=
  ⟨fun _ _ _ h => by simp at h, fun _ _ _ h => by simp at h, fun _ _ _ _ _ _ h => by simp at h⟩

/-! ### Append -/

/-- The three ways in which `append` changes memory. -/
theorem append_cases {h : Heap} {extra k qs h' k'} (ha : h.append extra k qs = .ok (h', k')) :
    h'.bufs = h.bufs ∧ h'.nodes = h.nodes ∧
    ((qs = [] ∧ h' = h ∧ k' = k) ∨
     (∃ s a, k = some s ∧ h.arrs[s.arr]? = some a ∧ s.len + qs.length ≤ a.length ∧ k' = some ⟨s.arr, s.len + qs.length⟩ ∧
       h'.arrs = h.arrs.set s.arr (a.take s.len ++ qs ++ a.drop (s.len + qs.length))) ∨
     (∃ l, k' = some ⟨h.arrs.length, l⟩ ∧ ∃ a, h'.arrs = h.arrs ++ [a] ∧ l ≤ a.length)) := by
  unfold Heap.append at ha
  split at ha
  · rename_i e; cases ha; exact ⟨rfl, rfl, .inl ⟨e, rfl, rfl⟩⟩
  · split at ha
    · cases ha
      exact ⟨rfl, rfl, .inr (.inr ⟨_, rfl, _, rfl, by simp⟩)⟩
    · split at ha
      · cases ha
      · rename_i a hs
        split at ha
        · rename_i hle
          cases ha
          exact ⟨rfl, rfl, .inr (.inl ⟨_, a, rfl, hs, hle, rfl, rfl⟩)⟩
        · cases ha
          exact ⟨rfl, rfl, .inr (.inr ⟨_, rfl, _, rfl, by simp⟩)⟩

theorem allocArr_ptrs (h : Heap) (qs : List (Option Nat)) (e : Nat) :
    (h.allocArr qs e).1.ptrs (some (h.allocArr qs e).2) = .ok qs := by
  unfold Heap.allocArr Heap.ptrs
  simp

/-- The list after `append`: the old entries, then the new. -/
theorem append_ptrs {h : Heap} {extra k qs ps} (hp : h.ptrs k = .ok ps) :
    ∃ h' k', h.append extra k qs = .ok (h', k') ∧ h'.ptrs k' = .ok (ps ++ qs) := by
  unfold Heap.append
  split
  · rename_i e; subst e; exact ⟨_, _, rfl, by simpa using hp⟩
  · cases k with
    | none =>
      cases hp
      exact ⟨_, _, rfl, allocArr_ptrs _ _ _⟩
    | some s =>
      unfold Heap.ptrs at hp
      dsimp only at hp ⊢
      cases hs : h.arrs[s.arr]? with
      | none => rw [hs] at hp; cases hp
      | some a =>
        rw [hs] at hp
        dsimp only at hp ⊢
        split at hp
        · rename_i hle
          cases hp
          have hlt := (List.getElem?_eq_some_iff.1 hs).1
          split
          · rename_i hfit
            refine ⟨_, _, rfl, ?_⟩
            simp only [Heap.ptrs, List.getElem?_set_self hlt]
            rw [if_pos (by simp; omega)]
            rw [List.take_append_of_le_length (by simp; omega), List.take_of_length_le (by simp; omega)]
          · refine ⟨_, _, rfl, ?_⟩
            exact allocArr_ptrs _ _ _
        · cases hp

/-- `append` on the list of one struct leaves the lists of the others alone. -/
theorem append_other {h : Heap} (inv : Inv h) {extra p x qs h' k'} (hx : h.nodes[p]? = some x)
    (ha : h.append extra x.kids qs = .ok (h', k')) {q : Nat} {y : Node} (hy : h.nodes[q]? = some y) (hq : q ≠ p) {ps}
    (hp : h.ptrs y.kids = .ok ps) : h'.ptrs y.kids = .ok ps := by
  obtain ⟨_, _, hc⟩ := append_cases ha
  cases hk : y.kids with
  | none => rw [hk] at hp; exact hp
  | some l =>
    rw [hk] at hp
    unfold Heap.ptrs at hp ⊢
    dsimp only at hp ⊢
    rcases hc with ⟨_, rfl, _⟩ | ⟨s, a, hs, has, hle, _, he⟩ | ⟨_, _, a, he, _⟩
    · exact hp
    · have hne : s.arr ≠ l.arr := fun e => hq (inv.own p q x y s l hx hy hs hk e).symm
      rw [he, List.getElem?_set_ne hne]
      exact hp
    · obtain ⟨b, hb, _⟩ := inv.kids q y l hy hk
      rw [he, getElem?_append_some hb]
      rw [hb] at hp
      exact hp

theorem setNode_ne (h : Heap) {p q : Nat} (hq : q ≠ p) (x : Node) : (h.setNode p x).nodes[q]? = h.nodes[q]? :=
  List.getElem?_set_ne (fun e => hq e.symm)

theorem setNode_self {h : Heap} {p : Nat} {y : Node} (hy : h.nodes[p]? = some y) (x : Node) :
    (h.setNode p x).nodes[p]? = some x :=
  List.getElem?_set_self (List.getElem?_eq_some_iff.1 hy).1

theorem read_grow {h h' : Heap} (hb : ∀ (a : Nat) b, h.bufs[a]? = some b → h'.bufs[a]? = some b) {w b}
    (hr : h.read w = .ok b) : h'.read w = .ok b := by
  unfold Heap.read at hr ⊢
  cases w with
  | none => exact hr
  | some w =>
    dsimp only at hr ⊢
    cases hc : h.bufs[w.buf]? with
    | none => rw [hc] at hr; cases hr
    | some c => rw [hc] at hr; rw [hb _ _ hc]; exact hr

/-! ### Add -/

/-- The steps of a successful `Add` on a group. -/
theorem add_steps {g extra n} {h h' : Heap} {p qs} (ha : addH g extra n h p qs = .ok h') :
    ∃ x, h.nodes[p]? = some x ∧ (g x.typ = false ∧ h' = h ∨ g x.typ = true ∧ ∃ h1 k ps cs,
      h.append extra x.kids qs = .ok (h1, k) ∧
      (h1.setNode p { x with payload := none, kids := k }).ptrs k = .ok ps ∧
      viewAll (viewF (h1.setNode p { x with payload := none, kids := k }) n) ps = .ok cs ∧
      h' = (h1.allocBuf (encList g cs)).1.setNode p
        { x with payload := some ⟨h1.bufs.length, 0, (encList g cs).length⟩, kids := k,
                 length := UInt16.ofNat ((if isVendor x.typ then 2 else 0) + (encList g cs).length) }) := by
  unfold addH at ha
  split at ha
  · cases ha
  · rename_i x hx
    refine ⟨x, hx, ?_⟩
    cases hg : g x.typ
    · rw [hg] at ha
      cases ha
      exact .inl ⟨rfl, rfl⟩
    · rw [hg] at ha
      simp only [Bool.not_true, Bool.false_eq_true, if_false] at ha
      obtain ⟨⟨h1, k⟩, h1e, ha⟩ := Res.bind_eq_ok.1 ha
      obtain ⟨ps, hps, ha⟩ := Res.bind_eq_ok.1 ha
      obtain ⟨cs, hcs, ha⟩ := Res.bind_eq_ok.1 ha
      rw [serializeLoop_eq] at ha
      simp only [Res.ok_bind, List.nil_append] at ha
      cases ha
      exact .inr ⟨rfl, h1, k, ps, cs, h1e, hps, hcs, rfl⟩

/-- `Add` does not touch any byte array. -/
theorem add_bufs {g extra n} {h h' : Heap} {p qs} (ha : addH g extra n h p qs = .ok h') (a : Nat) (b : Bytes)
    (hb : h.bufs[a]? = some b) : h'.bufs[a]? = some b := by
  obtain ⟨x, hx, ⟨_, rfl⟩ | ⟨_, h1, k, ps, cs, h1e, _, _, rfl⟩⟩ := add_steps ha
  · exact hb
  · show (h1.bufs ++ _)[a]? = _
    rw [(append_cases h1e).1]
    exact getElem?_append_some hb _

/-- `Add` changes no other struct. -/
theorem add_kept {g extra n} {h h' : Heap} (inv : Inv h) {p qs} (ha : addH g extra n h p qs = .ok h') (q : Nat) (hq : q ≠ p) :
    Kept h h' q := by
  obtain ⟨x, hx, ⟨_, rfl⟩ | ⟨_, h1, k, ps, cs, h1e, _, _, he⟩⟩ := add_steps ha
  · exact ⟨fun _ h => h, fun _ _ _ h => h, fun _ _ _ h => h⟩
  · refine ⟨fun y hy => ?_, fun y b hy hr => read_grow (add_bufs ha) hr, fun y l hy hp => ?_⟩
    · rw [he, setNode_ne _ hq]
      show h1.nodes[q]? = _
      rw [(append_cases h1e).2.1, hy]
    · have := append_other inv hx h1e hy hq hp
      rw [he]
      exact this

theorem viewAll_append {f : Nat → Res IE} {ps qs : List (Option Nat)} {cs ds : List IE} (hp : viewAll f ps = .ok cs)
    (hq : viewAll f qs = .ok ds) : viewAll f (ps ++ qs) = .ok (cs ++ ds) := by
  induction ps generalizing cs with
  | nil => cases hp; exact hq
  | cons p ps ih =>
    cases p with
    | none => cases hp
    | some p =>
      unfold viewAll at hp
      obtain ⟨c, hc, hp⟩ := Res.bind_eq_ok.1 hp
      obtain ⟨cs', hcs, hp⟩ := Res.bind_eq_ok.1 hp
      cases hp
      rw [List.cons_append, viewAll, hc, Res.ok_bind, ih hcs]
      rfl

/-- Views of structs from which `p` cannot be reached. -/
theorem viewAll_kept {h h' : Heap} {p n : Nat} {ps : List (Option Nat)} {cs : List IE} (hk : ∀ q, q ≠ p → Kept h h' q)
    (hr : ∀ q, some q ∈ ps → ¬ Reach h q p) (hv : viewAll (viewF h n) ps = .ok cs) : viewAll (viewF h' n) ps = .ok cs :=
  viewAll_mono (fun q _ hm hc => view_kept (fun r hqr => hk r (fun e => hr q hm (e ▸ hqr))) hc) hv

theorem derefAll_some (l : List IE) : derefAll (l.map some) = .ok l := by
  induction l with
  | nil => rfl
  | cons c l ih => rw [List.map_cons, derefAll, ih]; rfl

theorem allocBuf_read (h : Heap) (b : Bytes) (p : Nat) (x : Node) :
    ((h.allocBuf b).1.setNode p x).read (some ⟨h.bufs.length, 0, b.length⟩) = .ok b := by
  simp [Heap.read, Heap.setNode, Heap.allocBuf, slice]

/-- `Add` in memory is `Add` on values, if no new child contains the element. -/
theorem add_refines {g extra n} {h : Heap} (inv : Inv h) {p : Nat} {i : IE} (hv : viewF h n p = .ok i) (hg : g i.typ = true)
    {qs : List (Option Nat)} {new : List IE} (hn : viewAll (viewF h n) qs = .ok new) (hc : ∀ q, some q ∈ qs → ¬ Reach h q p) :
    ∃ h' i', addH g extra n h p qs = .ok h' ∧ i.add g (new.map some) = .ok i' ∧ viewF h' (n + 1) p = .ok i' := by
  obtain ⟨m, x, pl, ps, cs, rfl, hx, hpl, hps, hcs, rfl⟩ := viewF_some hv
  dsimp only at hg
  obtain ⟨h1, k, ha, hptr⟩ := append_ptrs (extra := extra) (qs := qs) hps
  have hreach : ∀ q, some q ∈ ps ++ qs → ¬ Reach h q p := by
    intro q hq
    rcases List.mem_append.1 hq with hq | hq
    · exact acyclic hv hx hps hq
    · exact hc q hq
  have hold : viewAll (viewF h (m + 1)) (ps ++ qs) = .ok (cs ++ new) :=
    viewAll_append (viewAll_mono (fun q c _ hc => viewF_succ hc) hcs) hn
  have hkept : ∀ q, q ≠ p → Kept h (h1.setNode p { x with payload := none, kids := k }) q := by
    intro q hq
    refine ⟨fun y hy => ?_, fun y b hy hr => read_grow (fun a b hb => ?_) hr, fun y l hy hp => ?_⟩
    · rw [setNode_ne _ hq, (append_cases ha).2.1, hy]
    · show h1.bufs[a]? = _
      rw [(append_cases ha).1, hb]
    · exact append_other inv hx ha hy hq hp
  have hmid := viewAll_kept hkept hreach hold
  have hadd : addH g extra (m + 1) h p qs = .ok ((h1.allocBuf (encList g (cs ++ new))).1.setNode p
        { x with payload := some ⟨h1.bufs.length, 0, (encList g (cs ++ new)).length⟩, kids := k,
                 length := UInt16.ofNat ((if isVendor x.typ then 2 else 0) + (encList g (cs ++ new)).length) }) := by
    unfold addH
    rw [hx]
    simp only [hg, Bool.not_true, Bool.false_eq_true, if_false]
    rw [ha, Res.ok_bind]
    dsimp only
    rw [show (h1.setNode p { x with payload := none, kids := k }).ptrs k = .ok (ps ++ qs) from hptr, Res.ok_bind, hmid,
      Res.ok_bind, serializeLoop_eq]
    rfl
  refine ⟨_, ⟨x.typ, UInt16.ofNat ((if isVendor x.typ then 2 else 0) + (encList g (cs ++ new)).length), x.eid,
    encList g (cs ++ new), cs ++ new⟩, hadd, ?_, ?_⟩
  · unfold IE.add
    simp only [hg, Bool.not_true, Bool.false_eq_true, if_false]
    rw [derefAll_some, Res.ok_bind, serializeLoop_eq]
    rfl
  · have hnode : (h1.allocBuf (encList g (cs ++ new))).1.nodes[p]? = some x := by
      show h1.nodes[p]? = _
      rw [(append_cases ha).2.1, hx]
    exact viewF_intro (setNode_self hnode _) (allocBuf_read h1 _ p _) (qs := ps ++ qs) hptr
      (viewAll_kept (add_kept inv hadd) hreach hold)

/-- `Add` maintains the invariant. -/
theorem add_inv {g extra n} {h h' : Heap} (inv : Inv h) {p qs} (ha : addH g extra n h p qs = .ok h') : Inv h' := by
  have hbufs := add_bufs ha
  obtain ⟨x, hx, ⟨_, rfl⟩ | ⟨_, h1, k, ps, cs, h1e, hps, _, he⟩⟩ := add_steps ha
  · exact inv
  have hnodes : ∀ q, q ≠ p → h'.nodes[q]? = h.nodes[q]? := by
    intro q hq
    rw [he, setNode_ne _ hq]
    show h1.nodes[q]? = _
    rw [(append_cases h1e).2.1]
  have hself : h'.nodes[p]? = some ⟨x.typ, UInt16.ofNat ((if isVendor x.typ then 2 else 0) + (encList g cs).length), x.eid,
      some ⟨h1.bufs.length, 0, (encList g cs).length⟩, k⟩ := by
    rw [he]
    refine setNode_self (y := x) ?_ _
    show h1.nodes[p]? = _
    rw [(append_cases h1e).2.1, hx]
  have harr : ∀ s, k = some s → (∃ a, h'.arrs[s.arr]? = some a ∧ s.len ≤ a.length) ∧
      (∀ (q : Nat) y l, q ≠ p → h.nodes[q]? = some y → y.kids = some l → s.arr ≠ l.arr) := by
    intro s hs
    have harrs : h'.arrs = h1.arrs := by rw [he]; rfl
    constructor
    · have hps' : h1.ptrs k = .ok ps := hps
      rw [hs] at hps'
      unfold Heap.ptrs at hps'
      dsimp only at hps'
      rw [harrs]
      split at hps'
      · rename_i a ha'
        split at hps'
        · rename_i hle; exact ⟨a, ha', hle⟩
        · cases hps'
      · cases hps'
    · intro q y l hq hy hl e
      rcases (append_cases h1e).2.2 with ⟨_, _, hk⟩ | ⟨s', a, hk, _, _, hk', _⟩ | ⟨l', hk', a, _, _⟩
      · exact hq (inv.own q p y x l s hy hx hl (hk ▸ hs) e.symm)
      · rw [hk'] at hs
        cases hs
        exact hq (inv.own q p y x l s' hy hx hl hk e.symm)
      · rw [hk'] at hs
        cases hs
        obtain ⟨b, hb, _⟩ := inv.kids q y l hy hl
        have := (List.getElem?_eq_some_iff.1 hb).1
        dsimp only at e
        omega
  have harrs : ∀ (q : Nat) y l, q ≠ p → h.nodes[q]? = some y → y.kids = some l → ∃ a, h'.arrs[l.arr]? = some a ∧ l.len ≤ a.length := by
    intro q y l hq hy hl
    obtain ⟨a, hb, hle⟩ := inv.kids q y l hy hl
    have hp : h.ptrs y.kids = .ok (a.take l.len) := by
      rw [hl]; unfold Heap.ptrs; dsimp only; rw [hb]; dsimp only; rw [if_pos hle]
    have := (add_kept inv ha q hq).ptrs y _ hy hp
    rw [hl] at this
    unfold Heap.ptrs at this
    dsimp only at this
    split at this
    · rename_i a' ha'
      split at this
      · rename_i hle'; exact ⟨a', ha', hle'⟩
      · cases this
    · cases this
  refine ⟨fun q y w hy hw => ?_, fun q y l hy hl => ?_, fun q r y z l l' hy hz hl hl' e => ?_⟩
  · by_cases hq : q = p
    · subst hq
      rw [hself] at hy
      cases hy
      cases hw
      refine ⟨encList g cs, ?_, by dsimp only; omega⟩
      rw [he]
      show (h1.bufs ++ [_])[h1.bufs.length]? = _
      simp
    · rw [hnodes q hq] at hy
      obtain ⟨b, hb, hle⟩ := inv.payload q y w hy hw
      exact ⟨b, hbufs _ _ hb, hle⟩
  · by_cases hq : q = p
    · subst hq
      rw [hself] at hy
      cases hy
      exact (harr l hl).1
    · rw [hnodes q hq] at hy
      exact harrs q y l hq hy hl
  · by_cases hq : q = p
    · by_cases hr : r = p
      · rw [hq, hr]
      · exfalso
        subst hq
        rw [hself] at hy
        cases hy
        rw [hnodes r hr] at hz
        exact (harr l hl).2 r z l' hr hz hl' e
    · by_cases hr : r = p
      · exfalso
        subst hr
        rw [hself] at hz
        cases hz
        rw [hnodes q hq] at hy
        exact (harr l' hl').2 q y l hq hy hl e.symm
      · rw [hnodes q hq] at hy
        rw [hnodes r hr] at hz
        exact inv.own q r y z l l' hy hz hl hl' e

end Mem
end Pfcp
