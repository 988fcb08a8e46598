/-
Property theorems C66 (decoded elements and the receive buffer) and C67 (calls of the library and other people's memory).
-/
import Verif.Mem.Remove
import Verif.Utils

namespace Pfcp
namespace Mem

variable (g : IEType → Bool) (extra : Nat → Nat)

/-! ### C66 -/

/-- C66 (a). Decoding in memory gives the element that the decoder on values gives (or its error), and leaves all byte arrays as
they were. -/
theorem C66_decode (h : Heap) (w : Win) (b : Bytes) (hr : h.read (some w) = .ok b) :
    (∀ i, parse g b = .ok i → ∃ h' p n, parseH g extra h w = .ok (h', p) ∧ viewF h' n p = .ok i ∧ h'.bufs = h.bufs) ∧
    (∀ e, parse g b = .err e → parseH g extra h w = .err e) := by
  have hl := read_length hr
  have hd := (decode g extra (2 * b.length + 1)).1 h w b hr
  unfold parse parseH
  rw [← hl]
  refine ⟨fun i hi => ?_, hd.2⟩
  obtain ⟨hov, h', p, hH, hext, hb, hv⟩ := hd.1 i hi
  have := hv h' b (Ext.same (Ext.refl h')) (hext.read hr)
  rw [hov] at this
  exact ⟨h', p, _, hH, this, hb⟩

/-- C66 (b), exact: after the buffer has been overwritten, the decoded element has the old type, lengths and nesting, and for
payloads whatever is now at their places. -/
theorem C66_reuse_exact (h : Heap) (w : Win) (b : Bytes) (hr : h.read (some w) = .ok b) (i : IE) (hi : parse g b = .ok i)
    (h' : Heap) (p : Nat) (hp : parseH g extra h w = .ok (h', p)) (c b2 : Bytes)
    (hc : (poke h' w.buf c).read (some w) = .ok b2) :
    viewF (poke h' w.buf c) (2 * w.len + 1) p = .ok (over g b2 i) := by
  have hl := read_length hr
  unfold parse at hi
  unfold parseH at hp
  rw [hl] at hi
  obtain ⟨hov, h1, q, hH, hext, hb, hv⟩ := ((decode g extra (2 * w.len + 1)).1 h w b hr).1 i hi
  rw [hH] at hp
  cases hp
  exact hv _ _ ⟨fun _ _ h => h, fun _ _ h => h⟩ hc

theorem over_self (b : Bytes) (i : IE) (hi : parse g b = .ok i) : over g b i = i := by
  have hr : (Heap.mk [b] [] []).read (some ⟨0, 0, b.length⟩) = .ok b := by simp [Heap.read, slice]
  exact (((decode g (fun _ => 0) (2 * b.length + 1)).1 _ _ b hr).1 i hi).1

/-- C66 (c). So the element is unchanged if and only if the bytes of its payload are. -/
theorem C66_unchanged_iff (h : Heap) (w : Win) (b : Bytes) (hr : h.read (some w) = .ok b) (i : IE) (hi : parse g b = .ok i)
    (h' : Heap) (p : Nat) (hp : parseH g extra h w = .ok (h', p)) (c b2 : Bytes)
    (hc : (poke h' w.buf c).read (some w) = .ok b2) :
    viewF (poke h' w.buf c) (2 * w.len + 1) p = .ok i ↔ (b2.drop (hdrLen i.typ)).take i.payload.length = i.payload := by
  rw [C66_reuse_exact g extra h w b hr i hi h' p hp c b2 hc]
  have hs := over_self g b i hi
  obtain ⟨t, l, e, pl, cs⟩ := i
  constructor
  · intro h
    rw [Res.ok.injEq, over] at h
    injection h
  · intro h
    rw [over] at hs
    injection hs with _ _ _ h1 h2
    dsimp only at h
    rw [Res.ok.injEq, over, h]
    rw [h1] at h2
    rw [h2]

/-- C66 is false: whatever element with a payload is decoded from the start of a receive buffer, the next datagram of that size
can change it. -/
theorem C66_reuse_violated (buf : Bytes) (i : IE) (hi : parse g buf = .ok i) (hne : i.payload ≠ []) :
    ∃ h' p n next, parseH g extra ⟨[buf], [], []⟩ ⟨0, 0, buf.length⟩ = .ok (h', p) ∧ viewF h' n p = .ok i ∧
      next.length = buf.length ∧ ∃ j, viewF (poke h' 0 next) n p = .ok j ∧ j ≠ i := by
  have hr : (Heap.mk [buf] [] []).read (some ⟨0, 0, buf.length⟩) = .ok buf := by simp [Heap.read, slice]
  unfold parse at hi
  obtain ⟨hov, h', p, hH, hext, hb, hv⟩ := ((decode g extra (2 * buf.length + 1)).1 _ _ buf hr).1 i hi
  refine ⟨h', p, 2 * buf.length + 1, buf.map (fun x => ~~~ x), hH, ?_, by simp, ?_⟩
  · have := hv h' buf (Ext.same (Ext.refl h')) (hext.read hr)
    rwa [hov] at this
  · have hr2 : (poke h' 0 (buf.map (fun x => ~~~ x))).read (some ⟨0, 0, buf.length⟩) = .ok (buf.map (fun x => ~~~ x)) := by
      simp only [Heap.read, poke, hb, List.set_cons_zero, List.getElem?_cons_zero, slice]
      rw [if_pos (by simp)]
      simp [List.take_of_length_le]
    refine ⟨_, hv _ _ ⟨fun _ _ h => h, fun _ _ h => h⟩ hr2, fun he => ?_⟩
    obtain ⟨t, l, e, pl, cs⟩ := i
    dsimp only at hne
    rw [over] at hov he
    injection hov with _ _ _ h1 _
    injection he with _ _ _ h2 _
    rw [← List.map_drop, ← List.map_take, h1] at h2
    cases pl with
    | nil => exact hne rfl
    | cons x xs =>
      rw [List.map_cons] at h2
      injection h2 with h2 _
      exact absurd h2 (forall_byte (p := fun x => decide (~~~ x ≠ x)) (by decide +kernel) x |> of_decide_eq_true)

/-- The first half of C66 that does hold: type, length fields, enterprise ID and the number of children are not affected. -/
theorem C66_shape_partial (b : Bytes) (i : IE) :
    (over g b i).typ = i.typ ∧ (over g b i).length = i.length ∧ (over g b i).eid = i.eid ∧
      (over g b i).children.map (·.typ) = i.children.map (·.typ) := by
  have hl : ∀ (cs : List IE) (b : Bytes), (overList g b cs).map (·.typ) = cs.map (·.typ) := by
    intro cs
    induction cs with
    | nil => intro b; rfl
    | cons c cs ih =>
      intro b
      rw [overList, List.map_cons, List.map_cons, ih]
      obtain ⟨t, l, e, pl, ds⟩ := c
      rfl
  obtain ⟨t, l, e, pl, cs⟩ := i
  exact ⟨rfl, rfl, rfl, hl cs _⟩

/-- After the reuse a grouped element can contradict itself: its payload no longer decodes to its children. Here a Create FAR
holding a FAR ID, after the buffer was filled with a Create FAR holding a BAR ID. -/
theorem C66_group_violated : ∃ h' p j,
    parseH (defaultGroupedTypes.contains ·) (fun _ => 0) ⟨[[0, 3, 0, 8, 0, 108, 0, 4, 0, 0, 0, 1]], [], []⟩ ⟨0, 0, 12⟩ = .ok (h', p) ∧
    viewF (poke h' 0 [0, 3, 0, 8, 0, 88, 0, 4, 9, 9, 9, 9]) 9 p = .ok j ∧
    parseMulti (defaultGroupedTypes.contains ·) j.payload = .ok [⟨T.BARID, 4, 0, [9, 9, 9, 9], []⟩] ∧
    j.children = [⟨T.FARID, 4, 0, [9, 9, 9, 9], []⟩] := by
  refine ⟨⟨[[0, 3, 0, 8, 0, 108, 0, 4, 0, 0, 0, 1]], [[some 0]], [⟨T.FARID, 4, 0, some ⟨0, 8, 4⟩, none⟩, ⟨T.CreateFAR, 8, 0, some ⟨0, 4, 8⟩, some ⟨0, 1⟩⟩]⟩,
    1, ⟨T.CreateFAR, 8, 0, [0, 88, 0, 4, 9, 9, 9, 9], [⟨T.FARID, 4, 0, [9, 9, 9, 9], []⟩]⟩, ?_, ?_, ?_, rfl⟩
  · decide +kernel
  · decide +kernel
  · decide +kernel

/-- `New` keeps the slice it is given: what the caller writes there later is in the element. -/
theorem C66_new (h : Heap) (t : IEType) (eid : UInt16) (w : Win) (b : Bytes) (hr : h.read (some w) = .ok b) :
    viewF (newH h t eid w).1 1 (newH h t eid w).2 = .ok (IE.newVendor t eid b) ∧
    ∀ c b2, (poke h w.buf c).read (some w) = .ok b2 →
      viewF (poke (newH h t eid w).1 w.buf c) 1 (newH h t eid w).2 = .ok (IE.newVendor t eid b2) := by
  have hn : ∀ h2 : Heap, h2.nodes = (newH h t eid w).1.nodes → ∀ b2, h2.read (some w) = .ok b2 →
      viewF h2 1 (newH h t eid w).2 = .ok (IE.newVendor t eid b2) := by
    intro h2 hnodes b2 hr2
    have hx : h2.nodes[(newH h t eid w).2]? = some ⟨t, UInt16.ofNat ((if isVendor t then 2 else 0) + w.len), eid, some w, none⟩ := by
      rw [hnodes]; exact allocNode_get h _
    refine (viewF_intro (m := 0) hx hr2 (qs := []) (cs := []) rfl rfl).trans ?_
    rw [← read_length hr2]
    rfl
  exact ⟨hn _ rfl b hr, fun c b2 hr2 => hn (poke (newH h t eid w).1 w.buf c) rfl b2 hr2⟩

-- a receive buffer holding a Recovery Time Stamp, as the theorems ask for
example : (Heap.mk [[0, 96, 0, 4, 1, 2, 3, 4]] [] []).read (some ⟨0, 0, 8⟩) = .ok [0, 96, 0, 4, 1, 2, 3, 4] ∧
    parse (defaultGroupedTypes.contains ·) [0, 96, 0, 4, 1, 2, 3, 4] = .ok ⟨T.RecoveryTimeStamp, 4, 0, [1, 2, 3, 4], []⟩ := by
  decide +kernel

/-! ### C67 -/

theorem run_grow (n : Nat) {h h' : Heap} {o : Op} (hr : o.run g extra n h = .ok h') :
    (∀ (a : Nat) b, h.bufs[a]? = some b → h'.bufs[a]? = some b) ∧
    (Inv h → o.inside h → Inv h' ∧ ∀ q, o.target ≠ some q → Kept h h' q) := by
  cases o with
  | parse w =>
    dsimp only [Op.run] at hr
    cases hp : parseH g extra h w with
    | ok r =>
      rw [hp] at hr
      cases hr
      obtain ⟨he, hb, hi⟩ := (decode_grow g extra (2 * w.len + 1)).1 h w r.1 r.2 hp
      exact ⟨he.bufs, fun inv _ => ⟨hi inv, fun q _ => ⟨he.nodes q, fun _ _ _ h => he.read h, fun _ _ _ h => he.ptrs h⟩⟩⟩
    | err e => rw [hp] at hr; cases hr; exact ⟨fun _ _ h => h, fun inv _ => ⟨inv, fun q _ => ⟨fun _ h => h, fun _ _ _ h => h, fun _ _ _ h => h⟩⟩⟩
    | panic => rw [hp] at hr; cases hr
  | new t eid w =>
    cases hr
    have he : Ext h (newH h t eid w).1 := Ext.allocNode h _
    refine ⟨he.bufs, fun inv hin => ⟨alloc_inv inv extra [] _ _ _ _ (fun w' hw' => ?_),
      fun q _ => ⟨he.nodes q, fun _ _ _ h => he.read h, fun _ _ _ h => he.ptrs h⟩⟩⟩
    cases hw'
    exact hin
  | group t eid qs =>
    dsimp only [Op.run] at hr
    cases hp : newGroupedH g extra n h t eid qs with
    | ok r =>
      rw [hp] at hr
      cases hr
      unfold newGroupedH at hp
      obtain ⟨cs, hcs, hp⟩ := Res.bind_eq_ok.1 hp
      rw [serializeLoop_eq, Res.ok_bind] at hp
      cases hp
      have he : Ext h ((listOf (h.allocBuf ([] ++ encList g cs)).1 extra (qs.filterMap id)).1.allocNode
        ⟨t, UInt16.ofNat ((if isVendor t then 2 else 0) + ([] ++ encList g cs).length), eid, some (h.allocBuf ([] ++ encList g cs)).2,
          (listOf (h.allocBuf ([] ++ encList g cs)).1 extra (qs.filterMap id)).2⟩).1 :=
        ((Ext.allocBuf h _).trans (Ext.listOf _ extra _)).trans (Ext.allocNode _ _)
      refine ⟨he.bufs, fun inv _ => ⟨?_, fun q _ => ⟨he.nodes q, fun _ _ _ h => he.read h, fun _ _ _ h => he.ptrs h⟩⟩⟩
      refine alloc_inv (h := (h.allocBuf ([] ++ encList g cs)).1) ?_ extra _ _ _ _ _ (fun w hw => ?_)
      · refine ⟨fun p x w hx hw => ?_, inv.kids, inv.own⟩
        obtain ⟨b, hb, hle⟩ := inv.payload p x w hx hw
        exact ⟨b, getElem?_append_some hb _, hle⟩
      · cases hw
        refine ⟨[] ++ encList g cs, ?_, by show 0 + ([] ++ encList g cs).length ≤ _; omega⟩
        show (h.bufs ++ [_])[h.bufs.length]? = _
        simp
    | err e => rw [hp] at hr; cases hr; exact ⟨fun _ _ h => h, fun inv _ => ⟨inv, fun q _ => ⟨fun _ h => h, fun _ _ _ h => h, fun _ _ _ h => h⟩⟩⟩
    | panic => rw [hp] at hr; cases hr
  | add p qs =>
    exact ⟨add_bufs hr, fun inv _ => ⟨add_inv inv hr, fun q hq => add_kept inv hr q (fun e => hq (e ▸ rfl))⟩⟩
  | remove p typ =>
    exact ⟨(remove_grow hr).1, fun inv _ => ⟨remove_inv inv hr, fun q hq => remove_kept hr q (fun e => hq (e ▸ rfl))⟩⟩

/-- C67 (a). No sequence of calls of the library changes a byte of any byte array that existed before: not the receive buffer,
not slices of the caller, not the payload of another element. -/
theorem C67_no_writes (n : Nat) (ops : List Op) (h h' : Heap) (hr : runAll g extra n h ops = .ok h') (a : Nat) (b : Bytes)
    (hb : h.bufs[a]? = some b) : h'.bufs[a]? = some b := by
  induction ops generalizing h with
  | nil => cases hr; exact hb
  | cons o os ih =>
    obtain ⟨h1, h1e, hr⟩ := Res.bind_eq_ok.1 hr
    exact ih h1 hr ((run_grow g extra n h1e).1 a b hb)

/-- Each slice that a call of the history keeps lies inside its array. -/
def insideAll (n : Nat) : Heap → List Op → Prop
  | _, [] => True
  | h, o :: os => o.inside h ∧ ∀ h', o.run g extra n h = .ok h' → insideAll n h' os

theorem reach_back {h h' : Heap} {r : Nat} (hk : ∀ q, Reach h r q → Kept h h' q) {n : Nat} {j : IE} (hv : viewF h n r = .ok j)
    {q : Nat} (hr : Reach h' r q) : Reach h r q := by
  induction hr generalizing n j with
  | refl p => exact .refl p
  | @step p c q x qs hx hqs hc _ ih =>
    obtain ⟨m, y, pl, ps, cs, rfl, hy, hpl, hps, hcs, rfl⟩ := viewF_some hv
    have hp := hk p (.refl p)
    have hxy : y = x := Option.some.inj ((hp.node y hy).symm.trans hx)
    subst hxy
    have hps' : ps = qs := Res.ok.inj ((hp.ptrs y ps hy hps).symm.trans hqs)
    subst hps'
    obtain ⟨j, hj⟩ := viewAll_mem hcs hc
    exact .step hy hps hc (ih (fun q hq => hk q (.step hy hps hc hq)) hj)

/-- C67 (b). An element that no call of the history edits, in itself or anywhere inside, reads the same afterwards. -/
theorem C67_others (n : Nat) (ops : List Op) (h h' : Heap) (inv : Inv h) (hin : insideAll g extra n h ops)
    (hr : runAll g extra n h ops = .ok h') (r m : Nat) (j : IE) (hv : viewF h m r = .ok j)
    (hsep : ∀ o ∈ ops, ∀ p, o.target = some p → ¬ Reach h r p) : viewF h' m r = .ok j ∧ Inv h' := by
  induction ops generalizing h with
  | nil => cases hr; exact ⟨hv, inv⟩
  | cons o os ih =>
    obtain ⟨h1, h1e, hr⟩ := Res.bind_eq_ok.1 hr
    obtain ⟨inv1, hk⟩ := (run_grow g extra n h1e).2 inv hin.1
    have hkept : ∀ q, Reach h r q → Kept h h1 q := fun q hq => hk q (fun e => hsep o List.mem_cons_self q e hq)
    exact ih h1 inv1 (hin.2 h1 h1e) hr (view_kept hkept hv)
      (fun o' ho' p hp hreach => hsep o' (List.mem_cons_of_mem _ ho') p hp (reach_back hkept hv hreach))

/-- C67 (c). `Add` in memory does what `Add` on values does, whichever way the run-time system grows arrays. -/
theorem C67_add (n : Nat) (h : Heap) (inv : Inv h) (p : Nat) (i : IE) (hv : viewF h n p = .ok i) (hg : g i.typ = true)
    (qs : List (Option Nat)) (new : List IE) (hn : viewAll (viewF h n) qs = .ok new) (hc : ∀ q, some q ∈ qs → ¬ Reach h q p) :
    ∃ h' i', addH g extra n h p qs = .ok h' ∧ i.add g (new.map some) = .ok i' ∧ viewF h' (n + 1) p = .ok i' :=
  add_refines inv hv hg hn hc

/-- C67 (d). So does `Remove`. -/
theorem C67_remove (n : Nat) (h : Heap) (p : Nat) (i : IE) (hv : viewF h n p = .ok i) (hg : g i.typ = true) (typ : IEType) :
    ∃ h' i', removeH g n h p typ = .ok h' ∧ i.remove g typ = .ok i' ∧ viewF h' n p = .ok i' :=
  remove_refines hv hg typ

/-- C67 (e). A grouped element made in memory denotes the element made of the values of its arguments (nil skipped), and shares
its children with the caller. -/
theorem C67_group (n : Nat) (h : Heap) (t : IEType) (eid : UInt16) (qs : List (Option Nat)) (cs : List IE)
    (hc : viewAll (viewF h n) (qs.filter (·.isSome)) = .ok cs) :
    ∃ h' r i, newGroupedH g extra n h t eid qs = .ok (h', r) ∧ newGrouped g t eid (cs.map some) = .ok (some i) ∧
      viewF h' (n + 1) r = .ok i ∧ h'.ptrs (kidsOf h' r) = .ok (qs.filter (·.isSome)) := by
  have hq : (qs.filterMap id).map some = qs.filter (·.isSome) := by
    clear hc
    induction qs with
    | nil => rfl
    | cons q qs ih => cases q <;> simp_all
  have hcs : (cs.map some).filterMap id = cs := by
    clear hc
    induction cs with
    | nil => rfl
    | cons c cs ih => simp
  have hext : Ext h ((listOf (h.allocBuf (encList g cs)).1 extra (qs.filterMap id)).1.allocNode
        ⟨t, UInt16.ofNat ((if isVendor t then 2 else 0) + (encList g cs).length), eid, some (h.allocBuf (encList g cs)).2,
          (listOf (h.allocBuf (encList g cs)).1 extra (qs.filterMap id)).2⟩).1 :=
        ((Ext.allocBuf h _).trans (Ext.listOf _ extra _)).trans (Ext.allocNode _ _)
  have hptr : ((listOf (h.allocBuf (encList g cs)).1 extra (qs.filterMap id)).1).ptrs
      (listOf (h.allocBuf (encList g cs)).1 extra (qs.filterMap id)).2 = .ok (qs.filter (·.isSome)) := by
    rw [listOf_ptrs, hq]
  refine ⟨((listOf (h.allocBuf (encList g cs)).1 extra (qs.filterMap id)).1.allocNode
        ⟨t, UInt16.ofNat ((if isVendor t then 2 else 0) + (encList g cs).length), eid, some (h.allocBuf (encList g cs)).2,
          (listOf (h.allocBuf (encList g cs)).1 extra (qs.filterMap id)).2⟩).1,
    (listOf (h.allocBuf (encList g cs)).1 extra (qs.filterMap id)).1.nodes.length,
    ⟨t, UInt16.ofNat ((if isVendor t then 2 else 0) + (encList g cs).length), eid, encList g cs, cs⟩, ?_, ?_, ?_, ?_⟩
  · unfold newGroupedH
    rw [hc, Res.ok_bind, serializeLoop_eq]
    rfl
  · simp [newGrouped, newGroupedLoop_eq, IE.newVendor, IE.setLength, hcs]
  · refine viewF_intro (allocNode_get _ _) ?_ (qs := qs.filter (·.isSome)) ?_ ?_
    · have : (h.allocBuf (encList g cs)).1.read (some (h.allocBuf (encList g cs)).2) = .ok (encList g cs) := by
        simp [Heap.read, Heap.allocBuf, slice]
      exact ((Ext.listOf _ extra _).trans (Ext.allocNode _ _)).read this
    · exact (Ext.allocNode _ _).ptrs hptr
    · exact viewAll_mono (fun q c _ hv => view_kept (fun q' _ => ⟨hext.nodes q', fun _ _ _ h => hext.read h, fun _ _ _ h => hext.ptrs h⟩) hv) hc
  · have : kidsOf ((listOf (h.allocBuf (encList g cs)).1 extra (qs.filterMap id)).1.allocNode
        ⟨t, UInt16.ofNat ((if isVendor t then 2 else 0) + (encList g cs).length), eid, some (h.allocBuf (encList g cs)).2,
          (listOf (h.allocBuf (encList g cs)).1 extra (qs.filterMap id)).2⟩).1
        (listOf (h.allocBuf (encList g cs)).1 extra (qs.filterMap id)).1.nodes.length =
        (listOf (h.allocBuf (encList g cs)).1 extra (qs.filterMap id)).2 := by
      unfold kidsOf
      refine (congrArg (Option.bind · (·.kids)) (allocNode_get _ _)).trans ?_
      rfl
    exact (congrArg _ this).trans ((Ext.allocNode _ _).ptrs hptr)

theorem slice_no_err (b : Bytes) (lo hi : Nat) (e : GoErr) : slice b lo hi ≠ .err e := by
  unfold slice
  split <;> intro h <;> cases h

theorem viewAll_no_err {f : Nat → Res IE} (hf : ∀ q e, f q ≠ .err e) : ∀ qs e, viewAll f qs ≠ .err e := by
  intro qs
  induction qs with
  | nil => intro e h; cases h
  | cons q qs ih =>
    cases q with
    | none => intro e h; cases h
    | some q =>
      intro e h
      unfold viewAll at h
      rcases Res.bind_eq_err.1 h with h | ⟨c, _, h⟩
      · exact hf q e h
      · rcases Res.bind_eq_err.1 h with h | ⟨c, _, h⟩
        · exact ih e h
        · cases h

theorem viewF_no_err (h : Heap) : ∀ (n p : Nat) (e : GoErr), viewF h n p ≠ .err e := by
  intro n
  induction n with
  | zero => intro p e hh; cases hh
  | succ n ih =>
    intro p e hh
    unfold viewF at hh
    split at hh
    · cases hh
    · rename_i x _
      rcases Res.bind_eq_err.1 hh with hh | ⟨pl, _, hh⟩
      · unfold Heap.read at hh
        split at hh
        · cases hh
        · split at hh
          · exact slice_no_err _ _ _ _ hh
          · cases hh
      · rcases Res.bind_eq_err.1 hh with hh | ⟨qs, _, hh⟩
        · unfold Heap.ptrs at hh
          split at hh
          · cases hh
          · split at hh
            · split at hh <;> cases hh
            · cases hh
        · rcases Res.bind_eq_err.1 hh with hh | ⟨cs, _, hh⟩
          · exact viewAll_no_err ih _ _ hh
          · cases hh

theorem add_no_err (n : Nat) (h : Heap) (p : Nat) (qs : List (Option Nat)) (e : GoErr) : addH g extra n h p qs ≠ .err e := by
  intro hh
  unfold addH at hh
  split at hh
  · cases hh
  · split at hh
    · cases hh
    · rcases Res.bind_eq_err.1 hh with hh | ⟨r, _, hh⟩
      · unfold Heap.append at hh
        split at hh
        · cases hh
        · split at hh
          · cases hh
          · split at hh
            · cases hh
            · split at hh <;> cases hh
      · rcases Res.bind_eq_err.1 hh with hh | ⟨ps, _, hh⟩
        · unfold Heap.ptrs at hh
          split at hh
          · cases hh
          · split at hh
            · split at hh <;> cases hh
            · cases hh
        · rcases Res.bind_eq_err.1 hh with hh | ⟨cs, _, hh⟩
          · exact viewAll_no_err (viewF_no_err _ n) _ _ hh
          · rw [serializeLoop_eq] at hh
            cases hh

/-- Paths to `p` survive an edit of `p`. -/
theorem reach_to {h h' : Heap} {p q : Nat} (hk : ∀ q, q ≠ p → Kept h h' q) (hr : Reach h q p) : Reach h' q p := by
  induction hr with
  | refl => exact .refl _
  | @step q c p x qs hx hqs hc _ ih =>
    by_cases e : q = p
    · subst e; exact .refl _
    · exact .step ((hk q e).node x hx) ((hk q e).ptrs x qs hx hqs) hc (ih hk)

/-- C67 (f). Exactly when `Add` returns: no new child may be the element or contain it. Otherwise the program dies of a stack
overflow, however large the stack. -/
theorem C67_add_exact (n : Nat) (h : Heap) (inv : Inv h) (p : Nat) (i : IE) (hv : viewF h n p = .ok i) (hg : g i.typ = true)
    (qs : List (Option Nat)) (new : List IE) (hn : viewAll (viewF h n) qs = .ok new) :
    (∃ q, some q ∈ qs ∧ Reach h q p) ↔ ∀ m, addH g extra m h p qs = .panic := by
  constructor
  · rintro ⟨q, hq, hr⟩ m
    cases ha : addH g extra m h p qs with
    | panic => rfl
    | err e => exact absurd ha (add_no_err g extra m h p qs e)
    | ok h' =>
      exfalso
      obtain ⟨d, x', pl, ps0, cs0, rfl, hx, hpl, hps, hcs, rfl⟩ := viewF_some hv
      obtain ⟨x, hx2, ⟨hg2, rfl⟩ | ⟨_, h1, k, ps, cs, h1e, hp, hvs, _⟩⟩ := add_steps ha
      · rw [hx] at hx2
        cases hx2
        exact absurd (hg2.symm.trans hg) (by decide)
      · rw [hx] at hx2
        cases hx2
        obtain ⟨h2, k2, hap, hptr⟩ := append_ptrs (extra := extra) (qs := qs) hps
        rw [h1e] at hap
        cases hap
        have hps' : ps = ps0 ++ qs := by
          have : Res.ok ps = Res.ok (ps0 ++ qs) := hp.symm.trans hptr
          cases this; rfl
        subst hps'
        have hkept : ∀ q, q ≠ p → Kept h (h1.setNode p ⟨x'.typ, x'.length, x'.eid, none, k⟩) q := by
          intro q hq
          refine ⟨fun y hy => ?_, fun y b hy hr => read_grow (fun a b hb => ?_) hr, fun y l hy hp => ?_⟩
          · rw [setNode_ne _ hq, (append_cases h1e).2.1, hy]
          · show h1.bufs[a]? = _
            rw [(append_cases h1e).1, hb]
          · exact append_other inv hx h1e hy hq hp
        have hnode : (h1.setNode p ⟨x'.typ, x'.length, x'.eid, none, k⟩).nodes[p]? = some ⟨x'.typ, x'.length, x'.eid, none, k⟩ :=
          setNode_self ((congrArg (·[p]?) (append_cases h1e).2.1).trans hx) _
        have hmem : some q ∈ ps0 ++ qs := List.mem_append.2 (.inr hq)
        obtain ⟨j, hj⟩ := viewAll_mem hvs hmem
        have hr' := reach_to hkept hr
        obtain ⟨i', hi'⟩ := reach_view hr' hj
        exact acyclic hi' hnode hp hmem hr'
  · intro hp
    apply Classical.byContradiction
    intro hne
    obtain ⟨h', i', ha, _⟩ := add_refines (extra := extra) inv hv hg hn (fun q hq hr => hne ⟨q, hq, hr⟩)
    rw [hp n] at ha
    cases ha

/-- A leaf of type 56, one of type 57 and one of type 58, and a group of type 1 that holds the first. -/
def sample : Heap where
  bufs := [[0, 7], [9], [5, 5, 5], [0, 56, 0, 2, 0, 7]]
  arrs := [[some 0, none]]
  nodes := [⟨56, 2, 0, some ⟨0, 0, 2⟩, none⟩, ⟨57, 1, 0, some ⟨1, 0, 1⟩, none⟩, ⟨58, 3, 0, some ⟨2, 0, 3⟩, none⟩,
    ⟨1, 6, 0, some ⟨3, 0, 6⟩, some ⟨0, 1⟩⟩]

/-- `sample` is what three calls of `New` and one of `newGroupedIE` leave behind. -/
example : runAll (· == 1) (fun _ => 1) 1 ⟨[[0, 7], [9], [5, 5, 5]], [], []⟩
    [.new 56 0 ⟨0, 0, 2⟩, .new 57 0 ⟨1, 0, 1⟩, .new 58 0 ⟨2, 0, 3⟩, .group 1 0 [some 0]] = .ok sample := by decide

/-- C67 (g), violated for copies of the struct: `j := *i; i.Add(a); j.Add(b)` leaves `i` with the child `b` instead of `a`, while
its payload still is the encoding with `a`. -/
theorem C67_copy_violated : ∃ h j h1 h2 i, copyNode sample 3 = .ok (h, j) ∧
    addH (· == 1) (fun _ => 1) 2 h 3 [some 1] = .ok h1 ∧ addH (· == 1) (fun _ => 1) 2 h1 j [some 2] = .ok h2 ∧
    viewF h2 2 3 = .ok i ∧ i.children = [⟨56, 2, 0, [0, 7], []⟩, ⟨58, 3, 0, [5, 5, 5], []⟩] ∧
    parseMulti (· == 1) i.payload = .ok [⟨56, 2, 0, [0, 7], []⟩, ⟨57, 1, 0, [9], []⟩] := by
  refine ⟨_, _, _, _, _, rfl, rfl, rfl, rfl, ?_, ?_⟩ <;> decide

/-- C67 (h), violated for lists handed out by `ValueAsGrouped` (/repo/ie/ie.go:455): the caller appends an element of type 58 to
the list, then adds one of type 57 to the group; the caller's list now ends in the one of type 57. -/
theorem C67_list_violated : ∃ h k h1, sample.append (fun _ => 1) (kidsOf sample 3) [some 2] = .ok (h, k) ∧
    h.ptrs k = .ok [some 0, some 2] ∧ addH (· == 1) (fun _ => 1) 2 h 3 [some 1] = .ok h1 ∧
    h1.ptrs k = .ok [some 0, some 1] := by
  refine ⟨_, _, _, rfl, ?_, rfl, ?_⟩ <;> decide

/-- C67 (i), violated for `i.Add(i)`: the program dies, whatever the stack. -/
theorem C67_self_violated : ∀ n, addH (· == 1) (fun _ => 1) n sample 3 [some 3] = .panic :=
  (C67_add_exact (· == 1) (fun _ => 1) 2 sample
    ⟨fun p x w hx hw => (by
        match p, hx with
        | 0, hx => cases hx; cases hw; exact ⟨_, rfl, by decide⟩
        | 1, hx => cases hx; cases hw; exact ⟨_, rfl, by decide⟩
        | 2, hx => cases hx; cases hw; exact ⟨_, rfl, by decide⟩
        | 3, hx => cases hx; cases hw; exact ⟨_, rfl, by decide⟩
        | n + 4, hx => cases hx),
      fun p x k hx hk => (by
        match p, hx with
        | 0, hx => cases hx; cases hk
        | 1, hx => cases hx; cases hk
        | 2, hx => cases hx; cases hk
        | 3, hx => cases hx; cases hk; exact ⟨_, rfl, by decide⟩
        | n + 4, hx => cases hx),
      fun p q x y k l hx hy hk hl _ => by
        have one : ∀ (p : Nat) x k, sample.nodes[p]? = some x → x.kids = some k → p = 3 := by
          intro p x k hx hk
          match p, hx with
          | 0, hx => cases hx; cases hk
          | 1, hx => cases hx; cases hk
          | 2, hx => cases hx; cases hk
          | 3, hx => rfl
          | n + 4, hx => cases hx
        rw [one p x k hx hk, one q y l hy hl]⟩
    3 ⟨1, 6, 0, [0, 56, 0, 2, 0, 7], [⟨56, 2, 0, [0, 7], []⟩]⟩ (by decide) (by decide) [some 3]
    [⟨1, 6, 0, [0, 56, 0, 2, 0, 7], [⟨56, 2, 0, [0, 7], []⟩]⟩] (by decide)).1 ⟨3, by decide, .refl 3⟩

/-- Adding to one group leaves another one with the same child alone. -/
example : ∃ h, runAll (· == 1) (fun _ => 1) 3 sample [.group 2 0 [some 0], .add 3 [some 1]] = .ok h ∧
    viewF h 2 4 = .ok ⟨2, 6, 0, [0, 56, 0, 2, 0, 7], [⟨56, 2, 0, [0, 7], []⟩]⟩ := by
  refine ⟨_, rfl, ?_⟩; decide

end Mem
end Pfcp
