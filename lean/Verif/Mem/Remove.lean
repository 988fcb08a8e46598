/- Helper lemmas about `Remove`, construction and decoding in the memory model: invariant and frame. -/
import Verif.Mem.Edit

namespace Pfcp
namespace Mem

/-- One struct is written (or new), its list is a new array; everything else only grows. -/
theorem Inv.update {h h' : Heap} (inv : Inv h) {p : Nat} {y0 : Node}
    (hb : ∀ (a : Nat) b, h.bufs[a]? = some b → h'.bufs[a]? = some b)
    (ha : ∀ (a : Nat) b, h.arrs[a]? = some b → h'.arrs[a]? = some b)
    (hn : ∀ q, q ≠ p → h'.nodes[q]? = h.nodes[q]?) (hp : h'.nodes[p]? = some y0)
    (hw : ∀ w, y0.payload = some w → ∃ b, h'.bufs[w.buf]? = some b ∧ w.off + w.len ≤ b.length)
    (hk : ∀ k, y0.kids = some k → h.arrs.length ≤ k.arr ∧ ∃ a, h'.arrs[k.arr]? = some a ∧ k.len ≤ a.length) : Inv h' := by
  have hfresh : ∀ (q : Nat) y k l, h.nodes[q]? = some y → y.kids = some l → y0.kids = some k → k.arr ≠ l.arr := by
    intro q y k l hy hl hk0 e
    obtain ⟨a, hb, _⟩ := inv.kids q y l hy hl
    have := (List.getElem?_eq_some_iff.1 hb).1
    have := (hk k hk0).1
    omega
  refine ⟨fun q y w hy hw' => ?_, fun q y l hy hl => ?_, fun q r y z l l' hy hz hl hl' e => ?_⟩
  · by_cases hq : q = p
    · subst hq
      rw [hp] at hy
      cases hy
      exact hw w hw'
    · rw [hn q hq] at hy
      obtain ⟨b, h1, h2⟩ := inv.payload q y w hy hw'
      exact ⟨b, hb _ _ h1, h2⟩
  · by_cases hq : q = p
    · subst hq
      rw [hp] at hy
      cases hy
      exact (hk l hl).2
    · rw [hn q hq] at hy
      obtain ⟨b, h1, h2⟩ := inv.kids q y l hy hl
      exact ⟨b, ha _ _ h1, h2⟩
  · by_cases hq : q = p
    · by_cases hr : r = p
      · rw [hq, hr]
      · exfalso
        subst hq
        rw [hp] at hy
        cases hy
        rw [hn r hr] at hz
        exact hfresh r z l l' hz hl' hl e
    · by_cases hr : r = p
      · exfalso
        subst hr
        rw [hp] at hz
        cases hz
        rw [hn q hq] at hy
        exact hfresh q y l' l hy hl hl' e.symm
      · rw [hn q hq] at hy
        rw [hn r hr] at hz
        exact inv.own q r y z l l' hy hz hl hl' e

/-! ### Remove -/

theorem remove_steps {g n} {h h' : Heap} {p typ} (ha : removeH g n h p typ = .ok h') :
    ∃ x, h.nodes[p]? = some x ∧ (g x.typ = false ∧ h' = h ∨ g x.typ = true ∧ ∃ ps ks cs,
      h.ptrs x.kids = .ok ps ∧ keep h typ ps = .ok ks ∧
      viewAll (viewF (h.setNode p { x with payload := none }) n) ks = .ok cs ∧
      h' = ((h.allocArr ks (ps.length - ks.length)).1.allocBuf (encList g cs)).1.setNode p
        ⟨x.typ, UInt16.ofNat ((if isVendor x.typ then 2 else 0) + (encList g cs).length), x.eid,
          some ⟨h.bufs.length, 0, (encList g cs).length⟩, some ⟨h.arrs.length, ks.length⟩⟩) := by
  unfold removeH at ha
  split at ha
  · cases ha
  · rename_i x hx
    refine ⟨x, hx, ?_⟩
    cases hg : g x.typ
    · rw [hg] at ha
      cases ha
      exact .inl ⟨rfl, rfl⟩
    · rw [hg] at ha
      simp only [Bool.not_true, Bool.false_eq_true, if_false] at ha
      obtain ⟨ps, hps, ha⟩ := Res.bind_eq_ok.1 ha
      obtain ⟨ks, hks, ha⟩ := Res.bind_eq_ok.1 ha
      obtain ⟨cs, hcs, ha⟩ := Res.bind_eq_ok.1 ha
      rw [serializeLoop_eq] at ha
      simp only [Res.ok_bind, List.nil_append] at ha
      cases ha
      exact .inr ⟨rfl, ps, ks, cs, hps, hks, hcs, rfl⟩

/-- `Remove` changes one struct; the rest of memory only grows. -/
theorem remove_grow {g n} {h h' : Heap} {p typ} (ha : removeH g n h p typ = .ok h') :
    (∀ (a : Nat) b, h.bufs[a]? = some b → h'.bufs[a]? = some b) ∧ (∀ (a : Nat) b, h.arrs[a]? = some b → h'.arrs[a]? = some b) ∧
    (∀ q, q ≠ p → h'.nodes[q]? = h.nodes[q]?) := by
  obtain ⟨x, hx, ⟨_, rfl⟩ | ⟨_, ps, ks, cs, _, _, _, rfl⟩⟩ := remove_steps ha
  · exact ⟨fun _ _ h => h, fun _ _ h => h, fun _ _ => rfl⟩
  · exact ⟨fun a b hb => getElem?_append_some hb _, fun a b hb => getElem?_append_some hb _, fun q hq => setNode_ne _ hq _⟩

theorem grow_kept {h h' : Heap} {q : Nat} (hb : ∀ (a : Nat) b, h.bufs[a]? = some b → h'.bufs[a]? = some b)
    (ha : ∀ (a : Nat) b, h.arrs[a]? = some b → h'.arrs[a]? = some b) (hn : h'.nodes[q]? = h.nodes[q]?) : Kept h h' q :=
  ⟨fun y hy => hn.trans hy, fun y b _ hr => read_grow hb hr,
    fun y l _ hp => Same.ptrs (h := ⟨h.bufs, h.arrs, []⟩) ⟨ha, fun a b h => by simp at h⟩ hp⟩

theorem remove_kept {g n} {h h' : Heap} {p typ} (ha : removeH g n h p typ = .ok h') (q : Nat) (hq : q ≠ p) : Kept h h' q := by
  obtain ⟨h1, h2, h3⟩ := remove_grow ha
  exact grow_kept h1 h2 (h3 q hq)

theorem remove_inv {g n} {h h' : Heap} (inv : Inv h) {p typ} (ha : removeH g n h p typ = .ok h') : Inv h' := by
  obtain ⟨h1, h2, h3⟩ := remove_grow ha
  obtain ⟨x, hx, ⟨_, rfl⟩ | ⟨_, ps, ks, cs, _, _, _, rfl⟩⟩ := remove_steps ha
  · exact inv
  · refine inv.update h1 h2 h3 (setNode_self (y := x) hx _) (fun w hw => ?_) (fun k hk => ?_)
    · cases hw
      refine ⟨encList g cs, ?_, by simp⟩
      show (h.bufs ++ [_])[h.bufs.length]? = _
      simp
    · cases hk
      refine ⟨Nat.le_refl _, ks ++ List.replicate (ps.length - ks.length) none, ?_, ?_⟩
      · show (h.arrs ++ [_])[h.arrs.length]? = _
        simp
      · simp

theorem keep_views {h : Heap} {typ : IEType} {n : Nat} {ps : List (Option Nat)} {cs : List IE}
    (hv : viewAll (viewF h n) ps = .ok cs) :
    ∃ ks, keep h typ ps = .ok ks ∧ viewAll (viewF h n) ks = .ok (cs.filter (fun c => c.typ != typ)) ∧ ∀ q, q ∈ ks → q ∈ ps := by
  induction ps generalizing cs with
  | nil => cases hv; exact ⟨[], rfl, rfl, fun _ h => h⟩
  | cons p ps ih =>
    cases p with
    | none => cases hv
    | some p =>
      unfold viewAll at hv
      obtain ⟨c, hc, hv⟩ := Res.bind_eq_ok.1 hv
      obtain ⟨cs', hcs, hv⟩ := Res.bind_eq_ok.1 hv
      cases hv
      obtain ⟨ks, hk, hkv, hsub⟩ := ih hcs
      obtain ⟨m, x, pl, qs, ds, rfl, hx, hpl, hqs, hds, rfl⟩ := viewF_some hc
      unfold keep
      have ht : typeAt h (some p) = .ok x.typ := by unfold typeAt; dsimp only; rw [hx]
      rw [ht, Res.ok_bind, hk, Res.ok_bind]
      refine ⟨_, rfl, ?_, ?_⟩
      · by_cases e : x.typ = typ
        · rw [if_pos e, List.filter_cons_of_neg (by simp [e])]
          exact hkv
        · rw [if_neg e, List.filter_cons_of_pos (by simp [e]), viewAll, hc, Res.ok_bind, hkv]
          rfl
      · intro q hq
        split at hq
        · exact List.mem_cons_of_mem _ (hsub q hq)
        · rcases List.mem_cons.1 hq with rfl | hq
          · exact List.mem_cons_self
          · exact List.mem_cons_of_mem _ (hsub q hq)

/-- `Remove` in memory is `Remove` on values. -/
theorem remove_refines {g n} {h : Heap} {p : Nat} {i : IE} (hv : viewF h n p = .ok i) (hg : g i.typ = true) (typ : IEType) :
    ∃ h' i', removeH g n h p typ = .ok h' ∧ i.remove g typ = .ok i' ∧ viewF h' n p = .ok i' := by
  obtain ⟨m, x, pl, ps, cs, rfl, hx, hpl, hps, hcs, rfl⟩ := viewF_some hv
  dsimp only at hg
  obtain ⟨ks, hk, hkv, hsub⟩ := keep_views (typ := typ) hcs
  have hreach : ∀ q, some q ∈ ks → ¬ Reach h q p := fun q hq => acyclic hv hx hps (hsub _ hq)
  have hold := viewAll_mono (f' := viewF h (m + 1)) (fun q c _ hc => viewF_succ hc) hkv
  have hkept : ∀ q, q ≠ p → Kept h (h.setNode p { x with payload := none }) q := fun q hq =>
    grow_kept (fun _ _ h => h) (fun _ _ h => h) (setNode_ne _ hq _)
  have hmid := viewAll_kept hkept hreach hold
  have hrem : removeH g (m + 1) h p typ = .ok (((h.allocArr ks (ps.length - ks.length)).1.allocBuf (encList g (cs.filter (fun c => c.typ != typ)))).1.setNode p
        ⟨x.typ, UInt16.ofNat ((if isVendor x.typ then 2 else 0) + (encList g (cs.filter (fun c => c.typ != typ))).length), x.eid,
          some ⟨h.bufs.length, 0, (encList g (cs.filter (fun c => c.typ != typ))).length⟩, some ⟨h.arrs.length, ks.length⟩⟩) := by
    unfold removeH
    rw [hx]
    simp only [hg, Bool.not_true, Bool.false_eq_true, if_false]
    rw [hps, Res.ok_bind, hk, Res.ok_bind, hmid, Res.ok_bind, serializeLoop_eq]
    rfl
  refine ⟨_, ⟨x.typ, UInt16.ofNat ((if isVendor x.typ then 2 else 0) + (encList g (cs.filter (fun c => c.typ != typ))).length), x.eid,
    encList g (cs.filter (fun c => c.typ != typ)), cs.filter (fun c => c.typ != typ)⟩, hrem, ?_, ?_⟩
  · unfold IE.remove
    simp only [hg, Bool.not_true, Bool.false_eq_true, if_false]
    rw [removeLoop_eq]
    rfl
  · have hlast := viewAll_kept (remove_kept hrem) hreach hkv
    have hnode : ((h.allocArr ks (ps.length - ks.length)).1.allocBuf (encList g (cs.filter (fun c => c.typ != typ)))).1.nodes[p]? =
      some x := hx
    exact viewF_intro (setNode_self hnode _) (allocBuf_read (h.allocArr ks (ps.length - ks.length)).1 _ p _)
      (qs := ks) (allocArr_ptrs h ks _) hlast

/-! ### Construction and decoding -/

theorem allocNode_ne (h : Heap) (x : Node) (q : Nat) (hq : q ≠ h.nodes.length) : (h.allocNode x).1.nodes[q]? = h.nodes[q]? := by
  show (h.nodes ++ [x])[q]? = _
  rcases Nat.lt_or_gt_of_ne hq with hq | hq
  · exact List.getElem?_append_left hq
  · rw [List.getElem?_append_right (by omega), List.getElem?_eq_none (by simp; omega), List.getElem?_eq_none (by omega)]

theorem listOf_nodes (h : Heap) (extra qs) : (listOf h extra qs).1.nodes = h.nodes := by
  unfold listOf; split <;> rfl

/-- A new struct with a list of its own. -/
theorem alloc_inv {h : Heap} (inv : Inv h) (extra qs) (t len eid) (pw : Option Win)
    (hw : ∀ w, pw = some w → ∃ b, h.bufs[w.buf]? = some b ∧ w.off + w.len ≤ b.length) :
    Inv ((listOf h extra qs).1.allocNode ⟨t, len, eid, pw, (listOf h extra qs).2⟩).1 := by
  refine inv.update (p := h.nodes.length) (y0 := ⟨t, len, eid, pw, (listOf h extra qs).2⟩) ?_ ?_ ?_ ?_ ?_ ?_
  · exact (Ext.listOf h extra qs).bufs
  · exact (Ext.listOf h extra qs).arrs
  · intro q hq
    rw [allocNode_ne _ _ _ (by rw [listOf_nodes]; exact hq), listOf_nodes]
  · show ((listOf h extra qs).1.nodes ++ [_])[h.nodes.length]? = _
    rw [listOf_nodes]
    simp
  · intro w hw'
    obtain ⟨b, h1, h2⟩ := hw w hw'
    exact ⟨b, (Ext.listOf h extra qs).bufs _ _ h1, h2⟩
  · intro k hk
    change (listOf h extra qs).2 = some k at hk
    show h.arrs.length ≤ k.arr ∧ ∃ a, (listOf h extra qs).1.arrs[k.arr]? = some a ∧ k.len ≤ a.length
    unfold listOf at hk ⊢
    split at hk
    · cases hk
    · rename_i hne
      rw [if_neg hne]
      cases hk
      refine ⟨Nat.le_refl _, qs.map some ++ List.replicate (extra qs.length) none, ?_, ?_⟩
      · show (h.arrs ++ [_])[h.arrs.length]? = _
        simp
      · show (qs.map some).length ≤ _
        simp

theorem read_range {h : Heap} {w : Win} {b : Bytes} (hr : h.read (some w) = .ok b) :
    ∃ c, h.bufs[w.buf]? = some c ∧ w.off + w.len ≤ c.length := by
  unfold Heap.read at hr
  dsimp only at hr
  split at hr
  · rename_i c hc
    unfold slice at hr
    split at hr
    · rename_i hh; exact ⟨c, hc, hh.2⟩
    · cases hr
  · cases hr

/-- Decoding only allocates, touches no byte array and maintains the invariant. -/
theorem decode_grow (g : IEType → Bool) (extra : Nat → Nat) : ∀ (fuel : Nat),
    (∀ (h : Heap) (w : Win) h' p, unmarshalH g extra fuel h w = .ok (h', p) → Ext h h' ∧ h'.bufs = h.bufs ∧ (Inv h → Inv h')) ∧
    (∀ (h : Heap) (w : Win) h' qs, parseMultiH g extra fuel h w = .ok (h', qs) → Ext h h' ∧ h'.bufs = h.bufs ∧ (Inv h → Inv h')) := by
  intro fuel
  induction fuel with
  | zero => exact ⟨fun h w h' p hh => (by cases hh), fun h w h' p hh => (by cases hh)⟩
  | succ n ih =>
    obtain ⟨ih1, ih2⟩ := ih
    constructor
    · intro h w h' p hh
      unfold unmarshalH at hh
      obtain ⟨b, hr, hh⟩ := Res.bind_eq_ok.1 hh
      obtain ⟨⟨t, len, eid, o, e⟩, hhdr, hh⟩ := Res.bind_eq_ok.1 hh
      obtain ⟨c, hc, hle⟩ := read_range hr
      dsimp only at hh
      split at hh
      · cases hh
        exact ⟨Ext.allocNode _ _, rfl, fun inv => alloc_inv inv extra [] _ _ _ _ (fun w h => by cases h)⟩
      · split at hh
        · cases hh
        · split at hh
          · obtain ⟨⟨h1, qs⟩, hp, hh⟩ := Res.bind_eq_ok.1 hh
            cases hh
            obtain ⟨hext, hb, hinv⟩ := ih2 _ _ _ _ hp
            refine ⟨(hext.trans (Ext.listOf h1 extra qs)).trans (Ext.allocNode _ _), (listOf_bufs h1 extra qs).trans hb,
              fun inv => alloc_inv (hinv inv) extra qs _ _ _ _ (fun w' hw' => ?_)⟩
            cases hw'
            exact ⟨c, hext.bufs _ _ hc, by dsimp only; omega⟩
          · cases hh
            refine ⟨Ext.allocNode _ _, rfl, fun inv => alloc_inv inv extra [] _ _ _ _ (fun w' hw' => ?_)⟩
            cases hw'
            exact ⟨c, hc, by dsimp only; omega⟩
    · intro h w h' qs hh
      unfold parseMultiH at hh
      split at hh
      · cases hh; exact ⟨Ext.refl _, rfl, fun h => h⟩
      · obtain ⟨⟨h1, p⟩, hp, hh⟩ := Res.bind_eq_ok.1 hh
        obtain ⟨i, hi, hh⟩ := Res.bind_eq_ok.1 hh
        split at hh
        · obtain ⟨⟨h2, rs⟩, hp2, hh⟩ := Res.bind_eq_ok.1 hh
          cases hh
          obtain ⟨e1, b1, i1⟩ := ih1 _ _ _ _ hp
          obtain ⟨e2, b2, i2⟩ := ih2 _ _ _ _ hp2
          exact ⟨e1.trans e2, b2.trans b1, fun inv => i2 (i1 inv)⟩
        · cases hh

end Mem
end Pfcp
