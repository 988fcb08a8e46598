/- Helper lemmas about the memory model. The property theorems are in `Verif/Mem/Props.lean`. -/
import Verif.Mem.Spec

namespace Pfcp
namespace Mem

theorem readHdr_ok {b : Bytes} {t len eid o e} (h : readHdr b = .ok (t, len, eid, o, e)) : o = hdrLen t ∧ o ≤ b.length := by
  unfold readHdr at h
  by_cases h4 : b.length < 4
  · rw [if_pos h4] at h; cases h
  · rw [if_neg h4, slice_ok b 0 2 (by omega) (by omega), slice_ok b 2 4 (by omega) (by omega)] at h
    simp only [Res.ok_bind] at h
    split at h
    · rename_i hv
      split at h
      · cases h
      · split at h
        · cases h
        · rw [slice_ok b 4 6 (by omega) (by omega)] at h
          simp only [Res.ok_bind, Res.ok.injEq, Prod.mk.injEq] at h
          obtain ⟨rfl, rfl, rfl, rfl, rfl⟩ := h
          exact ⟨by rw [hdrLen, if_pos hv], by omega⟩
    · rename_i hv
      simp only [Res.ok.injEq, Prod.mk.injEq] at h
      obtain ⟨rfl, rfl, rfl, rfl, rfl⟩ := h
      exact ⟨by rw [hdrLen, if_neg hv], by omega⟩

theorem unmarshalF_hdr (g : IEType → Bool) (n : Nat) (b : Bytes) :
    unmarshalF g (n + 1) b = readHdr b >>= fun (t, len, eid, o, e) =>
      if b.length ≤ o then .ok ⟨t, len, eid, [], []⟩
      else if b.length < o + e then .err .unexpectedEOF
      else if g t then parseMultiF g n ((b.drop o).take e) >>= fun cs => .ok ⟨t, len, eid, (b.drop o).take e, cs⟩
      else .ok ⟨t, len, eid, (b.drop o).take e, []⟩ := by
  rw [unmarshalF_succ]
  unfold parseBody readHdr
  by_cases h4 : b.length < 4
  · simp [h4]
  · simp only [h4, if_false]
    rw [slice_ok b 0 2 (by omega) (by omega), slice_ok b 2 4 (by omega) (by omega)]
    simp only [Res.ok_bind]
    by_cases hv : isVendor (dec16 (List.drop 0 (List.take 2 b))) = true
    · simp only [hv, if_true]
      by_cases h6 : b.length < 6
      · simp [h6]
      · simp only [h6, if_false]
        by_cases h2 : (dec16 (List.drop 2 (List.take 4 b))).toNat < 2
        · simp [h2]
        · simp only [h2, if_false]
          rw [slice_ok b 4 6 (by omega) (by omega)]
          simp only [Res.ok_bind, Res.pure_eq]
          by_cases h7 : b.length ≤ 6
          · simp [h7]
          · by_cases h8 : b.length < 6 + ((dec16 (List.drop 2 (List.take 4 b))).toNat - 2)
            · simp [h7, h8]
            · simp only [h7, h8, if_false, show (4 + 2 : Nat) = 6 from rfl]
              rw [slice_ok b _ _ (by omega) (by omega), List.drop_take]
              simp only [Res.ok_bind, Nat.add_sub_cancel_left]
    · simp only [hv, Bool.false_eq_true, if_false, Res.pure_eq, Res.ok_bind]
      by_cases h7 : b.length ≤ 4
      · simp [h7]
      · by_cases h8 : b.length < 4 + (dec16 (List.drop 2 (List.take 4 b))).toNat
        · simp [h7, h8]
        · simp only [h7, h8, if_false]
          rw [slice_ok b _ _ (by omega) (by omega), List.drop_take]
          simp only [Res.ok_bind, Nat.add_sub_cancel_left]

/-! ### Reading -/

theorem read_length {h : Heap} {w : Win} {b : Bytes} (hr : h.read (some w) = .ok b) : b.length = w.len := by
  unfold Heap.read at hr
  dsimp only at hr
  split at hr
  · rename_i a _
    unfold slice at hr
    split at hr
    · rename_i hh
      cases hr
      simp
      omega
    · cases hr
  · cases hr

/-- A window inside a window. -/
theorem read_sub {h : Heap} {w : Win} {b : Bytes} (hr : h.read (some w) = .ok b) (o e : Nat) (he : o + e ≤ w.len) :
    h.read (some ⟨w.buf, w.off + o, e⟩) = .ok ((b.drop o).take e) := by
  unfold Heap.read at hr ⊢
  dsimp only at hr ⊢
  split at hr
  · rename_i a ha
    unfold slice at hr ⊢
    split at hr
    · rename_i hh
      cases hr
      rw [if_pos (by omega)]
      congr 1
      rw [List.drop_take, List.drop_take, List.drop_take, List.drop_drop, List.take_take]
      congr 1
      omega
    · cases hr
  · cases hr

/-! ### Views -/

theorem viewAll_mono {f f' : Nat → Res IE} {qs : List (Option Nat)} {cs : List IE}
    (hf : ∀ q c, some q ∈ qs → f q = .ok c → f' q = .ok c) (h : viewAll f qs = .ok cs) : viewAll f' qs = .ok cs := by
  induction qs generalizing cs with
  | nil => exact h
  | cons q qs ih =>
    cases q with
    | none => cases h
    | some q =>
      unfold viewAll at h ⊢
      obtain ⟨c, hc, h⟩ := Res.bind_eq_ok.1 h
      obtain ⟨cs', hcs, h⟩ := Res.bind_eq_ok.1 h
      rw [hf q c (by simp) hc, Res.ok_bind, ih (fun q c hm => hf q c (by simp [hm])) hcs]
      exact h

theorem viewF_some {h : Heap} {n p : Nat} {i : IE} (hv : viewF h n p = .ok i) :
    ∃ m x pl qs cs, n = m + 1 ∧ h.nodes[p]? = some x ∧ h.read x.payload = .ok pl ∧ h.ptrs x.kids = .ok qs ∧
      viewAll (viewF h m) qs = .ok cs ∧ i = ⟨x.typ, x.length, x.eid, pl, cs⟩ := by
  cases n with
  | zero => cases hv
  | succ m =>
    unfold viewF at hv
    split at hv
    · cases hv
    · rename_i x hx
      obtain ⟨pl, hpl, hv⟩ := Res.bind_eq_ok.1 hv
      obtain ⟨qs, hqs, hv⟩ := Res.bind_eq_ok.1 hv
      obtain ⟨cs, hcs, hv⟩ := Res.bind_eq_ok.1 hv
      cases hv
      exact ⟨m, x, pl, qs, cs, rfl, hx, hpl, hqs, hcs, rfl⟩

theorem viewF_intro {h : Heap} {m p : Nat} {x : Node} {pl qs cs} (hx : h.nodes[p]? = some x) (hpl : h.read x.payload = .ok pl)
    (hqs : h.ptrs x.kids = .ok qs) (hcs : viewAll (viewF h m) qs = .ok cs) :
    viewF h (m + 1) p = .ok ⟨x.typ, x.length, x.eid, pl, cs⟩ := by
  unfold viewF
  rw [hx]
  dsimp only
  rw [hpl, Res.ok_bind, hqs, Res.ok_bind, hcs]
  rfl

theorem viewF_succ {h : Heap} {n p : Nat} {i : IE} (hv : viewF h n p = .ok i) : viewF h (n + 1) p = .ok i := by
  induction n generalizing p i with
  | zero => cases hv
  | succ n ih =>
    obtain ⟨m, x, pl, qs, cs, e, hx, hpl, hqs, hcs, rfl⟩ := viewF_some hv
    cases e
    exact viewF_intro hx hpl hqs (viewAll_mono (fun q c _ hc => ih hc) hcs)

theorem viewF_le {h : Heap} {n m p : Nat} {i : IE} (hnm : n ≤ m) (hv : viewF h n p = .ok i) : viewF h m p = .ok i := by
  induction hnm with
  | refl => exact hv
  | step _ ih => exact viewF_succ ih

/-! ### Memory that only grew -/

/-- Everything allocated before is as it was; new things may have come. -/
structure Ext (h h' : Heap) : Prop where
  bufs : ∀ (a : Nat) b, h.bufs[a]? = some b → h'.bufs[a]? = some b
  arrs : ∀ (a : Nat) b, h.arrs[a]? = some b → h'.arrs[a]? = some b
  nodes : ∀ (a : Nat) b, h.nodes[a]? = some b → h'.nodes[a]? = some b

theorem Ext.refl (h : Heap) : Ext h h := ⟨fun _ _ h => h, fun _ _ h => h, fun _ _ h => h⟩
theorem Ext.trans {a b c : Heap} (h1 : Ext a b) (h2 : Ext b c) : Ext a c :=
  ⟨fun x y h => h2.bufs x y (h1.bufs x y h), fun x y h => h2.arrs x y (h1.arrs x y h),
    fun x y h => h2.nodes x y (h1.nodes x y h)⟩

theorem getElem?_append_some {α} {l : List α} {a : Nat} {b : α} (h : l[a]? = some b) (r : List α) : (l ++ r)[a]? = some b := by
  have := (List.getElem?_eq_some_iff.1 h).1
  rw [List.getElem?_append_left this, h]

theorem Ext.allocNode (h : Heap) (x : Node) : Ext h (h.allocNode x).1 :=
  ⟨fun _ _ h => h, fun _ _ h => h, fun _ _ h => getElem?_append_some h _⟩
theorem Ext.allocBuf (h : Heap) (b : Bytes) : Ext h (h.allocBuf b).1 :=
  ⟨fun _ _ h => getElem?_append_some h _, fun _ _ h => h, fun _ _ h => h⟩
theorem Ext.allocArr (h : Heap) (qs) (n) : Ext h (h.allocArr qs n).1 :=
  ⟨fun _ _ h => h, fun _ _ h => getElem?_append_some h _, fun _ _ h => h⟩
theorem Ext.listOf (h : Heap) (extra qs) : Ext h (Mem.listOf h extra qs).1 := by
  unfold Mem.listOf
  split
  · exact Ext.refl h
  · exact Ext.allocArr h _ _

theorem Ext.read {h h' : Heap} (he : Ext h h') {w b} (hr : h.read w = .ok b) : h'.read w = .ok b := by
  unfold Heap.read at hr ⊢
  cases w with
  | none => exact hr
  | some w =>
    dsimp only at hr ⊢
    cases hb : h.bufs[w.buf]? with
    | none => rw [hb] at hr; cases hr
    | some c => rw [hb] at hr; rw [he.bufs _ _ hb]; exact hr

theorem Ext.ptrs {h h' : Heap} (he : Ext h h') {k qs} (hr : h.ptrs k = .ok qs) : h'.ptrs k = .ok qs := by
  unfold Heap.ptrs at hr ⊢
  cases k with
  | none => exact hr
  | some k =>
    dsimp only at hr ⊢
    cases hb : h.arrs[k.arr]? with
    | none => rw [hb] at hr; cases hr
    | some c => rw [hb] at hr; rw [he.arrs _ _ hb]; exact hr

theorem Ext.view {h h' : Heap} (he : Ext h h') {n p i} (hv : viewF h n p = .ok i) : viewF h' n p = .ok i := by
  induction n generalizing p i with
  | zero => cases hv
  | succ n ih =>
    obtain ⟨m, x, pl, qs, cs, e, hx, hpl, hqs, hcs, rfl⟩ := viewF_some hv
    cases e
    exact viewF_intro (he.nodes _ _ hx) (he.read hpl) (he.ptrs hqs) (viewAll_mono (fun q c _ hc => ih hc) hcs)

/-! ### Decoding -/

/-- Structs and pointer arrays are as they were (and maybe more); the byte arrays may have any contents. -/
structure Same (h h' : Heap) : Prop where
  arrs : ∀ (a : Nat) b, h.arrs[a]? = some b → h'.arrs[a]? = some b
  nodes : ∀ (a : Nat) b, h.nodes[a]? = some b → h'.nodes[a]? = some b

theorem Ext.same {h h' : Heap} (he : Ext h h') : Same h h' := ⟨he.arrs, he.nodes⟩
theorem Same.trans {a b c : Heap} (h1 : Same a b) (h2 : Same b c) : Same a c :=
  ⟨fun x y h => h2.arrs x y (h1.arrs x y h), fun x y h => h2.nodes x y (h1.nodes x y h)⟩

theorem allocNode_get (h : Heap) (x : Node) : (h.allocNode x).1.nodes[(h.allocNode x).2]? = some x := by
  unfold Heap.allocNode
  simp

theorem listOf_ptrs (h : Heap) (extra qs) : (listOf h extra qs).1.ptrs (listOf h extra qs).2 = .ok (qs.map some) := by
  unfold listOf
  split
  · rename_i e; subst e; rfl
  · unfold Heap.allocArr Heap.ptrs
    simp

theorem allocNode_bufs (h : Heap) (x : Node) : (h.allocNode x).1.bufs = h.bufs := rfl
theorem listOf_bufs (h : Heap) (extra qs) : (listOf h extra qs).1.bufs = h.bufs := by
  unfold listOf; split <;> rfl

theorem Same.ptrs {h h' : Heap} (he : Same h h') {k qs} (hr : h.ptrs k = .ok qs) : h'.ptrs k = .ok qs := by
  unfold Heap.ptrs at hr ⊢
  cases k with
  | none => exact hr
  | some k =>
    dsimp only at hr ⊢
    cases hb : h.arrs[k.arr]? with
    | none => rw [hb] at hr; cases hr
    | some c => rw [hb] at hr; rw [he.arrs _ _ hb]; exact hr

theorem slice_rest {b rest : Bytes} {n m : Nat} (h : slice b n m = .ok rest) (hm : m = b.length := by omega) :
    n ≤ b.length ∧ rest = b.drop n := by
  subst hm
  unfold slice at h
  split at h
  · rename_i hh
    cases h
    exact ⟨hh.1, by rw [List.take_length]⟩
  · cases h

/-- What decoding in memory does, against the decoder on values. -/
theorem decode (g : IEType → Bool) (extra : Nat → Nat) : ∀ (fuel : Nat),
    (∀ (h : Heap) (w : Win) (b : Bytes), h.read (some w) = .ok b →
      (∀ i, unmarshalF g fuel b = .ok i → over g b i = i ∧ ∃ h' p, unmarshalH g extra fuel h w = .ok (h', p) ∧ Ext h h' ∧
        h'.bufs = h.bufs ∧ ∀ h2 b2, Same h' h2 → h2.read (some w) = .ok b2 → viewF h2 fuel p = .ok (over g b2 i)) ∧
      (∀ e, unmarshalF g fuel b = .err e → unmarshalH g extra fuel h w = .err e)) ∧
    (∀ (h : Heap) (w : Win) (b : Bytes), h.read (some w) = .ok b →
      (∀ is, parseMultiF g fuel b = .ok is → overList g b is = is ∧ ∃ h' qs, parseMultiH g extra fuel h w = .ok (h', qs) ∧ Ext h h' ∧
        h'.bufs = h.bufs ∧ ∀ h2 b2, Same h' h2 → h2.read (some w) = .ok b2 →
          viewAll (viewF h2 fuel) (qs.map some) = .ok (overList g b2 is)) ∧
      (∀ e, parseMultiF g fuel b = .err e → parseMultiH g extra fuel h w = .err e)) := by
  intro fuel
  induction fuel with
  | zero =>
    refine ⟨fun h w b _ => ⟨fun i hi => ?_, fun e he => ?_⟩, fun h w b _ => ⟨fun i hi => ?_, fun e he => ?_⟩⟩
    · cases hi
    · cases he
    · cases hi
    · cases he
  | succ n ih =>
    obtain ⟨ih1, ih2⟩ := ih
    refine ⟨fun h w b hr => ?_, fun h w b hr => ?_⟩
    · have hl := read_length hr
      rw [unmarshalF_hdr]
      unfold unmarshalH
      rw [hr, Res.ok_bind]
      cases hh : readHdr b with
      | panic => exact ⟨fun i hi => (by cases hi), fun e he => (by cases he)⟩
      | err e' => exact ⟨fun i hi => (by cases hi), fun e he => (by cases he; rfl)⟩
      | ok r =>
        obtain ⟨t, len, eid, o, e⟩ := r
        obtain ⟨ho, hob⟩ := readHdr_ok hh
        simp only [Res.ok_bind]
        rw [hl]
        by_cases h7 : w.len ≤ o
        · simp only [if_pos h7]
          refine ⟨fun i hi => ?_, fun e he => (by cases he)⟩
          cases hi
          refine ⟨by simp [over, overList], _, _, rfl, Ext.allocNode h _, rfl, fun h2 b2 hs hr2 => ?_⟩
          refine (viewF_intro (hs.nodes _ _ (allocNode_get h _)) (pl := []) (qs := []) (cs := []) rfl rfl rfl).trans ?_
          simp [over, overList]
        · simp only [if_neg h7]
          by_cases h8 : w.len < o + e
          · simp only [if_pos h8]
            exact ⟨fun i hi => (by cases hi), fun e he => (by cases he; rfl)⟩
          · simp only [if_neg h8]
            have hsub := fun (h2 : Heap) b2 (hr2 : h2.read (some w) = .ok b2) => read_sub hr2 o e (by omega)
            have hlen : ((b.drop o).take e).length = e := by simp; omega
            by_cases hg : g t = true
            · simp only [if_pos hg]
              obtain ⟨ihok, iherr⟩ := ih2 h ⟨w.buf, w.off + o, e⟩ _ (hsub h b hr)
              refine ⟨fun i hi => ?_, fun e' he => ?_⟩
              · obtain ⟨cs, hcs, hi⟩ := Res.bind_eq_ok.1 hi
                cases hi
                obtain ⟨hov, h', qs, hH, hext, hbufs, hview⟩ := ihok cs hcs
                refine ⟨?_, ?_⟩
                · rw [over, ← ho, hlen, hov]
                rw [hH, Res.ok_bind]
                refine ⟨_, _, rfl, (hext.trans (Ext.listOf h' extra qs)).trans (Ext.allocNode _ _), ?_, fun h2 b2 hs hr2 => ?_⟩
                · exact (listOf_bufs h' extra qs).trans hbufs
                · have hs1 : Same (listOf h' extra qs).1 h2 := (Ext.same (Ext.allocNode _ _)).trans hs
                  have hs0 : Same h' h2 := (Ext.same (Ext.listOf h' extra qs)).trans hs1
                  refine (viewF_intro (hs.nodes _ _ (allocNode_get _ _)) (hsub h2 b2 hr2) (hs1.ptrs (listOf_ptrs h' extra qs))
                    (hview h2 _ hs0 (hsub h2 b2 hr2))).trans ?_
                  rw [over, ← ho, hlen]
              · rcases Res.bind_eq_err.1 he with he | ⟨_, _, he⟩
                · rw [iherr e' he]; rfl
                · cases he
            · simp only [if_neg hg]
              refine ⟨fun i hi => ?_, fun e he => (by cases he)⟩
              cases hi
              refine ⟨by rw [over, ← ho, hlen, overList], _, _, rfl, Ext.allocNode h _, rfl, fun h2 b2 hs hr2 => ?_⟩
              refine (viewF_intro (hs.nodes _ _ (allocNode_get h _)) (hsub h2 b2 hr2) (qs := []) (cs := []) rfl rfl).trans ?_
              rw [over, ← ho, hlen, overList]
    · have hl := read_length hr
      unfold parseMultiF parseMultiH
      rw [hl]
      by_cases h0 : w.len = 0
      · rw [if_pos h0, if_pos h0]
        refine ⟨fun is hi => ?_, fun e he => (by cases he)⟩
        cases hi
        exact ⟨rfl, _, _, rfl, Ext.refl h, rfl, fun h2 b2 hs hr2 => rfl⟩
      · rw [if_neg h0, if_neg h0]
        obtain ⟨ihok, iherr⟩ := ih1 h w b hr
        refine ⟨fun is hi => ?_, fun e he => ?_⟩
        · obtain ⟨i, hi1, hi⟩ := Res.bind_eq_ok.1 hi
          obtain ⟨rest, hrest, hi⟩ := Res.bind_eq_ok.1 hi
          obtain ⟨js, hjs, hi⟩ := Res.bind_eq_ok.1 hi
          cases hi
          obtain ⟨hov, h1, p, hH, hext, hbufs, hview⟩ := ihok i hi1
          have hr1 := hext.read hr
          have hv1 := hview h1 b (Ext.same (Ext.refl h1)) hr1
          rw [hov] at hv1
          rw [hH, Res.ok_bind, hv1, Res.ok_bind]
          obtain ⟨hn, rfl⟩ := slice_rest hrest
          rw [if_pos (by omega)]
          have hsub : ∀ (h2 : Heap) b2, h2.read (some w) = .ok b2 →
              h2.read (some ⟨w.buf, w.off + i.marshalLen g, w.len - i.marshalLen g⟩) = .ok (b2.drop (i.marshalLen g)) := by
            intro h2 b2 hr2
            rw [read_sub hr2 _ _ (by omega), List.take_of_length_le (by simp [read_length hr2])]
          obtain ⟨hov2, h3, qs, hH2, hext2, hbufs2, hview2⟩ := (ih2 h1 _ _ (hsub h1 b hr1)).1 js hjs
          rw [hH2, Res.ok_bind]
          refine ⟨by rw [overList, hov, hov2], _, _, rfl, hext.trans hext2, hbufs2.trans hbufs, fun h2 b2 hs hr2 => ?_⟩
          have hs1 : Same h1 h2 := (Ext.same hext2).trans hs
          rw [List.map_cons, viewAll, viewF_succ (hview h2 b2 hs1 hr2), Res.ok_bind,
            viewAll_mono (fun q c _ hc => viewF_succ hc) (hview2 h2 _ hs (hsub h2 b2 hr2)), Res.ok_bind, overList]
        · rcases Res.bind_eq_err.1 he with he | ⟨i, hi1, he⟩
          · rw [iherr e he]; rfl
          · obtain ⟨hov, h1, p, hH, hext, hbufs, hview⟩ := ihok i hi1
            have hr1 := hext.read hr
            have hv1 := hview h1 b (Ext.same (Ext.refl h1)) hr1
            rw [hov] at hv1
            rw [hH, Res.ok_bind, hv1, Res.ok_bind]
            rcases Res.bind_eq_err.1 he with he | ⟨rest, hrest, he⟩
            · exfalso
              unfold slice at he
              split at he <;> cases he
            · obtain ⟨hn, rfl⟩ := slice_rest hrest
              rw [if_pos (by omega)]
              have hsub : h1.read (some ⟨w.buf, w.off + i.marshalLen g, w.len - i.marshalLen g⟩) = .ok (b.drop (i.marshalLen g)) := by
                rw [read_sub hr1 _ _ (by omega), List.take_of_length_le (by simp [read_length hr1])]
              rcases Res.bind_eq_err.1 he with he | ⟨_, _, he⟩
              · rw [(ih2 h1 _ _ hsub).2 e he]; rfl
              · cases he

end Mem
end Pfcp
