/- Property C80, continued: PFDContents. -/
import Verif.Fields.Keep5
import Verif.Fields.Props7

namespace Pfcp
namespace Fields

namespace PFDContents

theorem kept_iff (l : List Bytes) : kept l = l ↔ l.getLast? ≠ some [] := by
  induction l with
  | nil => simp [kept]
  | cons a r ih =>
    cases r with
    | nil =>
      cases a <;> simp [kept]
    | cons b r =>
      rw [kept, List.cons.injEq]
      simp only [true_and, ih, List.getLast?_cons_cons]

theorem fixed_items : ∀ l : List Bytes, W.Fixed (itemsW l)
  | [] => W.Fixed.nop
  | _ :: r => W.Fixed.seq (W.Fixed.put _) (W.Fixed.seq (W.Fixed.copy _ _) (fixed_items r))
theorem fixed_text (n : UInt16) (t : Bytes) : W.Fixed (textW n t) := W.Fixed.seq (W.Fixed.put _) (W.Fixed.copy _ _)
theorem fixed_list (n : UInt16) (l : List Bytes) : W.Fixed (listW n l) := W.Fixed.seq (W.Fixed.put _) (fixed_items l)
theorem fixed (f : PFDContents) : W.Fixed f.marshalW :=
  W.Fixed.seq (W.Fixed.minLen _) (W.Fixed.seq (W.Fixed.seq (W.Fixed.poke _) (W.Fixed.skip _))
    (W.Fixed.seq (W.Fixed.opt (fixed_text _ _)) (W.Fixed.seq (W.Fixed.opt (fixed_text _ _))
    (W.Fixed.seq (W.Fixed.opt (fixed_text _ _)) (W.Fixed.seq (W.Fixed.opt (fixed_text _ _))
    (W.Fixed.seq (W.Fixed.opt (fixed_text _ _)) (W.Fixed.seq (W.Fixed.opt (fixed_list _ _))
    (W.Fixed.seq (W.Fixed.opt (fixed_list _ _)) (W.Fixed.opt (fixed_list _ _))))))))))

/-- A text of the stored length, absent if it is not announced. -/
def TextKept (c : Bool) (n : UInt16) (t : Bytes) : Prop := t.length = n.toNat ∧ (c = false → n = 0)

/-- What is there to be written. -/
def pick {α : Type} (c : Bool) (t : α) : Option α := if c then some t else none

theorem pick_isSome {α : Type} (c : Bool) (t : α) : (pick c t).isSome = c := by cases c <;> rfl

theorem TextKept.getD {c : Bool} {n : UInt16} {t : Bytes} (h : TextKept c n t) :
    (pick c t).getD [] = t ∧ UInt16.ofNat t.length = n ∧ Short (pick c t) := by
  obtain ⟨h1, h2⟩ := h
  have := n.toNat_lt
  refine ⟨?_, by rw [h1]; simp, ?_⟩
  · cases c with
    | false =>
      rw [h2 rfl] at h1
      exact (List.length_eq_zero_iff.1 h1).symm
    | true => rfl
  · intro x hx
    cases c with
    | false => cases hx
    | true => cases hx; omega

theorem textVal_kept (c : Bool) (a : Option Bytes) (hc : c = a.isSome) (h : Short a) :
    TextKept c (textVal a).1 (textVal a).2 := by
  cases a with
  | none => exact ⟨rfl, fun _ => rfl⟩
  | some t =>
    subst hc
    have := h t rfl
    refine ⟨?_, fun h => by cases h⟩
    simp [textVal]
    omega

end PFDContents

open PFDContents in
/-- C80, for values whose lists have the lengths stored for them (a list of another length is written over what follows
it). A list must not end in an empty text, and there must be room behind each text, as for C40. -/
theorem C80_PFDContents_partial (v : PFDContents) (h6 : v.afdLen.toNat = total v.afd)
    (h7 : v.aurlLen.toNat = total v.aurl) (h8 : v.adnpLen.toNat = total v.adnp) : PFDContents.codec.Keeps v ↔
    (TextKept (bit v.flags 0) v.fdLen v.fd ∧ TextKept (bit v.flags 1) v.urlLen v.url ∧
      TextKept (bit v.flags 2) v.dnLen v.dn ∧ TextKept (bit v.flags 3) v.cpLen v.cp ∧
      TextKept (bit v.flags 4) v.dnpLen v.dnp) ∧
    ((bit v.flags 5 = false → v.afd = []) ∧ (bit v.flags 6 = false → v.aurl = []) ∧
      (bit v.flags 7 = false → v.adnp = [])) ∧
    (v.afd.getLast? ≠ some [] ∧ v.aurl.getLast? ≠ some [] ∧ v.adnp.getLast? ≠ some []) ∧
    Roomy v.marshalLen 2 [pick (bit v.flags 0) v.fd, pick (bit v.flags 1) v.url, pick (bit v.flags 2) v.dn,
      pick (bit v.flags 3) v.cp, pick (bit v.flags 4) v.dnp] = true := by
  obtain ⟨fl, l1, fd, l2, url, l3, dn, l4, cp, l5, dnp, l6, afd, l7, aurl, l8, adnp⟩ := v
  simp only at h6 h7 h8
  simp only [← kept_iff, ← has1stBit_eq, ← has2ndBit_eq, ← has3rdBit_eq, ← has4thBit_eq, ← has5thBit_eq, ← has6thBit_eq,
    ← has7thBit_eq, ← has8thBit_eq]
  generalize hv : (⟨fl, l1, fd, l2, url, l3, dn, l4, cp, l5, dnp, l6, afd, l7, aurl, l8, adnp⟩ : PFDContents) = v
  have m6 := l6.toNat_lt
  have m7 := l7.toNat_lt
  have m8 := l8.toNat_lt
  have key : ∀ (k1 : TextKept (has1stBit fl) l1 fd) (k2 : TextKept (has2ndBit fl) l2 url)
      (k3 : TextKept (has3rdBit fl) l3 dn) (k4 : TextKept (has4thBit fl) l4 cp) (k5 : TextKept (has5thBit fl) l5 dnp)
      (k6 : has6thBit fl = false → afd = []) (k7 : has7thBit fl = false → aurl = [])
      (k8 : has8thBit fl = false → adnp = []), ∃ w, codec.marshal v = .ok w ∧ w.length = v.marshalLen ∧
      ∀ sp, codec.parse ⟨w, sp⟩ = if Roomy v.marshalLen 2 [pick (has1stBit fl) fd, pick (has2ndBit fl) url,
        pick (has3rdBit fl) dn, pick (has4thBit fl) cp, pick (has5thBit fl) dnp] then
        .ok { v with afd := kept v.afd, aurl := kept v.aurl, adnp := kept v.adnp } else .err .unexpectedEOF := by
    intro k1 k2 k3 k4 k5 k6 k7 k8
    obtain ⟨g1, n1, s1⟩ := k1.getD
    obtain ⟨g2, n2, s2⟩ := k2.getD
    obtain ⟨g3, n3, s3⟩ := k3.getD
    obtain ⟨g4, n4, s4⟩ := k4.getD
    obtain ⟨g5, n5, s5⟩ := k5.getD
    have hl : ∀ {c : Bool} {n : UInt16} {l : List Bytes}, n.toNat = total l → (c = false → l = []) →
        (pick c l).getD [] = l ∧ UInt16.ofNat (total l) = n ∧ Short ((pick c l).map blob) ∧
        listVal ((pick c l).map blob) = (n, kept l) := by
      intro c n l hn hc
      have hm := n.toNat_lt
      cases c with
      | false =>
        rw [hc rfl] at hn ⊢
        have h0 : n = 0 := UInt16.toNat_inj.1 hn
        subst h0
        exact ⟨rfl, rfl, (fun x hx => by cases hx), rfl⟩
      | true =>
        refine ⟨rfl, by rw [← hn]; simp, ?_, ?_⟩
        · intro x hx
          cases hx
          rw [blob_length]
          omega
        · show (UInt16.ofNat (blob l).length, texts (blob l)) = _
          rw [blob_length, texts_blob l fun a ha => by have := mem_total ha; omega, ← hn]
          simp
    obtain ⟨g6, n6, s6, v6⟩ := hl h6 k6
    obtain ⟨g7, n7, s7, v7⟩ := hl h7 k7
    obtain ⟨g8, n8, s8, v8⟩ := hl h8 k8
    have hm := PFDContents.emits fl (pick (has1stBit fl) fd) (pick (has2ndBit fl) url) (pick (has3rdBit fl) dn)
      (pick (has4thBit fl) cp) (pick (has5thBit fl) dnp) (pick (has6thBit fl) afd) (pick (has7thBit fl) aurl)
      (pick (has8thBit fl) adnp) (pick_isSome _ _).symm (pick_isSome _ _).symm (pick_isSome _ _).symm
      (pick_isSome _ _).symm (pick_isSome _ _).symm (pick_isSome _ _).symm (pick_isSome _ _).symm
      (pick_isSome _ _).symm s1 s2 s3 s4 s5 s6 s7 s8
    have hr := fun sp => PFDContents.parse_eq fl 0 (pick (has1stBit fl) fd) (pick (has2ndBit fl) url)
      (pick (has3rdBit fl) dn)
      (pick (has4thBit fl) cp) (pick (has5thBit fl) dnp) ((pick (has6thBit fl) afd).map blob)
      ((pick (has7thBit fl) aurl).map blob) ((pick (has8thBit fl) adnp).map blob) (pick_isSome _ _).symm
      (pick_isSome _ _).symm (pick_isSome _ _).symm (pick_isSome _ _).symm (pick_isSome _ _).symm
      (by rw [Option.isSome_map, pick_isSome]; rfl) (by rw [Option.isSome_map, pick_isSome]; rfl)
      (by rw [Option.isSome_map, pick_isSome]; rfl) s1 s2 s3 s4 s5 s6 s7 s8 [] sp
    have hf : full fl (pick (has1stBit fl) fd) (pick (has2ndBit fl) url) (pick (has3rdBit fl) dn)
      (pick (has4thBit fl) cp) (pick (has5thBit fl) dnp) (pick (has6thBit fl) afd) (pick (has7thBit fl) aurl)
      (pick (has8thBit fl) adnp) = v := by
      unfold full
      simp only [g1, g2, g3, g4, g5, g6, g7, g8, n1, n2, n3, n4, n5, n6, n7, n8]
      exact hv
    rw [hf] at hm
    have hlen : ([fl, 0] ++ parts (pick (has1stBit fl) fd) (pick (has2ndBit fl) url) (pick (has3rdBit fl) dn)
      (pick (has4thBit fl) cp) (pick (has5thBit fl) dnp) ((pick (has6thBit fl) afd).map blob)
      ((pick (has7thBit fl) aurl).map blob) ((pick (has8thBit fl) adnp).map blob)).length = v.marshalLen :=
      W.Fixed.marshal (PFDContents.fixed v) hm
    refine ⟨_, hm, hlen, fun sp => ?_⟩
    have hr := hr sp
    rw [List.append_nil, hlen] at hr
    rw [hr]
    have hval : value fl (pick (has1stBit fl) fd) (pick (has2ndBit fl) url) (pick (has3rdBit fl) dn)
      (pick (has4thBit fl) cp) (pick (has5thBit fl) dnp) ((pick (has6thBit fl) afd).map blob)
      ((pick (has7thBit fl) aurl).map blob) ((pick (has8thBit fl) adnp).map blob)
        = { v with afd := kept v.afd, aurl := kept v.aurl, adnp := kept v.adnp } := by
      subst hv
      unfold value
      simp only [textVal, g1, g2, g3, g4, g5, n1, n2, n3, n4, n5, v6, v7, v8]
    rw [hval]
  constructor
  · rintro ⟨w, hm, hp⟩
    obtain ⟨x, a, b, c, d, e, f, g, h, post, ed, ev, ha, hb, hc, hd, he, hf, hg, hh, sa, sb, sc, sd, se, sf, sg, sh⟩ :=
      PFDContents.takes (hp [])
    have hlist : ∀ {c : Bool} {p : Option Bytes}, c = p.isSome → c = false → (listVal p).2 = [] := by
      intro c p h1 h2
      subst h1
      cases p with
      | none => rfl
      | some _ => cases h2
    have e := ev
    rw [← hv] at e
    unfold value at e
    simp only [PFDContents.mk.injEq, true_and] at e
    obtain ⟨e1, e2, e3, e4, e5, e6, e7, e8, e9, e10, _, e12, _, e14, _, e16⟩ := e
    rw [← hv] at ha hb hc hd he hf hg hh
    have k1 := textVal_kept _ a ha sa
    have k2 := textVal_kept _ b hb sb
    have k3 := textVal_kept _ c hc sc
    have k4 := textVal_kept _ d hd sd
    have k5 := textVal_kept _ e he se
    rw [← e1, ← e2] at k1
    rw [← e3, ← e4] at k2
    rw [← e5, ← e6] at k3
    rw [← e7, ← e8] at k4
    rw [← e9, ← e10] at k5
    have k6 := fun h => e12.trans (hlist hf h)
    have k7 := fun h => e14.trans (hlist hg h)
    have k8 := fun h => e16.trans (hlist hh h)
    refine ⟨⟨k1, k2, k3, k4, k5⟩, ⟨k6, k7, k8⟩, ?_⟩
    obtain ⟨w', h1, _, h2⟩ := key k1 k2 k3 k4 k5 k6 k7 k8
    rw [hm] at h1
    cases h1
    have h3 := (h2 []).symm.trans (hp [])
    split at h3
    · rename_i hr
      injection h3 with h3
      subst hv
      simp only [PFDContents.mk.injEq, true_and] at h3
      exact ⟨⟨h3.1, h3.2.1, h3.2.2⟩, hr⟩
    · cases h3
  · rintro ⟨⟨k1, k2, k3, k4, k5⟩, ⟨k6, k7, k8⟩, ⟨k9, k10, k11⟩, hr⟩
    obtain ⟨w, h1, _, h2⟩ := key k1 k2 k3 k4 k5 k6 k7 k8
    refine ⟨w, h1, fun sp => ?_⟩
    rw [h2, if_pos hr]
    subst hv
    simp only [k9, k10, k11]

example : PFDContents.codec.Keeps ⟨0x21, 3, [65, 66, 67], 0, [], 0, [], 0, [], 0, [], 3, [[68]], 0, [], 0, []⟩ :=
  (C80_PFDContents_partial _ (by decide) (by decide) (by decide)).2 (by unfold PFDContents.TextKept; decide)
example : ¬ PFDContents.codec.Keeps ⟨0x20, 0, [], 0, [], 0, [], 0, [], 0, [], 2, [[]], 0, [], 0, []⟩ := by
  rw [C80_PFDContents_partial _ (by decide) (by decide) (by decide)]
  unfold PFDContents.TextKept
  decide
/-- Without the hypothesis: a longer length may be stored for a list at the end. -/
example : PFDContents.codec.marshal ⟨0x20, 0, [], 0, [], 0, [], 0, [], 0, [], 4, [[68]], 0, [], 0, []⟩
      = .ok [0x20, 0, 0, 4, 0, 1, 68, 0] ∧ PFDContents.codec.parse ⟨[0x20, 0, 0, 4, 0, 1, 68, 0], []⟩
      = .ok ⟨0x20, 0, [], 0, [], 0, [], 0, [], 0, [], 4, [[68]], 0, [], 0, []⟩ := by decide

end Fields
end Pfcp
