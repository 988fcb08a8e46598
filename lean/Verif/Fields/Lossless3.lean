/- Property theorem C53 for PFDContents, exactly for the payloads whose lists are decoded to their ends. -/
import Verif.Fields.Lossless2
import Verif.Fields.Props7

namespace Pfcp
namespace Fields
namespace PFDContents

/-- The texts of a list are at its front. -/
theorem split_prefix (k : Nat) : ∀ b : Bytes, ∃ t, b = blob (split k b) ++ t ∧ ∀ a ∈ split k b, a.length < 65536 := by
  induction k with
  | zero => intro b; exact ⟨b, rfl, by intro a h; cases h⟩
  | succ k ih =>
    intro b
    unfold split
    by_cases c1 : b.length ≤ 2
    · rw [if_pos c1]; exact ⟨b, rfl, by intro a h; cases h⟩
    · rw [if_neg c1]
      by_cases c2 : b.length < 2 + (dec16 (b.take 2)).toNat
      · rw [if_pos c2]; exact ⟨b, rfl, by intro a h; cases h⟩
      · rw [if_neg c2]
        obtain ⟨t, e, hl⟩ := ih (b.drop (2 + (dec16 (b.take 2)).toNat))
        have hlen : ((b.drop 2).take (dec16 (b.take 2)).toNat).length = (dec16 (b.take 2)).toNat := by
          simp only [List.length_take, List.length_drop]; omega
        refine ⟨t, ?_, ?_⟩
        · rw [blob, lv, hlen, UInt16.ofNat_toNat, be16_dec16 _ (by rw [List.length_take]; omega)]
          simp only [List.append_assoc]
          rw [← e, ← List.drop_drop, List.take_append_drop, List.take_append_drop]
        · intro a h
          rcases List.mem_cons.1 h with rfl | h
          · rw [hlen]; exact (dec16 _).toNat_lt
          · exact hl a h

/-- A list of which no octet is left over. -/
theorem texts_whole {b : Bytes} (h : total (texts b) = b.length) : b = blob (texts b) ∧ kept (texts b) = texts b := by
  obtain ⟨t, e, hl⟩ := split_prefix b.length b
  have ht : t = [] := by
    have hb := congrArg List.length e
    rw [List.length_append, blob_length] at hb
    unfold texts at h
    exact List.length_eq_zero_iff.1 (by omega)
  rw [ht, List.append_nil] at e
  refine ⟨e, ?_⟩
  have h2 := texts_blob _ hl
  rw [← e] at h2
  exact h2.symm

end PFDContents

open PFDContents

/-- C53, exactly, for payloads whose lists are decoded to their ends (or absent), with nothing behind them in memory: they
come back if and only if the spare octet is zero. -/
theorem C53_PFDContents_exact (dt : Bytes) (v : PFDContents) (hp : PFDContents.codec.parse ⟨dt, []⟩ = .ok v)
    (h6 : v.afdLen.toNat = total v.afd) (h7 : v.aurlLen.toNat = total v.aurl) (h8 : v.adnpLen.toNat = total v.adnp) :
    (∃ w post, PFDContents.codec.marshal v = .ok w ∧ dt = w ++ post) ↔ dt[1]? = some 0 := by
  obtain ⟨x, a, b, c, d, e, f, g, h, post, ed, ev, ha, hb, hc, hd, he, hf, hg, hh, sa, sb, sc, sd, se, sf, sg, sh⟩ :=
    takes hp
  have whole : ∀ p : Option Bytes, Short p → (listVal p).1.toNat = total (listVal p).2 → ∃ q : Option (List Bytes),
      p = q.map blob ∧ listVal p = (UInt16.ofNat (total (q.getD [])), q.getD []) := by
    intro p sp hw
    cases p with
    | none => exact ⟨none, rfl, rfl⟩
    | some t =>
      have hs := sp t rfl
      have hn : (UInt16.ofNat t.length).toNat = t.length := by rw [UInt16.toNat_ofNat']; omega
      have hw' : t.length = total (texts t) := hn.symm.trans hw
      obtain ⟨e1, _⟩ := texts_whole hw'.symm
      refine ⟨some (texts t), by rw [Option.map_some, ← e1], ?_⟩
      show (UInt16.ofNat t.length, texts t) = (UInt16.ofNat (total (texts t)), texts t)
      rw [← hw']
  have v6 : v.afdLen = (listVal f).1 ∧ v.afd = (listVal f).2 := by rw [ev]; exact ⟨rfl, rfl⟩
  have v7 : v.aurlLen = (listVal g).1 ∧ v.aurl = (listVal g).2 := by rw [ev]; exact ⟨rfl, rfl⟩
  have v8 : v.adnpLen = (listVal h).1 ∧ v.adnp = (listVal h).2 := by rw [ev]; exact ⟨rfl, rfl⟩
  obtain ⟨qf, rfl, vf⟩ := whole f sf (by rw [← v6.1, ← v6.2]; exact h6)
  obtain ⟨qg, rfl, vg⟩ := whole g sg (by rw [← v7.1, ← v7.2]; exact h7)
  obtain ⟨qh, rfl, vh⟩ := whole h sh (by rw [← v8.1, ← v8.2]; exact h8)
  have hm := PFDContents.emits v.flags a b c d e qf qg qh ha hb hc hd he (by rw [hf]; simp) (by rw [hg]; simp)
    (by rw [hh]; simp) sa sb sc sd se sf sg sh
  have hv : v = full v.flags a b c d e qf qg qh := by
    refine ev.trans ?_
    unfold value full
    rw [vf, vg, vh]
    rfl
  rw [← hv] at hm
  constructor
  · rintro ⟨w, q, hw, e0⟩
    rw [hw] at hm
    cases hm
    rw [e0]
    rfl
  · intro hx
    rw [ed] at hx
    have hx' : x = 0 := by simpa using hx
    subst hx'
    exact ⟨_, post, hm, ed⟩

example : ∃ v, PFDContents.codec.parse ⟨[0x60, 0, 0, 3, 0, 1, 66, 0, 3, 0, 1, 65], []⟩ = .ok v ∧
    v.afdLen.toNat = total v.afd ∧ v.aurlLen.toNat = total v.aurl ∧ v.adnpLen.toNat = total v.adnp :=
  ⟨⟨0x60, 0, [], 0, [], 0, [], 0, [], 0, [], 3, [[66]], 3, [[65]], 0, []⟩, by decide, by decide, by decide, by decide⟩

end Fields
end Pfcp
