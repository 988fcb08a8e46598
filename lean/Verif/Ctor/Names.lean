/- Exact results for network instances (C57). -/
import Verif.Ctor.MultiProps2
import Verif.Text.Names

namespace Pfcp
open Text

/-- What the heuristic does with any payload: the name, unless that is empty. -/
theorem C57_heuristic_eq (g : IEType → Bool) (mem : IE → Bytes) (p : Bytes) (hg : g T.NetworkInstance = false) (ls : List Bytes)
    (t : Bytes) (hp : p = wireName ls ++ t) (hl : ∀ l ∈ ls, l.length < 256) (ht : Cut t) :
    networkInstanceHeuristic g mem (IE.new T.NetworkInstance p) = .ok (if dotted ls = [] then p else dotted ls) := by
  unfold networkInstanceHeuristic networkInstanceFQDN
  rw [network_instance_raw g mem _ hg]
  show (decodeFQDN p >>= fun v => if v ≠ [] then _ else Res.ok p) = _
  rw [(C33_decode_exact p).2 ls t hp hl ht, Res.ok_bind]
  by_cases h : dotted ls = []
  · rw [if_neg (fun hn => hn h), if_pos h]
  · rw [if_pos h, if_neg h]

theorem dotted_nil (ls : List Bytes) : dotted ls = [] ↔ ls = [] ∨ ls = [[]] := by
  match ls with
  | [] => simp [dotted]
  | [l] => simp [dotted]
  | l :: l2 :: ls => simp [dotted]

/-- C57, exact: the heuristic returns a plain text unchanged if and only if the text has no complete label at its front (its first
octet is at least its length), or is a zero octet before such a text. -/
theorem C57_text_iff (g : IEType → Bool) (mem : IE → Bytes) (f : SecondsConv) (p : Bytes) (hg : g T.NetworkInstance = false) :
    ∃ i, IECtor.NewNetworkInstance.build f (.bytes p) = some i ∧
      (networkInstanceHeuristic g mem i = .ok p ↔ Cut p ∨ ∃ t, p = 0 :: t ∧ Cut t) := by
  refine ⟨IE.new T.NetworkInstance p, rfl, ?_⟩
  obtain ⟨ls, t, hp, hl, ht⟩ := (C33_decode_exact p).1
  rw [C57_heuristic_eq g mem p hg ls t hp hl ht, Res.ok.injEq]
  constructor
  · intro h
    by_cases hd : dotted ls = []
    · rcases (dotted_nil ls).1 hd with rfl | rfl
      · rw [hp]; exact .inl ht
      · exact .inr ⟨t, hp, ht⟩
    · rw [if_neg hd] at h
      have := C33_decode_shorter p (dotted ls) ((C33_decode_exact p).2 ls t hp hl ht) hd
      rw [h] at this
      omega
  · intro h
    have hz : ls = [] ∨ ls = [[]] := by
      have e := labelsOf_wire ls hl t ht
      rw [← hp] at e
      rcases h with h | ⟨t', hp', h⟩
      · have := labelsOf_wire [] (by intro l hl; cases hl) p h
        rw [show wireName [] ++ p = p from rfl] at this
        exact .inl (e.symm.trans this)
      · have := labelsOf_wire [[]] (by intro l hl; cases List.mem_singleton.1 hl; decide) t' h
        rw [show wireName [[]] ++ t' = 0 :: t' from rfl, ← hp'] at this
        exact .inr (e.symm.trans this)
    rw [if_pos ((dotted_nil ls).2 hz)]

/-- C57, exact for names: the heuristic returns the name unless it is empty. -/
theorem C57_name_iff (g : IEType → Bool) (mem : IE → Bytes) (f : SecondsConv) (ls : List Bytes) (hls : ls ≠ [])
    (h : ∀ l ∈ ls, l.length < 256 ∧ (46 : UInt8) ∉ l) (hg : g T.NetworkInstance = false) :
    ∃ i, IECtor.NewNetworkInstanceFQDN.build f (.bytes (dotted ls)) = some i ∧
      (networkInstanceHeuristic g mem i = .ok (dotted ls) ↔ dotted ls ≠ []) := by
  refine ⟨IE.new T.NetworkInstance (wireName ls), ?_, ?_⟩
  · show (match encodeFQDN (dotted ls) with | .ok b => some b | _ => none).map (IE.new T.NetworkInstance) = _
    rw [C33_layout ls hls fun l hl => (h l hl).2]
    rfl
  · rw [C57_heuristic_eq g mem _ hg ls [] (by simp) (fun l hl => (h l hl).1) (.inl rfl), Res.ok.injEq]
    by_cases hd : dotted ls = []
    · rw [if_pos hd, hd]
      rcases (dotted_nil ls).1 hd with rfl | rfl
      · exact absurd rfl hls
      · simp [wireName]
    · rw [if_neg hd]
      simp [hd]

/-- `internet` is kept, a text of 49 octets beginning with a digit is not. -/
example : Cut [105, 110, 116, 101, 114, 110, 101, 116] ∧ ¬ Cut (48 :: List.replicate 48 97) := by
  refine ⟨.inr ⟨105, _, rfl, by decide⟩, ?_⟩
  rintro (h | ⟨c, s, h, hc⟩)
  · cases h
  · cases h
    exact absurd hc (by decide)

end Pfcp
