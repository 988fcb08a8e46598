/-
C94: what registering further grouped types does to decoding.
-/
import Verif.IE.Register
import Verif.Config.Props
import Verif.Message.LengthExact

namespace Pfcp

variable (g g' : IEType → Bool)

/-- C94 (a). With more types grouped, what is still accepted is the same elements with the same payloads; only children
are added. With fewer types grouped nothing that was accepted is refused. -/
theorem C94_children_only (hs : ∀ t, g t = true → g' t = true) (b : Bytes) (xs : List IE)
    (h : parseMulti g' b = .ok xs) : parseMulti g b = .ok (xs.map (·.restrict g)) := by
  rw [← restrictList_eq]
  exact ((decodes_iff.1 h).restricted hs).parse

/-- C94, exactly: what was accepted before is still accepted if and only if the payload of every element of a grouped type
is itself accepted. -/
theorem C94_still_accepted_iff (hs : ∀ t, g t = true → g' t = true) (b : Bytes) :
    (∃ ys, parseMulti g' b = .ok ys) ↔
    ∃ xs, parseMulti g b = .ok xs ∧ ∀ i ∈ xs, g' i.typ = true → ∃ cs, parseMulti g' i.payload = .ok cs := by
  constructor
  · rintro ⟨ys, hy⟩
    refine ⟨_, C94_children_only g g' hs b ys hy, ?_⟩
    intro i hi hg
    obtain ⟨j, hj, rfl⟩ := List.mem_map.1 hi
    obtain ⟨e1, e2⟩ := restrict_typ g j
    rw [e1] at hg
    rw [e2]
    exact ⟨_, (((decodes_iff.1 hy).within (.here _ hj)).1 hg).parse⟩
  · rintro ⟨xs, hx, ho⟩
    refine accepted_parse ((decodes_iff.1 hx).opened ?_)
    intro i hi hg
    obtain ⟨cs, hc⟩ := ho i hi hg
    exact (decodes_iff.1 hc).accepted

/-- C94, exactly: two configurations give the same result if and only if every element in it, at any depth, whose type they
treat differently has no payload. -/
theorem C94_same_result_iff (b : Bytes) (xs : List IE) (h : parseMulti g b = .ok xs) :
    parseMulti g' b = .ok xs ↔ ∀ i, Within i xs → g i.typ ≠ g' i.typ → i.payload = [] := by
  have hd := decodes_iff.1 h
  constructor
  · intro h' i hi hne
    have hd' := decodes_iff.1 h'
    obtain ⟨a1, a2⟩ := hd.within hi
    obtain ⟨b1, b2⟩ := hd'.within hi
    by_cases hg : g i.typ = true
    · have h2 : g' i.typ = false := by
        cases hq : g' i.typ with
        | false => rfl
        | true => exact absurd (hg.trans hq.symm) hne
      have := a1 hg
      rw [b2 h2] at this
      exact this.to_nil
    · have hg : g i.typ = false := by simpa using hg
      have h2 : g' i.typ = true := by
        cases hq : g' i.typ with
        | true => rfl
        | false => exact absurd (hg.trans hq.symm) hne
      have := b1 h2
      rw [a2 hg] at this
      exact this.to_nil
  · intro ha
    exact (hd.agree ha).parse

/-- C94 (b). Octets without elements of the types in question are decoded alike. -/
theorem C94_other_types (b : Bytes) (xs : List IE) (h : parseMulti g b = .ok xs)
    (ha : ∀ i, Within i xs → g i.typ = g' i.typ) : parseMulti g' b = .ok xs :=
  (C94_same_result_iff g g' b xs h).2 fun i hi hne => absurd (ha i hi) hne

example : ∃ xs, parseMulti (fun _ => false) [0, 56, 0, 2, 0, 7] = .ok xs ∧ (∀ i, Within i xs → i.typ = 56) := by
  have hd := Decodes.closed (g := fun _ => false) 56 2 0 [0, 7] [] [] [] rfl (fun h => by cases h) (fun _ => rfl) .nil
  refine ⟨_, hd.parse, ?_⟩
  intro i hi
  cases hi with
  | here _ h => rw [List.mem_singleton] at h; rw [h]
  | inside j _ h h2 =>
    rw [List.mem_singleton] at h; subst h
    cases h2 with
    | here _ h => cases h
    | inside j _ h => cases h

/-- C07 for decoded elements: at every depth the children of a group are what its payload decodes to, and elements of other
types have none. -/
theorem C07_decoded (b : Bytes) (xs : List IE) (h : parseMulti g b = .ok xs) (i : IE) (hi : Within i xs) :
    if g i.typ then parseMulti g i.payload = .ok i.children else i.children = [] := by
  obtain ⟨h1, h2⟩ := (decodes_iff.1 h).within hi
  split
  · rename_i hg; exact (h1 hg).parse
  · rename_i hg; exact h2 (by simpa using hg)

/-- C94 is false as stated: after PDR ID was registered as grouped, the PDR ID element (and with it every message that
carries one) is refused. -/
theorem C94_registration_violated :
    (∃ xs, parseMulti (defaultGroupedTypes.contains ·) [0, 56, 0, 2, 0, 7] = .ok xs) ∧
    ¬ ∃ xs, parseMulti (fun t => defaultGroupedTypes.contains t || t == 56) [0, 56, 0, 2, 0, 7] = .ok xs := by
  constructor
  · exact accepted_parse (.cons 56 2 0 [0, 7] [] rfl (fun h => absurd h (by decide +kernel)) .nil)
  · rw [C94_still_accepted_iff (fun _ => false) _ (fun t h => by cases h)]
    rintro ⟨xs, hx, ho⟩
    have hd := Decodes.closed (g := fun _ => false) 56 2 0 [0, 7] [] [] [] rfl (fun h => by cases h) (fun _ => rfl) .nil
    have hx' : parseMulti (fun _ => false) [0, 56, 0, 2, 0, 7] = _ := hd.parse
    rw [hx'] at hx
    cases hx
    obtain ⟨cs, hc⟩ := ho _ List.mem_cons_self (by decide +kernel)
    have hl : ([0, 7] : Bytes).length < 4 := by decide
    rw [parseMulti_unfold _ _ (by simp), parse_unfold, parseBody_eq, if_pos hl] at hc
    cases hc

/-- C94, what an AddGroupedIEType call does to the rule: no type stops being grouped, and only the types given can start
to be. With `C94_children_only` and `C94_other_types`: what is still accepted differs in children only, and octets in
which none of the types given occurs are decoded as before. What is missing is acceptance itself (`C94_still_accepted_iff`). -/
theorem C94_registration_partial (cs : List Config.Call) (hp : Config.Proper cs) (ts : List IEType)
    (hg : ∀ t, Config.isGrouped (Config.run Config.init cs) t = .ok (g t))
    (hg' : ∀ t, Config.isGrouped (Config.run Config.init (cs ++ [.add ts])) t = .ok (g' t)) :
    (∀ t, g t = true → g' t = true) ∧ (∀ t, t ∉ ts → g' t = g t) ∧
    (∀ b xs, parseMulti g' b = .ok xs → parseMulti g b = .ok (xs.map (·.restrict g))) ∧
    (∀ b xs, parseMulti g b = .ok xs → (∀ i, Within i xs → i.typ ∉ ts) → parseMulti g' b = .ok xs) := by
  have hp' : Config.Proper (cs ++ [.add ts]) := by
    intro f hf
    rcases List.mem_append.1 hf with h | h
    · exact hp f h
    · simp at h
  have hls : Config.lastSet (cs ++ [.add ts]) = Config.lastSet cs := by
    clear hg hg' hp hp'
    induction cs with
    | nil => rfl
    | cons c cs ih =>
      cases c with
      | add us => exact ih
      | set f => simp only [List.cons_append, Config.lastSet, ih]
  have hadd : ∀ t, Config.Added t (cs ++ [.add ts]) ↔ Config.Added t cs ∨ t ∈ ts := by
    intro t
    unfold Config.Added
    constructor
    · rintro ⟨us, hu, ht⟩
      rcases List.mem_append.1 hu with h | h
      · exact .inl ⟨us, h, ht⟩
      · rw [List.mem_singleton] at h; cases h; exact .inr ht
    · rintro (⟨us, hu, ht⟩ | ht)
      · exact ⟨us, List.mem_append_left _ hu, ht⟩
      · exact ⟨ts, by simp, ht⟩
  have key : ∀ t, (g t = true → g' t = true) ∧ (g' t = true → t ∉ ts → g t = true) := by
    intro t
    obtain ⟨v, hv, hr⟩ := Config.C11_grouped_rule cs hp t
    obtain ⟨v', hv', hr'⟩ := Config.C11_grouped_rule _ hp' t
    rw [hg t] at hv
    rw [hg' t] at hv'
    cases hv
    cases hv'
    rw [hls] at hr'
    rw [hr, hr']
    split
    · exact ⟨id, fun h _ => h⟩
    · rw [hadd]
      exact ⟨fun h => h.elim .inl (fun h => .inr (.inl h)), fun h hn => h.elim .inl (fun h => h.elim .inr (fun h => absurd h hn))⟩
  have h1 : ∀ t, g t = true → g' t = true := fun t => (key t).1
  have h2 : ∀ t, t ∉ ts → g' t = g t := by
    intro t ht
    cases hq : g t with
    | true => exact h1 t hq
    | false =>
      cases hq' : g' t with
      | false => rfl
      | true => rw [(key t).2 hq' ht] at hq; cases hq
  refine ⟨h1, h2, C94_children_only g g' h1, ?_⟩
  intro b xs hx hw
  exact C94_other_types g g' b xs hx fun i hi => (h2 _ (hw i hi)).symm

example : Config.Proper [.add [500], .set (.user fun _ => true)] := by
  intro f hf
  simp at hf
  exact ⟨_, hf⟩

namespace Msg

/-- C94 (a) for messages: with fewer types grouped the same datagram gives the same message, with fewer children. -/
theorem C94_message (hs : ∀ t, g t = true → g' t = true) (b : Bytes) (m : Msg) (h : parse g' b = .ok m) :
    ∃ xs, m = filed m.kind m.header xs ∧ parse g b = .ok (filed m.kind m.header (xs.map (·.restrict g))) := by
  rw [parse_normal, Res.bind_eq_ok] at h
  obtain ⟨hd, hp, h⟩ := h
  split at h
  · rename_i h2
    cases h
    refine ⟨[], rfl, ?_⟩
    rw [parse_normal, hp, Res.ok_bind, if_pos h2]
    rfl
  · rename_i h2
    obtain ⟨xs, hx, h⟩ := Res.bind_eq_ok.1 h
    cases h
    refine ⟨xs, rfl, ?_⟩
    rw [parse_normal, hp, Res.ok_bind, if_neg h2, C94_children_only g g' hs _ _ hx, Res.ok_bind]
    rfl

/-- C94, exactly, for messages. -/
theorem C94_message_accepted_iff (hs : ∀ t, g t = true → g' t = true) (b : Bytes) :
    (∃ m, parse g' b = .ok m) ↔ ∃ m, parse g b = .ok m ∧
      ∀ xs, parseMulti g m.header.payload = .ok xs → ∀ i ∈ xs, g' i.typ = true → ∃ cs, parseMulti g' i.payload = .ok cs := by
  constructor
  · rintro ⟨m, h⟩
    obtain ⟨ys, hm, h'⟩ := C94_message g g' hs b m h
    refine ⟨_, h', ?_⟩
    intro xs hx
    rw [parse_normal, Res.bind_eq_ok] at h
    obtain ⟨hd, hp, h⟩ := h
    have hx : parseMulti g m.header.payload = .ok xs := hx
    split at h
    · rename_i h2
      cases h
      have hx : parseMulti g hd.payload = .ok xs := hx
      match hq : hd.payload with
      | [] =>
        rw [hq, parseMulti_nil] at hx
        cases hx
        intro i hi; cases hi
      | [x] =>
        rw [hq, parseMulti_unfold _ _ (by simp), parse_unfold, parseBody_eq, if_pos (by simp)] at hx
        cases hx
      | _ :: _ :: _ => rw [hq] at h2; simp at h2; omega
    · obtain ⟨zs, hz, h⟩ := Res.bind_eq_ok.1 h
      cases h
      have hx : parseMulti g hd.payload = .ok xs := hx
      obtain ⟨xs', hx', ho⟩ := (C94_still_accepted_iff g g' hs hd.payload).1 ⟨zs, hz⟩
      rw [hx] at hx'
      cases hx'
      exact ho
  · rintro ⟨m, h, ho⟩
    rw [parse_normal, Res.bind_eq_ok] at h
    obtain ⟨hd, hp, h⟩ := h
    split at h
    · rename_i h2
      exact ⟨_, by rw [parse_normal, hp, Res.ok_bind, if_pos h2]⟩
    · rename_i h2
      obtain ⟨xs, hx, h⟩ := Res.bind_eq_ok.1 h
      cases h
      obtain ⟨ys, hy⟩ := (C94_still_accepted_iff g g' hs hd.payload).2 ⟨xs, hx, ho xs hx⟩
      exact ⟨_, by rw [parse_normal, hp, Res.ok_bind, if_neg h2, hy, Res.ok_bind]⟩

end Msg

end Pfcp
