/-
C50: configuration changes that concern no element of the octets being decoded.
-/
import Verif.IE.LiveProps
import Verif.IE.Register

namespace Pfcp
namespace Live

mutual
theorem marshalLen_alike {o : Oracle} {g : IEType → Bool} : ∀ (i : IE) (n : Nat),
    (∀ n, o n i.typ = g i.typ) → (∀ j, Within j i.children → ∀ n, o n j.typ = g j.typ) →
    (marshalLen o i n).1 = i.marshalLen g
  | ⟨t, _, _, p, cs⟩, n, ht, hc => by
    simp only at ht hc
    simp only [marshalLen, IE.marshalLen, ht]
    split
    · exact marshalLenList_alike cs _ _ hc
    · rfl
theorem marshalLenList_alike {o : Oracle} {g : IEType → Bool} : ∀ (cs : List IE) (l n : Nat),
    (∀ j, Within j cs → ∀ n, o n j.typ = g j.typ) → (marshalLenList o l cs n).1 = Pfcp.marshalLenList g l cs
  | [], l, n, _ => rfl
  | c :: cs, l, n, hc => by
    simp only [marshalLenList, Pfcp.marshalLenList]
    rw [marshalLenList_alike cs _ _ (fun j hj => hc j (by
        cases hj with
        | here _ h => exact .here _ (List.mem_cons_of_mem _ h)
        | inside k _ h h2 => exact .inside k _ (List.mem_cons_of_mem _ h) h2)),
      marshalLen_alike c n (hc c (.here _ List.mem_cons_self)) (fun j hj => hc j (.inside c _ List.mem_cons_self hj))]
end

theorem alike {o : Oracle} {g : IEType → Bool} : ∀ fuel : Nat,
    (∀ b n i, Pfcp.unmarshalF g fuel b = .ok i → (∀ n, o n i.typ = g i.typ) →
      (∀ j, Within j i.children → ∀ n, o n j.typ = g j.typ) → ∃ n', unmarshalF o fuel b n = .ok (i, n')) ∧
    (∀ b n xs, Pfcp.parseMultiF g fuel b = .ok xs → (∀ j, Within j xs → ∀ n, o n j.typ = g j.typ) →
      ∃ n', parseMultiF o fuel b n = .ok (xs, n')) := by
  intro fuel
  induction fuel with
  | zero =>
    constructor
    · intro b n i h; rw [Pfcp.unmarshalF] at h; cases h
    · intro b n i h; rw [Pfcp.parseMultiF] at h; cases h
  | succ fuel ih =>
    constructor
    · intro b n i h ht hc
      rw [unmarshal_head] at h
      rw [unmarshalF]
      obtain ⟨⟨t, len, eid, p⟩, hh, h⟩ := Res.bind_eq_ok.1 h
      rw [hh]
      simp only [Res.ok_bind] at h ⊢
      cases p with
      | none =>
        simp only at h ⊢
        cases h
        exact ⟨_, rfl⟩
      | some p =>
        simp only at h ⊢
        split at h
        · rename_i hg
          obtain ⟨cs, hcs, h⟩ := Res.bind_eq_ok.1 h
          cases h
          have ho : o n t = true := (ht n).trans hg
          obtain ⟨n', hn⟩ := ih.2 p (n + 1) cs hcs hc
          rw [if_pos ho, hn]
          exact ⟨_, rfl⟩
        · rename_i hg
          cases h
          have ho : ¬ o n t = true := by rw [ht n]; exact hg
          rw [if_neg ho]
          exact ⟨_, rfl⟩
    · intro b n xs h hc
      rw [Pfcp.parseMultiF] at h
      rw [parseMultiF]
      split at h
      · rename_i h0
        cases h
        rw [if_pos h0]
        exact ⟨_, rfl⟩
      · rename_i h0
        rw [if_neg h0]
        obtain ⟨i, hi, h⟩ := Res.bind_eq_ok.1 h
        obtain ⟨rest, hr, h⟩ := Res.bind_eq_ok.1 h
        obtain ⟨is, his, h⟩ := Res.bind_eq_ok.1 h
        cases h
        have c1 := hc i (.here _ List.mem_cons_self)
        have c2 : ∀ j, Within j i.children → ∀ n, o n j.typ = g j.typ :=
          fun j hj => hc j (.inside i _ List.mem_cons_self hj)
        obtain ⟨n1, h1⟩ := ih.1 b n i hi c1 c2
        rw [h1]
        simp only [Res.ok_bind]
        rw [marshalLen_alike i n1 c1 c2, hr]
        simp only [Res.ok_bind]
        obtain ⟨n2, h2⟩ := ih.2 rest (marshalLen o i n1).2 is his (fun j hj => hc j (by
          cases hj with
          | here _ h => exact .here _ (List.mem_cons_of_mem _ h)
          | inside k _ h h2 => exact .inside k _ (List.mem_cons_of_mem _ h) h2))
        rw [h2]
        exact ⟨_, rfl⟩

/-- C50, what holds of every history, registrations and installations alike: changes made while octets are decoded that
concern none of the types that occur in them, at any depth, are not noticed. -/
theorem C50_unconcerned_partial (h : Nat → Config.State) (b : Bytes) (xs : List IE)
    (hb : Pfcp.parseMulti (answers h 0) b = .ok xs)
    (hu : ∀ i, Within i xs → ∀ n, answers h n i.typ = answers h 0 i.typ) :
    ∃ n, parseMulti (answers h) b 0 = .ok (xs, n) :=
  (alike (2 * b.length + 2)).2 b 0 xs hb hu

/-- C50 for registrations: no type that occurs in the octets is registered meanwhile. -/
theorem C50_registering_others_partial (h : Nat → Config.State) (ts : List IEType)
    (hh : ∀ n, ∃ cs, (∀ c ∈ cs, ∃ us, c = .add us ∧ ∀ t ∈ us, t ∈ ts) ∧ h (n + 1) = Config.run (h n) cs)
    (b : Bytes) (xs : List IE) (hb : Pfcp.parseMulti (answers h 0) b = .ok xs) (hu : ∀ i, Within i xs → i.typ ∉ ts) :
    ∃ n, parseMulti (answers h) b 0 = .ok (xs, n) := by
  refine C50_unconcerned_partial h b xs hb ?_
  intro i hi n
  induction n with
  | zero => rfl
  | succ n ih =>
    rw [← ih]
    obtain ⟨cs, hcs, he⟩ := hh n
    have hr := run_adds cs (h n) (fun c hc => by obtain ⟨us, e, _⟩ := hcs c hc; exact ⟨us, e⟩)
    unfold answers Config.isGrouped
    rw [he, hr.1]
    cases (h n).fn with
    | initial =>
      have : i.typ ∈ (Config.run (h n) cs).keys ↔ i.typ ∈ (h n).keys := by
        rw [Config.mem_run]
        constructor
        · rintro (h | ⟨us, hm, ht⟩)
          · exact h
          · obtain ⟨vs, e, hv⟩ := hcs _ hm
            cases e
            exact absurd (hv _ ht) (hu i hi)
        · exact .inl
      simp only [this]
    | user f => rfl
    | nil => rfl

/-- The hypotheses are met: PDR ID is decoded while type 500 is registered after the first query. -/
example : ∃ n, parseMulti (answers fun n => if n = 0 then Config.init else Config.run Config.init [.add [500]])
    [0, 56, 0, 2, 0, 7] 0 = .ok ([⟨56, 2, 0, [0, 7], []⟩], n) := by
  refine C50_registering_others_partial _ [500] ?_ _ _ ?_ ?_
  · intro n
    match n with
    | 0 => exact ⟨[.add [500]], by simp, rfl⟩
    | n + 1 => exact ⟨[], by simp, rfl⟩
  · exact (Decodes.closed 56 2 0 [0, 7] [] [] [] rfl (fun h => absurd h (by decide +kernel)) (fun _ => rfl) .nil).parse
  · intro i hi
    cases hi with
    | here _ h => rw [List.mem_singleton] at h; subst h; decide
    | inside j _ h h2 =>
      rw [List.mem_singleton] at h; subst h
      cases h2 with
      | here _ h => cases h
      | inside j _ h => cases h

end Live
end Pfcp
