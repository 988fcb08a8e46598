/-
Two configurations and the same octets (C94): the results of the decoder as a relation, the elements within a result, and
the result with the children of some types left out. Definitions and helper lemmas; nothing here is part of the Go code.
-/
import Verif.IE.Accept

namespace Pfcp

/-- The elements a byte string stands for when the types `g` are grouped. -/
inductive Decodes (g : IEType → Bool) : Bytes → List IE → Prop
  | nil : Decodes g [] []
  | bare (t : IEType) (len eid : UInt16) : (isVendor t = true → 2 ≤ len.toNat) →
      Decodes g (encHdr t len eid) [⟨t, len, if isVendor t then eid else 0, [], []⟩]
  | closed (t : IEType) (len eid : UInt16) (body rest : Bytes) (cs xs : List IE) :
      len.toNat = (if isVendor t then 2 else 0) + body.length → (g t = true → Decodes g body cs) →
      (g t = false → cs = []) → Decodes g rest xs →
      Decodes g (encHdr t len eid ++ body ++ rest) (⟨t, len, if isVendor t then eid else 0, body, cs⟩ :: xs)

/-- `i` is one of the elements or, at any depth, inside one. -/
inductive Within (i : IE) : List IE → Prop
  | here (xs : List IE) : i ∈ xs → Within i xs
  | inside (j : IE) (xs : List IE) : j ∈ xs → Within i j.children → Within i xs

mutual
/-- The element without the children of types that are not grouped, at all depths. -/
def IE.restrict (g : IEType → Bool) : IE → IE
  | ⟨t, l, e, p, cs⟩ => ⟨t, l, e, p, if g t then restrictList g cs else []⟩
/-- The same for a list. -/
def restrictList (g : IEType → Bool) : List IE → List IE
  | [] => []
  | i :: is => i.restrict g :: restrictList g is
end

theorem restrictList_eq (g : IEType → Bool) (xs : List IE) : restrictList g xs = xs.map (·.restrict g) := by
  induction xs with
  | nil => rfl
  | cons i is ih => rw [restrictList, ih]; rfl

theorem restrict_typ (g : IEType → Bool) (i : IE) : (i.restrict g).typ = i.typ ∧ (i.restrict g).payload = i.payload := by
  obtain ⟨t, l, e, p, cs⟩ := i
  simp only [IE.restrict, and_self]

variable {g g' : IEType → Bool}

theorem Decodes.parse {b : Bytes} {xs : List IE} (h : Decodes g b xs) : parseMulti g b = .ok xs := by
  induction h with
  | nil => exact parseMulti_nil g
  | bare t len eid hl =>
    refine parseMulti_step (rest := []) ?_ (parse_bare g t len eid hl) (parseMulti_nil g)
    rw [enc_grouped _ _ _ _ _ _ (by split <;> simp [encList])]
    simp
  | closed t len eid body rest cs xs hl _ hn _ ih1 ih2 =>
    have hcs : (if g t then encList g cs else body) = body := by
      split
      · rename_i hg
        exact ((parse_sound g body.length).2 body (Nat.le_refl _)).2 cs (ih1 hg)
      · rfl
    refine parseMulti_step (rest := rest) ?_ ?_ ih2
    · rw [enc_grouped _ _ _ _ _ _ hcs]
    · by_cases hne : body ++ rest = []
      · obtain ⟨rfl, rfl⟩ := List.append_eq_nil_iff.1 hne
        have : cs = [] := by
          by_cases hg : g t = true
          · have := ih1 hg
            rw [parseMulti_nil] at this
            exact (Res.ok.inj this).symm
          · exact hn (by simpa using hg)
        subst this
        have := parse_bare g t len eid (fun hv => by simp [hv] at hl; omega)
        simpa using this
      · rw [parse_tlv g t len eid body rest hl hne]
        by_cases hg : g t = true
        · rw [if_pos hg, ih1 hg, Res.ok_bind]
        · rw [if_neg hg, hn (by simpa using hg)]

theorem Accepted.decodes {b : Bytes} (h : Accepted g b) : ∃ xs, Decodes g b xs := by
  induction h with
  | nil => exact ⟨_, .nil⟩
  | trunc t len eid hl => exact ⟨_, .bare t len eid hl⟩
  | cons t len eid body rest hl _ _ ih1 ih2 =>
    obtain ⟨xs, hx⟩ := ih2
    by_cases hg : g t = true
    · obtain ⟨cs, hc⟩ := ih1 hg
      exact ⟨_, .closed t len eid body rest cs xs hl (fun _ => hc) (fun h => by rw [hg] at h; cases h) hx⟩
    · exact ⟨_, .closed t len eid body rest [] xs hl (fun h => absurd h hg) (fun _ => rfl) hx⟩

theorem Decodes.accepted {b : Bytes} {xs : List IE} (h : Decodes g b xs) : Accepted g b := by
  induction h with
  | nil => exact .nil
  | bare t len eid hl => exact .trunc t len eid hl
  | closed t len eid body rest cs xs hl _ _ _ ih1 ih2 => exact .cons t len eid body rest hl ih1 ih2

theorem decodes_iff {b : Bytes} {xs : List IE} : parseMulti g b = .ok xs ↔ Decodes g b xs := by
  refine ⟨fun h => ?_, Decodes.parse⟩
  obtain ⟨ys, hy⟩ := (parse_accepted_aux g b.length b (Nat.le_refl _) xs h).decodes
  have := hy.parse
  rw [h] at this
  rw [Res.ok.inj this]
  exact hy

theorem Decodes.of_nil {b : Bytes} {xs : List IE} (h : Decodes g b xs) (hb : b = []) : xs = [] := by
  have := h.parse
  rw [hb, parseMulti_nil] at this
  exact (Res.ok.inj this).symm

theorem Decodes.to_nil {b : Bytes} (h : Decodes g b []) : b = [] := by
  have := ((parse_sound g b.length).2 b (Nat.le_refl _)).2 [] h.parse
  rw [← this]; rfl

/-- Every element within a result is the result of its own contents. -/
theorem Decodes.within {b : Bytes} {xs : List IE} (h : Decodes g b xs) {i : IE} (hi : Within i xs) :
    (g i.typ = true → Decodes g i.payload i.children) ∧ (g i.typ = false → i.children = []) := by
  induction h with
  | nil =>
    cases hi with
    | here _ h => cases h
    | inside j _ h => cases h
  | bare t len eid hl =>
    cases hi with
    | here _ h =>
      rw [List.mem_singleton] at h; subst h
      exact ⟨fun _ => .nil, fun _ => rfl⟩
    | inside j _ h h2 =>
      rw [List.mem_singleton] at h; subst h
      cases h2 with
      | here _ h => cases h
      | inside j _ h => cases h
  | closed t len eid body rest cs xs hl hd hn _ ih1 ih2 =>
    cases hi with
    | here _ h =>
      rcases List.mem_cons.1 h with h | h
      · subst h; exact ⟨hd, hn⟩
      · exact ih2 (.here _ h)
    | inside j _ h h2 =>
      rcases List.mem_cons.1 h with h | h
      · subst h
        by_cases hg : g t = true
        · exact ih1 hg h2
        · have := hn (by simpa using hg)
          subst this
          cases h2 with
          | here _ h => cases h
          | inside j _ h => cases h
      · exact ih2 (.inside j _ h h2)

/-- The results under two configurations are the same if they treat the elements within alike. -/
theorem Decodes.agree {b : Bytes} {xs : List IE} (h : Decodes g b xs)
    (ha : ∀ i, Within i xs → g i.typ ≠ g' i.typ → i.payload = []) : Decodes g' b xs := by
  induction h with
  | nil => exact .nil
  | bare t len eid hl => exact .bare t len eid hl
  | closed t len eid body rest cs xs hl hd hn _ ih1 ih2 =>
    have hthis : g t ≠ g' t → body = [] := fun hne => ha _ (.here _ List.mem_cons_self) hne
    refine .closed t len eid body rest cs xs hl ?_ ?_ (ih2 fun i hi => ha i ?_)
    · intro hg'
      by_cases hg : g t = true
      · exact ih1 hg fun i hi => ha i (.inside _ _ List.mem_cons_self hi)
      · have hb := hthis (by rw [hg']; exact hg)
        rw [hb, hn (by simpa using hg)]
        exact .nil
    · intro hg'
      by_cases hg : g t = true
      · exact (hd hg).of_nil (hthis (by rw [hg, hg']; decide))
      · exact hn (by simpa using hg)
    · cases hi with
      | here _ h => exact .here _ (List.mem_cons_of_mem _ h)
      | inside j _ h h2 => exact .inside j _ (List.mem_cons_of_mem _ h) h2

theorem Decodes.restricted (hs : ∀ t, g t = true → g' t = true) {b : Bytes} {xs : List IE} (h : Decodes g' b xs) :
    Decodes g b (restrictList g xs) := by
  induction h with
  | nil => exact .nil
  | bare t len eid hl =>
    have := Decodes.bare (g := g) t len eid hl
    simp only [restrictList, IE.restrict, ite_self]
    exact this
  | closed t len eid body rest cs xs hl _ hn _ ih1 ih2 =>
    simp only [restrictList, IE.restrict]
    refine .closed t len eid body rest _ _ hl ?_ ?_ ih2
    · intro hg; rw [if_pos hg]; exact ih1 (hs t hg)
    · intro hg; rw [if_neg (by rw [hg]; decide)]

theorem Decodes.opened {b : Bytes} {xs : List IE} (h : Decodes g b xs)
    (ho : ∀ i ∈ xs, g' i.typ = true → Accepted g' i.payload) : Accepted g' b := by
  induction h with
  | nil => exact .nil
  | bare t len eid hl => exact .trunc t len eid hl
  | closed t len eid body rest cs xs hl _ hn _ ih1 ih2 =>
    exact .cons t len eid body rest hl (fun hg => ho _ List.mem_cons_self hg) (ih2 fun i hi => ho i (List.mem_cons_of_mem _ hi))

end Pfcp
