/-
C76: the order in which elements of different types come does not matter. C77: an element that is repeated where one is
expected is read the same way in a message and in a group.
-/
import Verif.Message.Order
import Verif.Flag.Props2
import Verif.IE.Nested

namespace Pfcp

variable (g : IEType → Bool)

/-! ### C76 what a reordering is -/

/-- A reordering is one that keeps the elements of each type in their order. -/
theorem C76_reorder_iff (xs ys : List IE) :
    Reorder xs ys ↔ ∀ t, xs.filter (fun i => decide (i.typ = t)) = ys.filter (fun i => decide (i.typ = t)) := by
  refine ⟨fun h t => h.filter_eq t, fun h => ?_⟩
  induction xs generalizing ys with
  | nil =>
    cases ys with
    | nil => exact .refl _
    | cons y ys =>
      have := h y.typ
      simp at this
  | cons x xs ih =>
    have hx := h x.typ
    rw [List.filter_cons_of_pos (by simp)] at hx
    obtain ⟨pre, post, e, hpre, hpost⟩ := List.filter_eq_cons_iff.1 hx.symm
    subst e
    have hpre' : ∀ y ∈ pre, y.typ ≠ x.typ := fun y hy => by simpa using hpre y hy
    refine .trans (.cons x (ih (pre ++ post) fun t => ?_)) (Reorder.front x pre post hpre').symm
    have ht := h t
    rw [(Reorder.front x pre post hpre').filter_eq t, List.filter_cons, List.filter_cons] at ht
    split at ht
    · exact List.cons.inj ht |>.2
    · exact ht

namespace Msg

/-! ### C76 messages -/

theorem filed_reorder (k : Kind) (h h' : Header) {xs ys : List IE} (hr : Reorder xs ys) :
    (filed k h xs).fields = (filed k h' ys).fields ∧
    Reorder ((filed k h xs).ies.filterMap id) ((filed k h' ys).ies.filterMap id) := by
  constructor
  · unfold filed
    apply List.map_congr_left
    intro p _
    rw [hr.filter_eq]
  · unfold filed
    rw [filterMap_id_map_some, filterMap_id_map_some]
    exact hr.filter fun t => decide (∀ n ∈ k.names, t ≠ fieldIE k n)

theorem parse_filed (b : Bytes) (m : Msg) (h : parse g b = .ok m) (xs : List IE) (hx : parseMulti g m.header.payload = .ok xs) :
    m = filed (kindOf m.header.typ) m.header xs := by
  rw [parse_normal, Res.bind_eq_ok] at h
  obtain ⟨hd, hp, h⟩ := h
  split at h
  · rename_i h2
    cases h
    have hx : parseMulti g hd.payload = .ok xs := hx
    match hq : hd.payload with
    | [] =>
      rw [hq, parseMulti_nil] at hx
      cases hx
      rfl
    | [x] =>
      exfalso
      rw [hq] at hx
      rw [parseMulti_unfold g [x] (by simp)] at hx
      have e : Pfcp.parse g [x] = .err .unexpectedEOF := rfl
      rw [e] at hx
      cases hx
    | _ :: _ :: _ => rw [hq] at h2; simp at h2; omega
  · rw [Res.bind_eq_ok] at h
    obtain ⟨ys, hy, h⟩ := h
    cases h
    have hx : parseMulti g hd.payload = .ok xs := hx
    rw [hy] at hx
    cases hx
    rfl

/-- C76 messages: two datagrams of the same type whose elements are the same up to the order of elements of different types are
decoded into the same fields; the elements without a field keep the order of the datagram. -/
theorem C76_fields (b b' : Bytes) (m m' : Msg) (h : parse g b = .ok m) (h' : parse g b' = .ok m')
    (ht : m.header.typ = m'.header.typ) (xs ys : List IE) (hx : parseMulti g m.header.payload = .ok xs)
    (hy : parseMulti g m'.header.payload = .ok ys) (hr : Reorder xs ys) :
    m.kind = m'.kind ∧ m.fields = m'.fields ∧ Reorder (m.ies.filterMap id) (m'.ies.filterMap id) := by
  have e := parse_filed g b m h xs hx
  have e' := parse_filed g b' m' h' ys hy
  rw [← ht] at e'
  generalize kindOf m.header.typ = k at e e'
  generalize m.header = hd at e
  generalize m'.header = hd' at e'
  subst e e'
  exact ⟨rfl, filed_reorder k hd hd' hr⟩

/-- C76 on the wire: with any header and any well-formed elements, both orders are accepted. -/
theorem C76_accepted (h : Header) (hw : h.WF) (xs ys : List IE) (hx : ∀ i ∈ xs, i.WF g) (hr : Reorder xs ys) :
    ∃ m m', parse g ({ h with payload := encList g xs } : Header).enc = .ok m ∧
      parse g ({ h with payload := encList g ys } : Header).enc = .ok m' ∧
      m.kind = m'.kind ∧ m.fields = m'.fields ∧ Reorder (m.ies.filterMap id) (m'.ies.filterMap id) := by
  have hy : ∀ i ∈ ys, i.WF g := fun i hi => hx i ((hr.mem i).2 hi)
  refine ⟨_, _, parse_wire g _ (by exact hw) xs ((WFList_iff g xs).2 hx) rfl,
    parse_wire g _ (by exact hw) ys ((WFList_iff g ys).2 hy) rfl, rfl, filed_reorder _ _ _ hr⟩

/-- C76 canonical form: if also the elements that have no field come in the same order, the two decoded messages are encoded
into the same octets. -/
theorem C76_canonical (b b' : Bytes) (m m' : Msg) (h : parse g b = .ok m) (h' : parse g b' = .ok m')
    (ht : m.header.typ = m'.header.typ) (hf : m.header.flags = m'.header.flags) (hs : m.header.seid = m'.header.seid)
    (hq : m.header.seq = m'.header.seq) (hp : m.header.pri = m'.header.pri)
    (xs ys : List IE) (hx : parseMulti g m.header.payload = .ok xs)
    (hy : parseMulti g m'.header.payload = .ok ys) (hr : Reorder xs ys)
    (hu : xs.filter (fun i => decide (∀ n ∈ m.kind.names, i.typ ≠ fieldIE m.kind n)) =
      ys.filter (fun i => decide (∀ n ∈ m.kind.names, i.typ ≠ fieldIE m.kind n))) :
    ∃ w, marshal g m = .ok w ∧ marshal g m' = .ok w := by
  have e := parse_filed g b m h xs hx
  have e' := parse_filed g b' m' h' ys hy
  refine ⟨m.wire g, C22_reencode g b m h, ?_⟩
  rw [C22_reencode g b' m' h']
  have hk : m.kind = kindOf m.header.typ := by rw [e]; rfl
  have hi : m.ies = m'.ies := by
    rw [e, e', ← ht]
    unfold filed
    dsimp only
    rw [hk] at hu
    rw [hu]
  have hfs := (C76_fields g b b' m m' h h' ht xs ys hx hy hr).2.1
  have he : m.elements = m'.elements := by unfold elements; rw [hfs, hi]
  congr 1
  unfold wire wireHeader body
  rw [he]
  obtain ⟨k, ⟨f, t, l, s, q, p, pl⟩, fs, is⟩ := m
  obtain ⟨k', ⟨f', t', l', s', q', p', pl'⟩, fs', is'⟩ := m'
  dsimp only at ht hf hs hq hp
  subst ht hf hs hq hp
  rfl

/-- C76 constructors: the arguments of a constructor that takes a list can come in any order. -/
theorem C76_constructor (k : Kind) (hk : k ∈ listConstructed) (mp fo : UInt8)
    (seid : UInt64) (seq : UInt32) (pri : UInt8) (xs ys : List IE) (hr : Reorder xs ys) :
    ∃ m m', new g k mp fo seid seq pri [] (xs.map some) = .ok m ∧ new g k mp fo seid seq pri [] (ys.map some) = .ok m' ∧
      m.fields = m'.fields ∧ Reorder (m.ies.filterMap id) (m'.ies.filterMap id) := by
  have hc := listConstructed_switch k hk
  have hpre : ∀ zs, preNew k mp fo seid seq pri [] (zs.map some)
      = filed k (ctorHeader k mp fo seid seq pri) zs := by
    intro zs
    unfold preNew; rw [hc]; simp only; rw [filterMap_id_map_some]
  have hnew : ∀ zs : List IE, ∃ m, new g k mp fo seid seq pri [] (zs.map some) = .ok m ∧
      m.fields = (filed k (ctorHeader k mp fo seid seq pri) zs).fields ∧
      m.ies = (filed k (ctorHeader k mp fo seid seq pri) zs).ies := by
    intro zs
    have hs := preNew_shaped k mp fo seid seq pri [] (zs.map some)
    have h1 := setLength_ok g _ hs.1 hs.2.1 (.inr (by rw [hpre]; simp [filed]))
    refine ⟨_, Eq.trans ?_ h1, ?_, ?_⟩
    · rw [new_eq, hc]
      simp only
      rw [if_neg (by simp)]
    · rw [hpre]
    · rw [hpre]
  obtain ⟨m, h1, h2, h3⟩ := hnew xs
  obtain ⟨m', h1', h2', h3'⟩ := hnew ys
  refine ⟨m, m', h1, h1', ?_⟩
  rw [h2, h3, h2', h3']
  exact filed_reorder k _ _ hr

end Msg

/-! ### C76 groups -/

/-- The accessors that look for children of two types in a group, with the group: the first of either is read. -/
def eitherOf : List (Acc × IEType) :=
  [(.FTEID, T.PDI), (.FARID, T.CreateMAR), (.FARID, T.UpdateMAR), (.Priority, T.CreateMAR), (.Priority, T.UpdateMAR),
   (.URRID, T.CreateMAR), (.URRID, T.UpdateMAR), (.Weight, T.CreateMAR), (.Weight, T.UpdateMAR)]

theorem one_type (a : Acc) (t : IEType) (h : (a, t) ∉ eitherOf) : ∀ u ∈ a.searched t, ∀ v ∈ a.searched t, u = v := by
  have key := forall_acc (p := fun a => a.table.cases.all fun c => eitherOf.contains (a, c.1) ||
    (a.searched c.1).all fun u => (a.searched c.1).all fun v => u == v) (by decide +kernel) a
  intro u hu v hv
  have hm : ∃ c ∈ a.table.cases, c.1 = t := by
    unfold Acc.searched at hu
    split at hu
    · rename_i hl; exact ⟨_, lookup_mem hl, rfl⟩
    · cases hu
  obtain ⟨c, hc, rfl⟩ := hm
  have := List.all_eq_true.1 key c hc
  rw [Bool.or_eq_true] at this
  rcases this with h' | h'
  · exact absurd (by simpa using h') h
  · simpa using List.all_eq_true.1 (List.all_eq_true.1 h' u hu) v hv

/-- C76 groups: an accessor answers the same for two groups whose children are the same up to the order of children of different
types, unless it is one of those that look for two types. -/
theorem C76_groups_partial (mem : IE → Bytes) (a : Acc) (i j : IE) (ht : i.typ = j.typ) (h : a.descends i.typ = true)
    (he : (a, i.typ) ∉ eitherOf) (cs ds : List IE) (hi : parseMulti g i.payload = .ok cs)
    (hj : parseMulti g j.payload = .ok ds) (hl : i.payload.length = j.payload.length) (hr : Reorder cs ds) :
    a.call g mem i = a.call g mem j := by
  rw [C38_exact g mem a i h, C38_exact g mem a j (ht ▸ h), hi, hj, hl, ← ht]
  dsimp only
  rw [hr.find_eq _ (one_type a i.typ he)]

/-- C76 groups, flags: the same for every function that reports a flag. -/
theorem C76_flags (mem : IE → Bytes) (f : Flag) (i j : IE) (ht : i.typ = j.typ) (h : f.descends i.typ = true)
    (cs ds : List IE) (hi : parseMulti g i.payload = .ok cs)
    (hj : parseMulti g j.payload = .ok ds) (hr : Reorder cs ds) :
    f.call g mem i = f.call g mem j := by
  have key := forall_flag (p := fun f => f.mentions.all fun t => !f.descends t ||
    (f.searched t).all fun u => (f.searched t).all fun v => u == v) (by decide +kernel) f
  have key := List.all_eq_true.1 key _ (descends_mentions f i.typ h)
  rw [h, Bool.not_true, Bool.false_or] at key
  rw [C38_flags g mem f i h, C38_flags g mem f j (ht ▸ h), hi, hj, ← ht]
  dsimp only
  rw [hr.find_eq _ fun u hu v hv => by simpa using List.all_eq_true.1 (List.all_eq_true.1 key u hu) v hv]

/-- C76 groups, at every depth: children can be exchanged in the group, in the groups inside it, and so on, without any
effect on an accessor, unless it is one of those that look for two types. -/
theorem C76_deep_partial (mem : IE → Bytes) (a : Acc) (ha : a ∉ eitherOf.map (·.1))
    (hg : ∀ t ∈ a.home ++ a.onChild.home, g t = false) (n : Nat) (i j : IE) (h : Shuffled g n i j) :
    a.call g mem i = a.call g mem j := by
  induction n generalizing i j with
  | zero => rw [show i = j from h]
  | succ n ih =>
    rcases h with rfl | ⟨hgt, ht, hl, cs, es, ds, hi, hj, hr, hlen, hk⟩
    · rfl
    · cases hd : a.descends i.typ with
      | false =>
        have hh : a.handles i.typ = false := by
          cases hh : a.handles i.typ with
          | false => rfl
          | true =>
            exfalso
            have key := forall_acc (p := fun a => eitherOf.any (fun p => p.1 == a) || a.table.cases.all fun c =>
              a.home.contains c.1 || a.descends c.1) (by decide +kernel) a
            rw [Bool.or_eq_true] at key
            rcases key with key | key
            · obtain ⟨p, hp, he⟩ := List.any_eq_true.1 key
              exact ha (List.mem_map.2 ⟨p, hp, by simpa using he⟩)
            · unfold Acc.handles at hh
              obtain ⟨b, hb⟩ := Option.isSome_iff_exists.1 hh
              have := List.all_eq_true.1 key _ (lookup_mem hb)
              rw [Bool.or_eq_true] at this
              rcases this with h | h
              · rw [hg i.typ (List.mem_append_left _ (by simpa using h))] at hgt
                cases hgt
              · rw [hd] at h; cases h
        rw [C37_exact g mem a i hh, C37_exact g mem a j (ht ▸ hh), hl, ht]
      | true =>
        have he : (a, i.typ) ∉ eitherOf := fun h => ha (List.mem_map.2 ⟨_, h, rfl⟩)
        rw [C38_exact g mem a i hd, C38_exact g mem a j (ht ▸ hd), hi, hj, hl, ← ht]
        dsimp only
        rw [hr.find_eq _ (one_type a i.typ he)]
        rcases find_pair (R := Shuffled g n) (fun c => (a.searched i.typ).contains c.typ)
          (fun c d h => by rw [h.typ]) es ds hlen hk with ⟨h1, h2⟩ | ⟨c, d, h1, h2, h3⟩
        · rw [h1, h2]
        · rw [h1, h2]
          dsimp only
          split
          · rfl
          · by_cases ho : a.onChild = a
            · rw [ho]; exact ih c d h3
            · have hc := List.find?_some h1
              have : g c.typ = false := by
                have key := forall_acc (p := fun a => decide (a.onChild = a) || a.table.cases.all fun p =>
                  (a.searched p.1).all fun u => a.onChild.home.contains u) (by decide +kernel) a
                rw [Bool.or_eq_true] at key
                rcases key with key | key
                · exact absurd (of_decide_eq_true key) ho
                · obtain ⟨p, hp, hpt⟩ := descends_cases hd
                  have := List.all_eq_true.1 (List.all_eq_true.1 key p hp) c.typ (by rw [hpt]; simpa using hc)
                  exact hg _ (List.mem_append_right _ (by simpa using this))
              rw [h3.plain this]

/-- Not C76, for each of those accessors: with a child of each of two types, the accessor reads the one that comes first, so
that the two orders give the answers of the two children. -/
theorem C76_either_violated (mem : IE → Bytes) (a : Acc) (t : IEType) (he : (a, t) ∈ eitherOf) :
    ∃ u v, u ≠ v ∧ ∀ (x y i j : IE), x.typ = u → y.typ = v → i.typ = t → j.typ = t →
      parseMulti g i.payload = .ok [x, y] → parseMulti g j.payload = .ok [y, x] →
      Reorder [x, y] [y, x] ∧ a.call g mem i = a.call g mem x ∧ a.call g mem j = a.call g mem y := by
  have key : eitherOf.all (fun p => match p.1.searched p.2 with
      | [u, v] => u != v && p.1.descends p.2 && decide (firstCheck p.1 = 0) && decide (p.1.onChild = p.1)
      | _ => false) = true := by decide +kernel
  have key := List.all_eq_true.1 key _ he
  dsimp only at key
  split at key
  · rename_i u v hs
    simp only [Bool.and_eq_true, bne_iff_ne, decide_eq_true_eq] at key
    obtain ⟨⟨⟨hne, hd⟩, hf⟩, ho⟩ := key
    refine ⟨u, v, hne, fun x y i j hx hy hi hj hpi hpj => ⟨?_, ?_, ?_⟩⟩
    · exact .swap [] [] x y (by rw [hx, hy]; exact hne)
    · rw [C38_exact g mem a i (hi ▸ hd), hf, if_neg (by omega), hpi, hi, hs]
      simp [hx, ho]
    · rw [C38_exact g mem a j (hj ▸ hd), hf, if_neg (by omega), hpj, hj, hs]
      simp [hy, ho]
  · cases key

/-- A packet detection information whose redundant transmission parameters come first: `FTEID` answers with theirs. -/
theorem C76_pdi_violated :
    let g : IEType → Bool := fun t => defaultGroupedTypes.contains t
    let f (b : UInt8) : Bytes := [0, 21, 0, 9, 1, 0, 0, 0, b, 10, 0, 0, b]
    let r : Bytes := [0, 255, 0, 13] ++ f 2
    let i : IE := ⟨T.PDI, 30, 0, f 1 ++ r, []⟩
    let j : IE := ⟨T.PDI, 30, 0, r ++ f 1, []⟩
    let x : IE := ⟨21, 9, 0, [1, 0, 0, 0, 1, 10, 0, 0, 1], []⟩
    let z : IE := ⟨21, 9, 0, [1, 0, 0, 0, 2, 10, 0, 0, 2], []⟩
    let y : IE := ⟨255, 13, 0, f 2, [z]⟩
    parseMulti g i.payload = .ok [x, y] ∧ parseMulti g j.payload = .ok [y, x] ∧ Reorder [x, y] [y, x] ∧
      (match Acc.FTEID.call g (fun _ => []) i with
        | .ok (.fteid v) => v.teid = 1
        | _ => False) ∧
      (match Acc.FTEID.call g (fun _ => []) j with
        | .ok (.fteid v) => v.teid = 2
        | _ => False) := by
  refine ⟨by decide +kernel, by decide +kernel, .swap [] [] _ _ (by decide), rfl, rfl⟩

/-! ### C77 repeated elements -/

/-- C77 groups: with one type to look for, an accessor reads the first child of that type; later ones have no effect. -/
theorem C77_groups (mem : IE → Bytes) (a : Acc) (i : IE) (h : a.descends i.typ = true) (u : IEType)
    (hs : a.searched i.typ = [u]) (hl : firstCheck a ≤ i.payload.length) (cs : List IE) (hi : parseMulti g i.payload = .ok cs) :
    a.call g mem i = match (cs.filter fun c => decide (c.typ = u)).head? with
      | none => .err .ieNotFound
      | some c => a.onChild.call g mem c := by
  rw [C38_exact g mem a i h, if_neg (by omega), hi, hs]
  have e : (fun c : IE => [u].contains c.typ) = fun c => decide (c.typ = u) := by
    funext c
    rw [Bool.eq_iff_iff]
    simp
  dsimp only
  rw [e, ← List.head?_filter]
  rfl

/-- C77 groups: `FindByType` gives the first child of that type too. -/
theorem C77_find (i : IE) (t : IEType) (c : IE) (h : i.findByType g t = .ok c) :
    (i.children.filter fun c => decide (c.typ = t)).head? = some c := by
  obtain ⟨_, pre, post, h1, h2, h3⟩ := findByType_ok g h
  have : pre.filter (fun c => decide (c.typ = t)) = [] := by
    rw [List.filter_eq_nil_iff]
    intro x hx
    simpa using h2 x hx
  rw [h1, List.filter_append, this, List.nil_append, List.filter_cons_of_pos (by simpa using h3)]
  rfl

namespace Msg

/-- C77 messages: a field for a single element holds the last one of its type. -/
theorem C77_messages (b : Bytes) (m : Msg) (h : parse g b = .ok m) (xs : List IE)
    (hx : parseMulti g m.header.payload = .ok xs) (n : FieldName) (hn : (n, Card.one) ∈ m.kind.tab.fields) :
    (n, Slot.one (xs.filter fun i => decide (i.typ = fieldIE m.kind n)).getLast?) ∈ m.fields := by
  have e := parse_filed g b m h xs hx
  have hk : m.kind = kindOf m.header.typ := by rw [e]; rfl
  rw [hk] at hn ⊢
  rw [e]
  exact List.mem_map.2 ⟨_, hn, rfl⟩

theorem nodup_fst {α β : Type} {l : List (α × β)} (hl : (l.map (·.1)).Nodup) {a : α} {b c : β} (hb : (a, b) ∈ l)
    (hc : (a, c) ∈ l) : b = c := by
  induction l with
  | nil => cases hb
  | cons p l ih =>
    rw [List.map_cons, List.nodup_cons] at hl
    rcases List.mem_cons.1 hb with h1 | h1 <;> rcases List.mem_cons.1 hc with h2 | h2
    · rw [← h1] at h2; exact (Prod.mk.inj h2).2.symm
    · exact absurd (List.mem_map.2 ⟨_, h2, by rw [← h1]⟩) hl.1
    · exact absurd (List.mem_map.2 ⟨_, h1, by rw [← h2]⟩) hl.1
    · exact ih hl.2 h1 h2

theorem single_field (y : IE) (n : FieldName) (l : List (FieldName × Card)) (hl : (l.map (·.1)).Nodup)
    (hn : n ∈ l.map (·.1)) (f : FieldName × Card → List IE) (h1 : ∀ p ∈ l, p.1 = n → f p = [y])
    (h2 : ∀ p ∈ l, p.1 ≠ n → f p = []) : l.flatMap f = [y] := by
  induction l with
  | nil => cases hn
  | cons p l ih =>
    rw [List.map_cons, List.nodup_cons] at hl
    rw [List.flatMap_cons]
    by_cases hp : p.1 = n
    · rw [h1 p List.mem_cons_self hp]
      have : l.flatMap f = [] := by
        rw [List.flatMap_eq_nil_iff]
        intro q hq
        exact h2 q (List.mem_cons_of_mem _ hq) fun e => hl.1 (List.mem_map.2 ⟨q, hq, e.trans hp.symm⟩)
      rw [this]
      rfl
    · rw [h2 p List.mem_cons_self hp, List.nil_append]
      rw [List.map_cons, List.mem_cons] at hn
      exact ih hl.2 (hn.resolve_left fun e => hp e.symm) (fun q hq => h1 q (List.mem_cons_of_mem _ hq))
        fun q hq => h2 q (List.mem_cons_of_mem _ hq)

/-- Not C77, for every kind of message and every field for a single element: of two elements of its type the field gets the
second, and encoding the message again drops the first. -/
theorem C77_repeated_violated (h : Header) (hw : h.WF) (n : FieldName)
    (hn : (n, Card.one) ∈ (kindOf h.typ).tab.fields) (x y : IE) (hx : x.WF g) (hy : y.WF g)
    (tx : x.typ = fieldIE (kindOf h.typ) n) (ty : y.typ = fieldIE (kindOf h.typ) n) (hp : h.payload = encList g [x, y]) :
    ∃ m w, parse g h.enc = .ok m ∧ (n, Slot.one (some y)) ∈ m.fields ∧ m.elements = [y] ∧ marshal g m = .ok w ∧
      w.length + (x.enc g).length = h.enc.length := by
  have hpar := parse_wire g h hw [x, y] ((WFList_iff g _).2 (by simp [hx, hy])) hp
  generalize hk : kindOf h.typ = k at *
  have hmem : n ∈ k.names := List.mem_map.2 ⟨_, hn, rfl⟩
  have hf : ([x, y].filter fun i => decide (i.typ = fieldIE k n)) = [x, y] := by simp [tx, ty]
  have hel : (filed k h [x, y]).elements = [y] := by
    have hu : ([x, y].filter fun i => decide (∀ n ∈ k.names, i.typ ≠ fieldIE k n)) = [] := by
      rw [List.filter_eq_nil_iff]
      intro i hi
      have : i.typ = fieldIE k n := by
        rcases List.mem_cons.1 hi with rfl | hi
        · exact tx
        · rw [List.mem_singleton.1 hi]; exact ty
      simp only [decide_eq_true_eq]
      intro h
      exact h n hmem this
    unfold elements filed
    dsimp only
    rw [hu, List.map_nil, List.filterMap_nil, List.append_nil, List.flatMap_map]
    apply single_field y n _ (Kind.names_nodup k) hmem
    · intro p hp hpn
      have : p.2 = Card.one := by
        obtain ⟨a, b⟩ := p
        dsimp only at hpn
        subst hpn
        exact nodup_fst (Kind.names_nodup k) hp hn
      rw [hpn, hf, this]
      rfl
    · intro p hp hpn
      have : ([x, y].filter fun i => decide (i.typ = fieldIE k p.1)) = [] := by
        have hne : fieldIE k n ≠ fieldIE k p.1 := fun e =>
          hpn (Kind.fieldIE_inj k n p.1 hmem (List.mem_map.2 ⟨p, hp, rfl⟩) e).symm
        simp [tx, ty, hne]
      rw [this]
      cases p.2 <;> rfl
  refine ⟨_, _, hpar, ?_, hel, marshal_ok g _ (filed_shaped _ _ _) (filed_noNil _ _ _), ?_⟩
  · refine List.mem_map.2 ⟨_, hn, ?_⟩
    dsimp only
    rw [hf]
    rfl
  · rw [wire_length, Header.enc_length, hp]
    unfold body
    rw [hel]
    simp only [encList, List.length_append, List.length_nil, filed]
    omega

/-- C77, exactly, for messages: the field holds the first element of its type if and only if the first and the last one are
the same element value. -/
theorem C77_messages_iff (b : Bytes) (m : Msg) (h : parse g b = .ok m) (xs : List IE)
    (hx : parseMulti g m.header.payload = .ok xs) (n : FieldName) (hn : (n, Card.one) ∈ m.kind.tab.fields) :
    (n, Slot.one (xs.find? fun i => decide (i.typ = fieldIE m.kind n))) ∈ m.fields ↔
      ∀ pre x mid y post, xs = pre ++ x :: mid ++ y :: post → x.typ = fieldIE m.kind n → y.typ = fieldIE m.kind n →
        (∀ z ∈ pre ++ post, z.typ ≠ fieldIE m.kind n) → x = y := by
  have hmem := C77_messages g b m h xs hx n hn
  have hnd : (m.fields.map (·.1)).Nodup := by
    have e := parse_filed g b m h xs hx
    rw [e]
    exact (filed_shaped _ _ _).nodup
  have hiff : (n, Slot.one (xs.find? fun i => decide (i.typ = fieldIE m.kind n))) ∈ m.fields ↔
      (xs.filter fun i => decide (i.typ = fieldIE m.kind n)).head? = (xs.filter fun i => decide (i.typ = fieldIE m.kind n)).getLast? := by
    rw [List.head?_filter]
    constructor
    · intro h1
      have := nodup_fst hnd h1 hmem
      exact Slot.one.inj this
    · intro h1
      rw [h1]; exact hmem
  rw [hiff]
  generalize fieldIE m.kind n = t
  constructor
  · intro he pre x mid y post hxs tx ty hz
    have e1 : pre.filter (fun i => decide (i.typ = t)) = [] := by
      rw [List.filter_eq_nil_iff]; intro z hzm; simpa using hz z (by simp [hzm])
    have e2 : post.filter (fun i => decide (i.typ = t)) = [] := by
      rw [List.filter_eq_nil_iff]; intro z hzm; simpa using hz z (by simp [hzm])
    rw [hxs] at he
    simp only [List.filter_append, List.filter_cons, tx, ty, decide_true, if_true, e1, e2, List.nil_append, List.cons_append,
      List.head?_cons] at he
    rw [← List.cons_append, List.getLast?_concat] at he
    exact Option.some.inj he
  · intro hall
    cases hf : xs.filter (fun i => decide (i.typ = t)) with
    | nil => rfl
    | cons x l =>
      rcases List.eq_nil_or_concat l with rfl | ⟨l', y, rfl⟩
      · rfl
      · rw [List.concat_eq_append] at hf ⊢
        obtain ⟨pre, r, hxs, hpre, tx, hr⟩ := List.filter_eq_cons_iff.1 hf
        rw [List.filter_eq_append_iff] at hr
        obtain ⟨r1, r2, hr12, hr1, hr2⟩ := hr
        obtain ⟨mid, post, hr2', hmid, ty, hpost⟩ := List.filter_eq_cons_iff.1 hr2
        have := hall pre x (r1 ++ mid) y post (by rw [hxs, hr12, hr2']; simp) (by simpa using tx) (by simpa using ty) (by
          intro z hz
          rcases List.mem_append.1 hz with hz | hz
          · simpa using hpre z hz
          · have := List.filter_eq_nil_iff.1 hpost z hz
            simpa using this)
        subst this
        rw [← List.cons_append, List.getLast?_concat]
        rfl

/-- C77, what holds: if no type occurs twice, there is no difference between the first and the last. -/
theorem C77_once_partial (b : Bytes) (m : Msg) (h : parse g b = .ok m) (xs : List IE)
    (hx : parseMulti g m.header.payload = .ok xs) (ho : ∀ t, (xs.filter fun i => decide (i.typ = t)).length ≤ 1)
    (n : FieldName) (hn : (n, Card.one) ∈ m.kind.tab.fields) :
    (n, Slot.one (xs.filter fun i => decide (i.typ = fieldIE m.kind n)).head?) ∈ m.fields := by
  have := C77_messages g b m h xs hx n hn
  have hl := ho (fieldIE m.kind n)
  generalize xs.filter (fun i => decide (i.typ = fieldIE m.kind n)) = ys at *
  match ys with
  | [] => exact this
  | [y] => exact this
  | _ :: _ :: _ => simp at hl

end Msg

/-! ### The hypotheses can be met -/

/-- The default configuration. -/
private abbrev dg : IEType → Bool := fun t => defaultGroupedTypes.contains t

example : Reorder [⟨60, 1, 0, [7], []⟩, ⟨39, 1, 0, [1], []⟩] [⟨39, 1, 0, [1], []⟩, ⟨60, 1, 0, [7], []⟩] :=
  .swap [] [] _ _ (by decide)
example : ∃ m m', Msg.parse dg [0x20, 9, 0, 14, 0, 0, 1, 0, 0, 60, 0, 1, 7, 0, 39, 0, 1, 1] = .ok m ∧
    Msg.parse dg [0x20, 9, 0, 14, 0, 0, 1, 0, 0, 39, 0, 1, 1, 0, 60, 0, 1, 7] = .ok m' ∧ m.header.typ = m'.header.typ ∧
    parseMulti dg m.header.payload = .ok [⟨60, 1, 0, [7], []⟩, ⟨39, 1, 0, [1], []⟩] ∧
    parseMulti dg m'.header.payload = .ok [⟨39, 1, 0, [1], []⟩, ⟨60, 1, 0, [7], []⟩] :=
  ⟨_, _, rfl, rfl, rfl, by decide +kernel, by decide +kernel⟩
example : Kind.sessionReportRequest ∈ Msg.listConstructed := by decide
example : Acc.PDRID.descends T.CreatePDR = true ∧ (Acc.PDRID, T.CreatePDR) ∉ eitherOf ∧ Acc.PDRID ∉ eitherOf.map (·.1) ∧
    (∀ t ∈ Acc.PDRID.home ++ Acc.PDRID.onChild.home, dg t = false) ∧ Acc.PDRID.searched T.CreatePDR = [T.PDRID] ∧
    firstCheck .PDRID ≤ 0 := by decide +kernel
example : ∃ f : Flag, f.descends T.CreateFAR = true := ⟨.HasDROP, by decide +kernel⟩
example : Shuffled dg 1 ⟨1, 11, 0, [0, 56, 0, 2, 0, 1, 0, 29, 0, 1, 5], []⟩ ⟨1, 11, 0, [0, 29, 0, 1, 5, 0, 56, 0, 2, 0, 1], []⟩ :=
  .inr ⟨by decide, rfl, rfl, [⟨56, 2, 0, [0, 1], []⟩, ⟨29, 1, 0, [5], []⟩], [⟨29, 1, 0, [5], []⟩, ⟨56, 2, 0, [0, 1], []⟩],
    [⟨29, 1, 0, [5], []⟩, ⟨56, 2, 0, [0, 1], []⟩], by decide +kernel, by decide +kernel, .swap [] [] _ _ (by decide), rfl,
    fun k c d hc hd => by rw [hc] at hd; exact Option.some.inj hd⟩
example : (FieldName.NodeID, Card.one) ∈ (kindOf 9).tab.fields ∧ fieldIE (kindOf 9) .NodeID = 60 ∧
    IE.WF dg ⟨60, 1, 0, [7], []⟩ ∧ Header.WF ⟨0x20, 9, 14, 0, 1, 0, [0, 60, 0, 1, 7, 0, 60, 0, 1, 8]⟩ := by
  refine ⟨by decide +kernel, by decide +kernel, ?_, by decide, by decide⟩
  simp only [IE.WF]
  refine ⟨by decide, by decide, ?_⟩
  rw [if_neg (by decide +kernel)]
  trivial
example : (IE.mk 1 6 0 [0, 56, 0, 2, 0, 1] [⟨56, 2, 0, [0, 1], []⟩]).findByType dg 56 = .ok ⟨56, 2, 0, [0, 1], []⟩ := by
  decide +kernel

end Pfcp
