/-
C81: elements that a receiver does not look for, such as those of later releases and of vendors, have no effect on what it reads.
-/
import Verif.Message.OrderProps
import Verif.IE.TypeNameProps

namespace Pfcp

variable (g : IEType → Bool)

/-- Two sequences are related one by one (not part of the Go code). -/
def Alike (R : IE → IE → Prop) : List IE → List IE → Prop
  | [], [] => True
  | x :: xs, y :: ys => R x y ∧ Alike R xs ys
  | _, _ => False

/-- What is left of a sequence without the elements of the types `U` (not part of the Go code). -/
def without (U : IEType → Bool) (xs : List IE) : List IE := xs.filter fun i => !U i.typ

/-- `i` and `j` are the same except for descendants, at up to `n` levels, whose types are among `U` (not part of the Go code). -/
def SameBut (U : IEType → Bool) : Nat → IE → IE → Prop
  | 0, i, j => i = j
  | n + 1, i, j => i = j ∨ (g i.typ = true ∧ i.typ = j.typ ∧
      ∃ cs ds, parseMulti g i.payload = .ok cs ∧ parseMulti g j.payload = .ok ds ∧
        Alike (SameBut U n) (without U cs) (without U ds))

theorem Alike.refl {R : IE → IE → Prop} (h : ∀ i, R i i) : ∀ xs, Alike R xs xs
  | [] => trivial
  | x :: xs => ⟨h x, Alike.refl h xs⟩

theorem Alike.mono {R S : IE → IE → Prop} (h : ∀ i j, R i j → S i j) : ∀ {xs ys}, Alike R xs ys → Alike S xs ys
  | [], [], _ => trivial
  | _ :: _, _ :: _, ha => ⟨h _ _ ha.1, Alike.mono h ha.2⟩
  | [], _ :: _, ha => ha.elim
  | _ :: _, [], ha => ha.elim

theorem Alike.find {R : IE → IE → Prop} (p : IE → Bool) (hp : ∀ c d, R c d → p c = p d) :
    ∀ {xs ys : List IE}, Alike R xs ys →
      (xs.find? p = none ∧ ys.find? p = none) ∨ ∃ c d, xs.find? p = some c ∧ ys.find? p = some d ∧ R c d
  | [], [], _ => .inl ⟨rfl, rfl⟩
  | x :: xs, y :: ys, h => by
    rw [List.find?_cons, List.find?_cons, ← hp x y h.1]
    cases p x with
    | true => exact .inr ⟨x, y, rfl, rfl, h.1⟩
    | false => exact Alike.find p hp h.2
  | [], _ :: _, h => h.elim
  | _ :: _, [], h => h.elim

theorem Alike.filter {R : IE → IE → Prop} (p : IE → Bool) (hp : ∀ c d, R c d → p c = p d) :
    ∀ {xs ys : List IE}, Alike R xs ys → Alike R (xs.filter p) (ys.filter p)
  | [], [], _ => trivial
  | x :: xs, y :: ys, h => by
    rw [List.filter_cons, List.filter_cons, ← hp x y h.1]
    cases p x with
    | true => exact ⟨h.1, Alike.filter p hp h.2⟩
    | false => exact Alike.filter p hp h.2
  | [], _ :: _, h => h.elim
  | _ :: _, [], h => h.elim

theorem Alike.last {R : IE → IE → Prop} : ∀ {xs ys : List IE}, Alike R xs ys →
    (xs = [] ∧ ys = []) ∨ ∃ c d, xs.getLast? = some c ∧ ys.getLast? = some d ∧ R c d
  | [], [], _ => .inl ⟨rfl, rfl⟩
  | x :: xs, y :: ys, h => by
    rcases Alike.last h.2 with ⟨rfl, rfl⟩ | ⟨c, d, h1, h2, h3⟩
    · exact .inr ⟨x, y, rfl, rfl, h.1⟩
    · refine .inr ⟨c, d, ?_, ?_, h3⟩
      · rw [List.getLast?_cons, h1]; rfl
      · rw [List.getLast?_cons, h2]; rfl
  | [], _ :: _, h => h.elim
  | _ :: _, [], h => h.elim

theorem alike_eq : ∀ {xs ys : List IE}, Alike Eq xs ys ↔ xs = ys
  | [], [] => by simp [Alike]
  | _ :: _, _ :: _ => by simp [Alike, alike_eq]
  | [], _ :: _ => by simp [Alike]
  | _ :: _, [] => by simp [Alike]

theorem without_find (U : IEType → Bool) (p : IE → Bool) (hp : ∀ c, p c = true → U c.typ = false) (xs : List IE) :
    (without U xs).find? p = xs.find? p := by
  unfold without
  rw [List.find?_filter]
  congr 1
  funext c
  cases h : p c with
  | false => simp
  | true => simp [hp c h]

theorem without_filter (U : IEType → Bool) (p : IE → Bool) (hp : ∀ c, p c = true → U c.typ = false) (xs : List IE) :
    (without U xs).filter p = xs.filter p := by
  unfold without
  rw [List.filter_filter]
  congr 1
  funext c
  cases h : p c with
  | false => simp
  | true => simp [hp c h]

variable {g}

theorem SameBut.refl {U : IEType → Bool} : ∀ (n : Nat) (i : IE), SameBut g U n i i
  | 0, _ => rfl
  | _ + 1, _ => .inl rfl

theorem SameBut.typ {U : IEType → Bool} : ∀ {n : Nat} {i j : IE}, SameBut g U n i j → i.typ = j.typ
  | 0, i, j, h => by rw [show i = j from h]
  | _ + 1, _, _, h => by
    rcases h with h | ⟨_, h, _⟩
    · rw [h]
    · exact h

theorem SameBut.plain {U : IEType → Bool} {n : Nat} {i j : IE} (h : SameBut g U n i j) (hg : g i.typ = false) : i = j := by
  cases n with
  | zero => exact h
  | succ n =>
    rcases h with h | ⟨h, _⟩
    · exact h
    · rw [hg] at h; cases h

variable (g)

/-- An accessor never succeeds on less than the length it checks first. -/
theorem call_short (mem : IE → Bytes) (a : Acc) (i : IE) (h : i.payload.length < firstCheck a) :
    a.call g mem i = .err .unexpectedEOF := by
  rw [call_eq, if_pos (by rw [pre_eq]; exact h)]

theorem onChild_check (a : Acc) (h : firstCheck a ≠ 0) : a.onChild = a := by
  cases a <;> first | rfl | exact absurd rfl h

/-- What an accessor that looks for a child answers, when it does not answer with an error. -/
theorem call_child (mem : IE → Bytes) (a : Acc) (i : IE) (h : a.descends i.typ = true) (cs : List IE)
    (hi : parseMulti g i.payload = .ok cs) (r : Res Val) (hr : ∀ e, r ≠ .err e) :
    a.call g mem i = r ↔
      ∃ c, cs.find? (fun c => (a.searched i.typ).contains c.typ) = some c ∧ a.onChild.call g mem c = r := by
  rw [C38_exact g mem a i h, hi]
  dsimp only
  by_cases hl : i.payload.length < firstCheck a
  · rw [if_pos hl]
    refine ⟨fun h => absurd h.symm (hr _), ?_⟩
    rintro ⟨c, hc, hv⟩
    have hp := child_payload hi (List.mem_of_find?_eq_some hc)
    rw [onChild_check a (by omega), call_short g mem a c (by omega)] at hv
    exact absurd hv.symm (hr _)
  · rw [if_neg hl]
    cases cs.find? (fun c => (a.searched i.typ).contains c.typ) with
    | none =>
      refine ⟨fun h => absurd h.symm (hr _), ?_⟩
      rintro ⟨c, hc, _⟩
      cases hc
    | some c =>
      refine ⟨fun h => ⟨c, rfl, h⟩, ?_⟩
      rintro ⟨c', hc, hv⟩
      cases hc
      exact hv

/-- C81 groups: children of types that an accessor does not look for can be put into a group, taken out of it and replaced
without any effect on the value it reads; if it fails, it fails with them too, although maybe with another error. -/
theorem C81_groups (mem : IE → Bytes) (a : Acc) (i j : IE) (ht : i.typ = j.typ) (h : a.descends i.typ = true)
    (U : IEType → Bool) (hU : ∀ u ∈ a.searched i.typ, U u = false) (cs ds : List IE)
    (hi : parseMulti g i.payload = .ok cs) (hj : parseMulti g j.payload = .ok ds)
    (hs : cs.filter (fun c => !U c.typ) = ds.filter (fun c => !U c.typ)) (r : Res Val) (hr : ∀ e, r ≠ .err e) :
    a.call g mem i = r ↔ a.call g mem j = r := by
  rw [call_child g mem a i h cs hi r hr, call_child g mem a j (ht ▸ h) ds hj r hr, ← ht]
  have hp : ∀ c : IE, (a.searched i.typ).contains c.typ = true → U c.typ = false := fun c hc => hU _ (by simpa using hc)
  rw [← without_find U _ hp cs, ← without_find U _ hp ds]
  unfold without
  rw [hs]

/-- C81 groups, flags. -/
theorem C81_flags (mem : IE → Bytes) (f : Flag) (i j : IE) (ht : i.typ = j.typ) (h : f.descends i.typ = true)
    (U : IEType → Bool) (hU : ∀ u ∈ f.searched i.typ, U u = false) (cs ds : List IE)
    (hi : parseMulti g i.payload = .ok cs) (hj : parseMulti g j.payload = .ok ds)
    (hs : cs.filter (fun c => !U c.typ) = ds.filter (fun c => !U c.typ)) :
    f.call g mem i = f.call g mem j := by
  rw [C38_flags g mem f i h, C38_flags g mem f j (ht ▸ h), hi, hj, ← ht]
  have hp : ∀ c : IE, (f.searched i.typ).contains c.typ = true → U c.typ = false := fun c hc => hU _ (by simpa using hc)
  dsimp only
  rw [← without_find U _ hp cs, ← without_find U _ hp ds]
  unfold without
  rw [hs]

/-- The types of elements that an accessor knows: those it answers for, and those it looks for in groups. -/
def Acc.knows (a : Acc) : List IEType :=
  a.table.cases.flatMap fun c => c.1 :: a.searched c.1

/-- `FTEID` refuses a created traffic endpoint, whatever is in it. -/
theorem ambiguous_fteid (mem : IE → Bytes) (i : IE) (h : i.typ = T.CreatedTrafficEndpoint) :
    Acc.FTEID.call g mem i = .err .ambiguous := by
  rw [call_eq, if_neg (by show ¬ _ < 0; omega), h]
  rfl

/-- C81 at every depth: elements of types that the accessor does not know can be added in the group, in the groups
inside it, and so on. The accessor is one that reads a value, not one that returns the elements of a group. -/
theorem C81_deep (mem : IE → Bytes) (a : Acc) (hg : ∀ t ∈ a.home ++ a.onChild.home, g t = false)
    (U : IEType → Bool) (hU : ∀ u ∈ a.knows, U u = false) (n : Nat) (i j : IE) (h : SameBut g U n i j) (r : Res Val)
    (hr : ∀ e, r ≠ .err e) : a.call g mem i = r ↔ a.call g mem j = r := by
  induction n generalizing i j with
  | zero => rw [show i = j from h]
  | succ n ih =>
    rcases h with rfl | ⟨hgt, ht, cs, ds, hi, hj, hk⟩
    · rfl
    · cases hd : a.descends i.typ with
      | false =>
        cases hh : a.handles i.typ with
        | false =>
          rw [C37_exact g mem a i hh, C37_exact g mem a j (ht ▸ hh)]
          constructor
          · intro h; split at h <;> exact absurd h.symm (hr _)
          · intro h; split at h <;> exact absurd h.symm (hr _)
        | true =>
          have key := forall_acc (p := fun a => a.table.cases.all fun c =>
            a.home.contains c.1 || a.descends c.1 || decide (a = .FTEID) && c.1 == T.CreatedTrafficEndpoint)
            (by decide +kernel) a
          unfold Acc.handles at hh
          obtain ⟨b, hb⟩ := Option.isSome_iff_exists.1 hh
          have := List.all_eq_true.1 key _ (lookup_mem hb)
          rw [Bool.or_eq_true, Bool.or_eq_true, Bool.and_eq_true, decide_eq_true_eq] at this
          rcases this with (h | h) | ⟨rfl, h⟩
          · rw [hg i.typ (List.mem_append_left _ (by simpa using h))] at hgt
            cases hgt
          · rw [hd] at h; cases h
          · have e : i.typ = T.CreatedTrafficEndpoint := by simpa using h
            rw [ambiguous_fteid g mem i e, ambiguous_fteid g mem j (ht ▸ e)]
      | true =>
        rw [call_child g mem a i hd cs hi r hr, call_child g mem a j (ht ▸ hd) ds hj r hr, ← ht]
        have hp : ∀ c : IE, (a.searched i.typ).contains c.typ = true → U c.typ = false := fun c hc => by
          obtain ⟨p, hp, hpt⟩ := descends_cases hd
          exact hU _ (List.mem_flatMap.2 ⟨p, hp, List.mem_cons_of_mem _ (by rw [hpt]; simpa using hc)⟩)
        rw [← without_find U _ hp cs, ← without_find U _ hp ds]
        rcases hk.find (fun c => (a.searched i.typ).contains c.typ)
          (fun c d h => by rw [h.typ]) with ⟨h1, h2⟩ | ⟨c, d, h1, h2, h3⟩
        · rw [h1, h2]
        · have hcd : a.onChild.call g mem c = r ↔ a.onChild.call g mem d = r := by
            by_cases ho : a.onChild = a
            · rw [ho]; exact ih c d h3
            · have hc := List.find?_some h1
              have : g c.typ = false := by
                have key := forall_acc (p := fun a => decide (a.onChild = a) || a.table.cases.all fun p =>
                  (a.searched p.1).all fun u => a.onChild.home.contains u) (by decide +kernel) a
                rw [Bool.or_eq_true] at key
                rcases key with key | key
                · exact absurd (of_decide_eq_true key) ho
                · obtain ⟨p, hp, hpt⟩ := descends_cases hd
                  have := List.all_eq_true.1 (List.all_eq_true.1 key p hp) c.typ (by rw [hpt]; simpa using hc)
                  exact hg _ (List.mem_append_right _ (by simpa using this))
              rw [h3.plain this]
          rw [h1, h2]
          constructor
          · rintro ⟨_, e, h⟩; cases e; exact ⟨d, rfl, hcd.1 h⟩
          · rintro ⟨_, e, h⟩; cases e; exact ⟨c, rfl, hcd.2 h⟩

/-- The answer of a flag function is the same too. -/
theorem C81_deep_flags (mem : IE → Bytes) (f : Flag) (hg : ∀ t, f.handles t = true → f.descends t = false → g t = false)
    (U : IEType → Bool) (hU : ∀ t, ∀ u ∈ f.searched t, U u = false) (n : Nat) (i j : IE) (h : SameBut g U n i j)
    (hh : f.handles i.typ = true) : f.call g mem i = f.call g mem j := by
  induction n generalizing i j with
  | zero => rw [show i = j from h]
  | succ n ih =>
    rcases h with rfl | ⟨hgt, ht, cs, ds, hi, hj, hk⟩
    · rfl
    · cases hd : f.descends i.typ with
      | false => rw [hg i.typ hh hd] at hgt; cases hgt
      | true =>
        rw [C38_flags g mem f i hd, C38_flags g mem f j (ht ▸ hd), hi, hj, ← ht]
        have hp : ∀ c : IE, (f.searched i.typ).contains c.typ = true → U c.typ = false := fun c hc => hU _ _ (by simpa using hc)
        dsimp only
        rw [← without_find U _ hp cs, ← without_find U _ hp ds]
        rcases hk.find (fun c => (f.searched i.typ).contains c.typ)
          (fun c d h => by rw [h.typ]) with ⟨h1, h2⟩ | ⟨c, d, h1, h2, h3⟩
        · rw [h1, h2]
        · rw [h1, h2]
          exact ih c d h3 ((C38_flags_searched f i.typ hd).2 _ (by simpa using List.find?_some h1))

namespace Msg

/-- Two fields hold elements that are related one by one (not part of the Go code). -/
def SlotAlike (R : IE → IE → Prop) : Slot → Slot → Prop
  | .one none, .one none => True
  | .one (some x), .one (some y) => R x y
  | .many xs, .many ys => ∃ xs' ys', xs = xs'.map some ∧ ys = ys'.map some ∧ Alike R xs' ys'
  | _, _ => False

/-- C81 messages: two datagrams of the same message type whose elements are the same except for some of types that have no
field in that message, are decoded into messages with the same fields; the elements without a field are the same but for these. -/
theorem C81_fields (b b' : Bytes) (m m' : Msg) (h : parse g b = .ok m) (h' : parse g b' = .ok m')
    (ht : m.header.typ = m'.header.typ) (U : IEType → Bool) (hU : ∀ n ∈ m.kind.names, U (fieldIE m.kind n) = false)
    (xs ys : List IE) (hx : parseMulti g m.header.payload = .ok xs) (hy : parseMulti g m'.header.payload = .ok ys)
    (hs : xs.filter (fun c => !U c.typ) = ys.filter (fun c => !U c.typ)) :
    m.kind = m'.kind ∧ m.fields = m'.fields ∧
    (m.ies.filterMap id).filter (fun c => !U c.typ) = (m'.ies.filterMap id).filter (fun c => !U c.typ) := by
  have e := parse_filed g b m h xs hx
  have e' := parse_filed g b' m' h' ys hy
  rw [← ht] at e'
  have hk : m.kind = kindOf m.header.typ := by rw [e]; rfl
  rw [hk] at hU
  generalize kindOf m.header.typ = k at e e' hU
  generalize m.header = hd at e
  generalize m'.header = hd' at e'
  subst e e'
  refine ⟨rfl, ?_, ?_⟩
  · unfold filed
    apply List.map_congr_left
    intro p hp
    have hn : U (fieldIE k p.1) = false := hU _ (List.mem_map.2 ⟨_, hp, rfl⟩)
    have hq : ∀ c : IE, decide (c.typ = fieldIE k p.1) = true → U c.typ = false := fun c hc => by
      rw [of_decide_eq_true hc]; exact hn
    rw [← without_filter U _ hq xs, ← without_filter U _ hq ys]
    unfold without
    rw [hs]
  · unfold filed
    rw [filterMap_id_map_some, filterMap_id_map_some, List.filter_filter, List.filter_filter]
    have e : ∀ zs : List IE, zs.filter (fun a => (!U a.typ && decide (∀ n ∈ k.names, a.typ ≠ fieldIE k n))) =
        (zs.filter fun c => !U c.typ).filter fun a => decide (∀ n ∈ k.names, a.typ ≠ fieldIE k n) := by
      intro zs
      rw [List.filter_filter]
      congr 1
      funext c
      exact Bool.and_comm _ _
    rw [e, e, hs]

/-- C81 messages, at every depth: the fields hold elements that are the same but for descendants of those types. -/
theorem C81_fields_deep (b b' : Bytes) (m m' : Msg) (h : parse g b = .ok m) (h' : parse g b' = .ok m')
    (ht : m.header.typ = m'.header.typ) (U : IEType → Bool) (hU : ∀ n ∈ m.kind.names, U (fieldIE m.kind n) = false)
    (xs ys : List IE) (hx : parseMulti g m.header.payload = .ok xs) (hy : parseMulti g m'.header.payload = .ok ys)
    (N : Nat) (hs : Alike (SameBut g U N) (xs.filter fun c => !U c.typ) (ys.filter fun c => !U c.typ)) :
    m.kind = m'.kind ∧ ∀ n ∈ m.kind.names, ∃ s s', (n, s) ∈ m.fields ∧ (n, s') ∈ m'.fields ∧
      SlotAlike (SameBut g U N) s s' := by
  have e := parse_filed g b m h xs hx
  have e' := parse_filed g b' m' h' ys hy
  rw [← ht] at e'
  have hk : m.kind = kindOf m.header.typ := by rw [e]; rfl
  rw [hk] at hU
  generalize kindOf m.header.typ = k at e e' hU
  generalize m.header = hd at e
  generalize m'.header = hd' at e'
  subst e e'
  refine ⟨rfl, ?_⟩
  intro n hn
  obtain ⟨p, hp, rfl⟩ := List.mem_map.1 hn
  refine ⟨_, _, List.mem_map.2 ⟨p, hp, rfl⟩, List.mem_map.2 ⟨p, hp, rfl⟩, ?_⟩
  have hn : U (fieldIE k p.1) = false := hU _ (List.mem_map.2 ⟨_, hp, rfl⟩)
  have hq : ∀ c : IE, decide (c.typ = fieldIE k p.1) = true → U c.typ = false := fun c hc => by
    rw [of_decide_eq_true hc]; exact hn
  rw [← without_filter U _ hq xs, ← without_filter U _ hq ys]
  have ha := Alike.filter (fun c => decide (c.typ = fieldIE k p.1)) (fun c d h => by rw [h.typ]) hs
  cases p.2 with
  | one =>
    rcases ha.last with ⟨h1, h2⟩ | ⟨c, d, h1, h2, h3⟩
    · unfold without; rw [h1, h2]; exact trivial
    · unfold without; simp only [Slot.collect]; rw [h1, h2]; exact h3
  | many => exact ⟨_, _, rfl, rfl, ha⟩

/-- C81 on the wire: with any header and any well-formed elements, the datagram is accepted with the additional elements
as it is without them. -/
theorem C81_accepted (h : Header) (hw : h.WF) (U : IEType → Bool) (xs ys : List IE) (hx : ∀ i ∈ xs, i.WF g)
    (hy : ∀ i ∈ ys, i.WF g) (hU : ∀ n ∈ (kindOf h.typ).names, U (fieldIE (kindOf h.typ) n) = false)
    (hs : xs.filter (fun c => !U c.typ) = ys.filter (fun c => !U c.typ)) :
    ∃ m m', parse g ({ h with payload := encList g xs } : Header).enc = .ok m ∧
      parse g ({ h with payload := encList g ys } : Header).enc = .ok m' ∧ m.kind = m'.kind ∧ m.fields = m'.fields := by
  have h1 := parse_wire g { h with payload := encList g xs } (by exact hw) xs ((WFList_iff g xs).2 hx) rfl
  have h2 := parse_wire g { h with payload := encList g ys } (by exact hw) ys ((WFList_iff g ys).2 hy) rfl
  have hp : ∀ zs : List IE, (∀ i ∈ zs, i.WF g) → parseMulti g (encList g zs) = .ok zs := fun zs hz =>
    parseMulti_enc g zs ((WFList_iff g zs).2 hz)
  obtain ⟨h3, h4, _⟩ := C81_fields g _ _ _ _ h1 h2 rfl U hU xs ys (hp xs hx) (hp ys hy) hs
  exact ⟨_, _, h1, h2, h3, h4⟩

end Msg

/-- A type without a name in /repo/ie/ie.go: one of a later release of the standard, or of a vendor (not part of the Go code). -/
def unnamed (t : IEType) : Bool := !(TypeName.constants.map (·.1)).contains t

/-- C81, which types: no accessor, no flag function and no message knows a type without a name, so that for those types
the conditions of the theorems above hold. Vendor types are among them. -/
theorem C81_unnamed :
    (∀ (a : Acc), ∀ u ∈ a.knows, unnamed u = false) ∧ (∀ (f : Flag) (t : IEType), ∀ u ∈ f.searched t, unnamed u = false) ∧
    (∀ (k : Kind), ∀ n ∈ k.names, unnamed (fieldIE k n) = false) ∧ (∀ t, isVendor t = true → unnamed t = true) := by
  have ha : ∀ (a : Acc), ∀ u ∈ a.knows, unnamed u = false := by
    intro a u hu
    have key := forall_acc (p := fun a => a.knows.all fun u => !unnamed u) (by decide +kernel) a
    simpa using List.all_eq_true.1 key u hu
  have hs : ∀ (a : Acc) (t : IEType), ∀ u ∈ a.searched t, unnamed u = false := by
    intro a t u hu
    refine ha a u (List.mem_flatMap.2 ?_)
    have hl := hu
    unfold Acc.searched at hl
    split at hl
    · rename_i e; exact ⟨_, lookup_mem e, List.mem_cons_of_mem _ hu⟩
    · cases hl
  refine ⟨ha, fun f t u hu => ?_, fun k n hn => ?_, fun t ht => ?_⟩
  · unfold Flag.searched at hu
    split at hu
    · exact hs _ t u hu
    · exact hs _ t u hu
    · cases hu
  · have key : ∀ k : Kind, k.names.all (fun n => !unnamed (fieldIE k n)) = true := by
      intro k; cases k <;> decide +kernel
    simpa using List.all_eq_true.1 (key k) n hn
  · have key : TypeName.constants.all (fun p => !isVendor p.1) = true := by decide +kernel
    unfold unnamed
    rw [Bool.not_eq_true', List.contains_eq_mem, decide_eq_false_iff_not]
    intro hm
    obtain ⟨p, hp, rfl⟩ := List.mem_map.1 hm
    have := List.all_eq_true.1 key p hp
    rw [ht] at this
    cases this

/-- C81, all together: two datagrams of the same message type that carry the same elements except for elements of types
without a name, added anywhere. Whatever a field holds in the one, it holds in the other an element from which each
accessor reads the same value. -/
theorem C81_receiver (mem : IE → Bytes) (b b' : Bytes) (m m' : Msg) (h : Msg.parse g b = .ok m) (h' : Msg.parse g b' = .ok m')
    (ht : m.header.typ = m'.header.typ)
    (xs ys : List IE) (hx : parseMulti g m.header.payload = .ok xs) (hy : parseMulti g m'.header.payload = .ok ys)
    (N : Nat) (hs : Alike (SameBut g unnamed N) (xs.filter fun c => !unnamed c.typ) (ys.filter fun c => !unnamed c.typ))
    (n : FieldName) (e : IE) (hn : (n, Slot.one (some e)) ∈ m.fields) :
    ∃ e', (n, Slot.one (some e')) ∈ m'.fields ∧ ∀ a : Acc, (∀ t ∈ a.home ++ a.onChild.home, g t = false) →
      ∀ r, (∀ err, r ≠ .err err) → (a.call g mem e = r ↔ a.call g mem e' = r) := by
  obtain ⟨hk, hf⟩ := Msg.C81_fields_deep g b b' m m' h h' ht unnamed (C81_unnamed.2.2.1 m.kind) xs ys hx hy N hs
  have hnm : m.fields.map (·.1) = m.kind.names := by
    rw [Msg.parse_filed g b m h xs hx]
    simp [Msg.filed, Kind.names]
  have hmem : n ∈ m.kind.names := by rw [← hnm]; exact List.mem_map.2 ⟨_, hn, rfl⟩
  obtain ⟨s, s', h1, h2, h3⟩ := hf n hmem
  have hnd : (m.fields.map (·.1)).Nodup := by rw [hnm]; exact Kind.names_nodup _
  have := Msg.nodup_fst hnd hn h1
  subst this
  match s', h3 with
  | .one (some e'), h3 =>
    exact ⟨e', h2, fun a hg => C81_deep g mem a hg unnamed (C81_unnamed.1 a) N e e' h3⟩

/-- The error may be another one: `MBR` answers to an empty group that the octets end early, and to one that holds only an
element it does not look for that there is none of its own. -/
theorem C81_error_kind (mem : IE → Bytes) :
    let u : Bytes := [0x7f, 0xff, 0, 6, 0, 0, 0, 0, 0, 0]
    let i : IE := ⟨T.CreateQER, 0, 0, [], []⟩
    let j : IE := ⟨T.CreateQER, 10, 0, u, [⟨0x7fff, 6, 0, [0, 0, 0, 0, 0, 0], []⟩]⟩
    SameBut (fun t => defaultGroupedTypes.contains t) unnamed 1 i j ∧
    Acc.MBR.call (fun t => defaultGroupedTypes.contains t) mem i = .err .unexpectedEOF ∧
    Acc.MBR.call (fun t => defaultGroupedTypes.contains t) mem j = .err .ieNotFound := by
  refine ⟨.inr ⟨by decide +kernel, rfl, [], [⟨0x7fff, 6, 0, [0, 0, 0, 0, 0, 0], []⟩], ?_, ?_, ?_⟩, rfl, rfl⟩
  · exact parseMulti_nil _
  · decide +kernel
  · have : unnamed 0x7fff = true := by decide +kernel
    simp [without, this, Alike]

/-- The code of accessor `a` for elements of type `t` returns the elements of the group, as `PDI` does. -/
def returnsElements (a : Acc) (t : IEType) : Bool :=
  match a.table.cases.lookup t with
  | some (.leaf .ies) => true
  | _ => false

/-- C81, which accessors: with the groups of the standard the condition of `C81_deep` is met by every accessor except those that
return the elements of a group. -/
theorem C81_which (a : Acc) : (∀ t ∈ a.home ++ a.onChild.home, defaultGroupedTypes.contains t = false) ↔
    ∀ t ∈ a.home, returnsElements a t = false := by
  have key := forall_acc (p := fun a => (a.home ++ a.onChild.home).all (fun t => !defaultGroupedTypes.contains t) ==
    a.home.all fun t => !returnsElements a t) (by decide +kernel) a
  rw [beq_iff_eq, Bool.eq_iff_iff, List.all_eq_true, List.all_eq_true] at key
  simpa using key

/-- C81, which flag functions: all of them meet the condition of `C81_deep_flags` with the groups of the standard. -/
theorem C81_which_flags (f : Flag) (t : IEType) (h : f.handles t = true) (hd : f.descends t = false) :
    defaultGroupedTypes.contains t = false := by
  have key := forall_flag (p := fun f => f.mentions.all fun t => !f.handles t || f.descends t ||
    !defaultGroupedTypes.contains t) (by decide +kernel) f
  have key := List.all_eq_true.1 key t (handles_mentions f t h)
  rw [h, hd] at key
  simpa using key

/-- A create PDR with a vendor element beside and inside its packet detection information. -/
example :
    let g : IEType → Bool := fun t => defaultGroupedTypes.contains t
    let v : Bytes := [0x80, 1, 0, 3, 0, 10, 7]
    let f : Bytes := [0, 20, 0, 1, 1]
    let i : IE := ⟨T.CreatePDR, 9, 0, [0, 2, 0, 5] ++ f, []⟩
    let j : IE := ⟨T.CreatePDR, 37, 0, v ++ ([0, 2, 0, 19] ++ v ++ f ++ v) ++ v, []⟩
    SameBut g unnamed 2 i j ∧ Acc.SourceInterface.call g (fun _ => []) i = .ok (.u8 1) ∧
      Acc.SourceInterface.call g (fun _ => []) j = .ok (.u8 1) := by
  intro g v f i j
  have hv : unnamed 0x8001 = true := by decide +kernel
  have h2 : unnamed 2 = false := by decide +kernel
  have h20 : unnamed 20 = false := by decide +kernel
  let x : IE := ⟨20, 1, 0, [1], []⟩
  let y : IE := ⟨0x8001, 3, 10, [7], []⟩
  let p : IE := ⟨2, 5, 0, f, [x]⟩
  let q : IE := ⟨2, 19, 0, v ++ f ++ v, [y, x, y]⟩
  have hs : SameBut g unnamed 2 i j := by
    refine .inr ⟨by decide +kernel, rfl, [p], [y, q, y], by decide +kernel, by decide +kernel, ?_⟩
    rw [show without unnamed [p] = [p] by simp [without, p, h2],
      show without unnamed [y, q, y] = [q] by simp [without, q, y, h2, hv]]
    refine ⟨.inr ⟨by decide +kernel, rfl, [x], [y, x, y], by decide +kernel, by decide +kernel, ?_⟩, trivial⟩
    simp [without, x, y, hv, h20, Alike, SameBut]
  have h1 : Acc.SourceInterface.call g (fun _ => []) i = .ok (.u8 1) :=
    (call_child g _ _ i (by decide +kernel) [p] (by decide +kernel) _ (fun _ h => by cases h)).2 ⟨p, by decide +kernel,
      (call_child g _ _ p (by decide +kernel) [x] (by decide +kernel) _ (fun _ h => by cases h)).2 ⟨x, by decide +kernel, rfl⟩⟩
  exact ⟨hs, h1, (C81_deep g _ .SourceInterface ((C81_which _).2 (by decide +kernel)) unnamed (C81_unnamed.1 _) 2 i j hs _
    (fun _ h => by cases h)).1 h1⟩

end Pfcp
