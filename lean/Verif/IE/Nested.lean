/-
Editing an element inside a group. The children of a group are pointers
(/repo/ie/ie.go:299-305, `ChildIEs []*IE`), so what `FindByType` returns is the child itself:
`Add`, `Remove` on it is visible in the enclosing element's `ChildIEs`, whose `Payload` and `Length`
are left alone. Simplified: no two children of the tree are the same pointer.
-/
import Verif.IE.Props

namespace Pfcp

variable (g : IEType → Bool)

/-- Replacing the child `FindByType(t)` returns, /repo/ie/ie_grouped.go:185-196: the first child of the
type, `f` standing for what is done through the returned pointer. -/
def updFirst (t : IEType) (f : IE → Res IE) : List IE → Res (List IE)
  | [] => .err .ieNotFound
  | c :: cs =>
    if c.typ = t then do
      let c' ← f c
      pure (c' :: cs)
    else do
      let r ← updFirst t f cs
      pure (c :: r)

/-- `i.FindByType(t₁)…FindByType(tₙ)` followed by `Add`/`Remove` on what was found,
/repo/ie/ie_grouped.go:137-196, as seen from `i`: only `ChildIEs` of the elements on the way show the
edit, their `Payload` and `Length` are not written. -/
def editFound (op : EditOp) : List IEType → IE → Res IE
  | [], i => op.apply g i
  | t :: ts, i =>
    if !g i.typ then .err .errInvalidType
    else do
      let cs ← updFirst t (editFound op ts) i.children
      pure { i with children := cs }

/-- The same edit followed by `Add()` with no argument on every enclosing element, innermost first:
/repo/ie/ie_grouped.go:137-152 serializes all the children again and sets the length. -/
def editRepair (op : EditOp) : List IEType → IE → Res IE
  | [], i => op.apply g i
  | t :: ts, i =>
    if !g i.typ then .err .errInvalidType
    else do
      let cs ← updFirst t (editRepair op ts) i.children
      ({ i with children := cs } : IE).add g []

/-- `i.FindByType(t₁)…FindByType(tₙ)`, /repo/ie/ie_grouped.go:185-196. -/
def findPath : List IEType → IE → Res IE
  | [], i => .ok i
  | t :: ts, i => do
    let c ← i.findByType g t
    findPath ts c

/-- What an edit at the end of a path means: the first child of the type, on every level, is replaced
by an edited one and nothing else changes. -/
def Edited (op : EditOp) : List IEType → IE → IE → Prop
  | [], i, j => j.typ = i.typ ∧ j.eid = i.eid ∧ j.children = op.onList i.children
  | t :: ts, i, j => j.typ = i.typ ∧ j.eid = i.eid ∧
    ∃ pre c c' post, i.children = pre ++ c :: post ∧ (∀ x ∈ pre, x.typ ≠ t) ∧ c.typ = t ∧
      j.children = pre ++ c' :: post ∧ Edited op ts c c'

/-! ### Helper lemmas -/

theorem updFirst_ok {t : IEType} {f : IE → Res IE} {l r : List IE} (h : updFirst t f l = .ok r) :
    ∃ pre c c' post, l = pre ++ c :: post ∧ (∀ x ∈ pre, x.typ ≠ t) ∧ c.typ = t ∧ f c = .ok c' ∧
      r = pre ++ c' :: post := by
  induction l generalizing r with
  | nil => simp [updFirst] at h
  | cons d ds ih =>
    by_cases hd : d.typ = t
    · simp only [updFirst, hd, if_true] at h
      cases hf : f d with
      | ok d' =>
        simp only [hf, Res.ok_bind, Res.pure_eq, Res.ok.injEq] at h
        exact ⟨[], d, d', ds, rfl, by simp, hd, hf, by simp [← h]⟩
      | err e => simp [hf] at h
      | panic => simp [hf] at h
    · simp only [updFirst, hd, if_false] at h
      cases hu : updFirst t f ds with
      | ok r' =>
        simp only [hu, Res.ok_bind, Res.pure_eq, Res.ok.injEq] at h
        obtain ⟨pre, c, c', post, h1, h2, h3, h4, h5⟩ := ih hu
        refine ⟨d :: pre, c, c', post, by simp [h1], ?_, h3, h4, by simp [← h, h5]⟩
        intro x hx
        rcases List.mem_cons.1 hx with h | h
        · exact h ▸ hd
        · exact h2 x h
      | err e => simp [hu] at h
      | panic => simp [hu] at h

theorem updFirst_of {t : IEType} {f : IE → Res IE} {c c' : IE} (pre post : List IE)
    (h2 : ∀ x ∈ pre, x.typ ≠ t) (h3 : c.typ = t) (h4 : f c = .ok c') :
    updFirst t f (pre ++ c :: post) = .ok (pre ++ c' :: post) := by
  induction pre with
  | nil => simp [updFirst, h3, h4]
  | cons d ds ih =>
    have hd : d.typ ≠ t := h2 d (by simp)
    simp [updFirst, hd, ih fun x hx => h2 x (by simp [hx])]

theorem findLoop_ok {t : IEType} {l : List IE} {c : IE} (h : findLoop t l = .ok c) :
    ∃ pre post, l = pre ++ c :: post ∧ (∀ x ∈ pre, x.typ ≠ t) ∧ c.typ = t := by
  induction l with
  | nil => simp [findLoop] at h
  | cons d ds ih =>
    by_cases hd : d.typ = t
    · simp only [findLoop, hd, if_true, Res.ok.injEq] at h
      exact ⟨[], ds, by simp [h], by simp, h ▸ hd⟩
    · simp only [findLoop, hd, if_false] at h
      obtain ⟨pre, post, h1, h2, h3⟩ := ih h
      refine ⟨d :: pre, post, by simp [h1], ?_, h3⟩
      intro x hx
      rcases List.mem_cons.1 hx with h | h
      · exact h ▸ hd
      · exact h2 x h

theorem findByType_ok {t : IEType} {i c : IE} (h : i.findByType g t = .ok c) :
    g i.typ = true ∧ ∃ pre post, i.children = pre ++ c :: post ∧ (∀ x ∈ pre, x.typ ≠ t) ∧
      c.typ = t := by
  unfold IE.findByType at h
  cases hg : g i.typ with
  | false => simp [hg] at h
  | true =>
    simp only [hg, Bool.not_true, Bool.false_eq_true, if_false] at h
    exact ⟨rfl, findLoop_ok h⟩

theorem findPath_cons {t : IEType} {ts : List IEType} {i c : IE}
    (h : findPath g (t :: ts) i = .ok c) :
    ∃ d, i.findByType g t = .ok d ∧ findPath g ts d = .ok c := by
  simp only [findPath] at h
  cases hf : i.findByType g t with
  | ok d => simp only [hf, Res.ok_bind] at h; exact ⟨d, rfl, h⟩
  | err e => simp [hf] at h
  | panic => simp [hf] at h

theorem WFList_mem {l : List IE} : WFList g l ↔ ∀ c ∈ l, c.WF g := by
  induction l with
  | nil => simp [WFList]
  | cons c cs ih => simp [WFList, ih]

theorem WF_children {i : IE} (h : i.WF g) (hg : g i.typ = true) :
    i.payload = encList g i.children ∧ WFList g i.children := by
  cases i with
  | mk t l e p cs =>
    simp only at hg
    simp only [IE.WF, hg, if_true] at h
    exact h.2.2

theorem enc_of_grouped {i : IE} (hg : g i.typ = true) :
    i.enc g = encHdr i.typ i.length i.eid ++ encList g i.children := by
  cases i with
  | mk t l e p cs => simp only at hg; simp [IE.enc, hg]

theorem encList_mid (pre post : List IE) (c : IE) :
    encList g (pre ++ c :: post) = encList g pre ++ (c.enc g ++ encList g post) := by
  rw [encList_append, encList]

theorem encList_length_zero {l : List IE} (h : (encList g l).length = 0) : l = [] := by
  cases l with
  | nil => rfl
  | cons c cs =>
    have := enc_length_pos g c
    simp [encList] at h
    rw [h.1] at this
    simp at this

theorem filter_enc_length (p : IE → Bool) (l : List IE) :
    (encList g (l.filter p)).length ≤ (encList g l).length ∧
    ((encList g (l.filter p)).length = (encList g l).length → l.filter p = l) := by
  induction l with
  | nil => simp
  | cons c cs ih =>
    by_cases h : p c = true
    · rw [List.filter_cons_of_pos h]
      simp only [encList, List.length_append]
      refine ⟨by omega, fun he => ?_⟩
      rw [ih.2 (by omega)]
    · rw [List.filter_cons_of_neg h]
      have := enc_length_pos g c
      simp only [encList, List.length_append]
      exact ⟨by omega, fun he => by omega⟩

/-- An edit that keeps the encoded size keeps the list. -/
theorem onList_same (op : EditOp) (l : List IE)
    (h : (encList g (op.onList l)).length = (encList g l).length) : op.onList l = l := by
  cases op with
  | add ies =>
    simp only [EditOp.onList, encList_append, List.length_append] at h ⊢
    rw [encList_length_zero g (l := ies) (by omega), List.append_nil]
  | remove t => exact (filter_enc_length g _ l).2 h

theorem apply_same {op : EditOp} {i j : IE} (hi : i.WF g) (h : op.apply g i = .ok j)
    (hl : (j.enc g).length = (i.enc g).length) : j = i := by
  cases hg : g i.typ with
  | false =>
    have := C08_not_grouped g i hg
    cases op with
    | add ies => simp only [EditOp.apply, (this 0 (ies.map some)).1, Res.ok.injEq] at h; exact h.symm
    | remove t => simp only [EditOp.apply, (this t []).2.1, Res.ok.injEq] at h; exact h.symm
  | true =>
    rw [apply_eq g i hg op, Res.ok.injEq] at h
    obtain ⟨hp, _⟩ := WF_children g hi hg
    subst h
    rw [enc_of_grouped g hg, enc_of_grouped g (by exact hg)] at hl
    have hh : ∀ a b c, (encHdr i.typ a c).length = (encHdr i.typ b c).length := by
      intro a b c; simp [encHdr]
    simp only [List.length_append, hh _ i.length i.eid] at hl
    have hs := onList_same g op i.children (by omega)
    cases i with
    | mk t l e p cs =>
      simp only [IE.WF] at hi
      simp only at hp hs ⊢
      rw [hs, ← hp]
      congr 1
      rw [← hi.1]
      simp

theorem editFound_hdr {op : EditOp} {t : IEType} {ts : List IEType} {i j : IE}
    (h : editFound g op (t :: ts) i = .ok j) :
    g i.typ = true ∧ ∃ pre c c' post, i.children = pre ++ c :: post ∧ (∀ x ∈ pre, x.typ ≠ t) ∧
      c.typ = t ∧ editFound g op ts c = .ok c' ∧ j = { i with children := pre ++ c' :: post } := by
  simp only [editFound] at h
  cases hg : g i.typ with
  | false => simp [hg] at h
  | true =>
    simp only [hg, Bool.not_true, Bool.false_eq_true, if_false] at h
    refine ⟨rfl, ?_⟩
    cases hu : updFirst t (editFound g op ts) i.children with
    | ok r =>
      simp only [hu, Res.ok_bind, Res.pure_eq, Res.ok.injEq] at h
      obtain ⟨pre, c, c', post, h1, h2, h3, h4, h5⟩ := updFirst_ok hu
      exact ⟨pre, c, c', post, h1, h2, h3, h4, by rw [← h, h5]⟩
    | err e => simp [hu] at h
    | panic => simp [hu] at h

theorem editFound_same {op : EditOp} {path : List IEType} {i j : IE} (hi : i.WF g)
    (h : editFound g op path i = .ok j) (hl : (j.enc g).length = (i.enc g).length) : j = i := by
  induction path generalizing i j with
  | nil => exact apply_same g hi h hl
  | cons t ts ih =>
    obtain ⟨hg, pre, c, c', post, h1, h2, h3, h4, h5⟩ := editFound_hdr g h
    obtain ⟨_, hw⟩ := WF_children g hi hg
    have hc : c.WF g := (WFList_mem g).1 hw c (by simp [h1])
    subst h5
    rw [enc_of_grouped g hg, enc_of_grouped g (by exact hg), h1] at hl
    simp only [encList_mid, List.length_append] at hl
    have := ih hc h4 (by omega)
    subst this
    cases i with
    | mk t l e p cs => simp only at h1; simp [h1]

/-- The length field of a well-formed element, in terms of its encoding. -/
theorem WF_length {i : IE} (hi : i.WF g) : (i.enc g).length = 4 + i.length.toNat := by
  cases i with
  | mk t l e p cs =>
    obtain ⟨h1, _, h3⟩ := hi
    simp only at h1 ⊢
    have hb : (if g t = true then encList g cs else p) = p := by
      cases hg : g t with
      | true => simp only [hg, if_true] at h3 ⊢; exact h3.1.symm
      | false => simp
    rw [IE.enc, hb, h1]
    simp only [encHdr, List.length_append]
    have h2 : ∀ x, (be16 x).length = 2 := fun _ => rfl
    split <;> simp [h2] <;> omega

/-! ### C63 editing an element inside a group -/

/-- C63 is false, for every group, every path and every edit: editing an element found inside a
well-formed group leaves the enclosing element's length and payload as they were. The encoding is
decoded back to the element exactly when the edit changed nothing; otherwise the length field of the
encoding does not count its bytes. -/
theorem C63_nested_violated (op : EditOp) (t : IEType) (ts : List IEType) (i j : IE) (b : Bytes)
    (hi : i.WF g) (h : editFound g op (t :: ts) i = .ok j) (hb : j.marshal g = .ok b) :
    j.length = i.length ∧ j.payload = i.payload ∧
    (parse g b = .ok j ↔ j = i) ∧
    (b.length = 4 + j.length.toNat ↔ j = i) := by
  rw [marshal_eq, Res.ok.injEq] at hb
  subst hb
  obtain ⟨hg, pre, c, c', post, h1, h2, h3, h4, h5⟩ := editFound_hdr g h
  have hlen : j.length = i.length := by rw [h5]
  have hpay : j.payload = i.payload := by rw [h5]
  have hself : parse g (i.enc g) = .ok i := by
    rw [← List.append_nil (i.enc g)]; exact parse_enc g i hi []
  refine ⟨hlen, hpay, ⟨fun hp => ?_, fun he => he ▸ hself⟩, ⟨fun hl => ?_, fun he => ?_⟩⟩
  · have hs := parse_Skel hp
    have hgj : g j.typ = true := by rw [h5]; exact hg
    have hpj : j.payload = encList g j.children := by
      cases j with
      | mk t' l' e' p' cs' =>
        simp only at hgj
        simp only [IE.Skel, hgj, if_true] at hs
        exact hs.2.1
    have he : j.enc g = i.enc g := by
      rw [enc_of_grouped g hg, enc_of_grouped g hgj, ← hpj, hpay, (WF_children g hi hg).1, h5]
    rw [he, hself, Res.ok.injEq] at hp
    exact hp.symm
  · exact editFound_same g hi h (by rw [hl, hlen, WF_length g hi])
  · subst he; exact WF_length g hi

/-- C63, partial: an edit inside a group followed by `Add()` without arguments on every enclosing
element, innermost first, gives the element with exactly the edit applied, and it decodes back to
itself as long as it fits into 16 bits. Missing: the edit alone does not, see
`C63_nested_violated`. -/
theorem C63_repair_partial (op : EditOp) (path : List IEType) (i c : IE) (hi : i.WF g)
    (hf : findPath g path i = .ok c) (hg : g c.typ = true)
    (hw : ∀ ies, op = .add ies → ∀ d ∈ ies, d.WF g) :
    ∃ j b, editRepair g op path i = .ok j ∧ Edited op path i j ∧ j.marshal g = .ok b ∧
      (b.length ≤ 65539 → j.WF g ∧ parse g b = .ok j) := by
  suffices hmain : ∃ j, editRepair g op path i = .ok j ∧ Edited op path i j ∧
      ((j.enc g).length ≤ 65539 → j.WF g) by
    obtain ⟨j, h1, h2, h3⟩ := hmain
    refine ⟨j, j.enc g, h1, h2, marshal_eq g j, fun hs => ⟨h3 hs, ?_⟩⟩
    rw [← List.append_nil (j.enc g)]
    exact parse_enc g j (h3 hs) []
  have hmk : ∀ (k : IE) (l : List IE), k.WF g → g k.typ = true →
      (((IE.mk k.typ (UInt16.ofNat ((if isVendor k.typ then 2 else 0) +
        (encList g l).length)) k.eid (encList g l) l)).enc g).length ≤ 65539 → WFList g l →
      (IE.mk k.typ (UInt16.ofNat ((if isVendor k.typ then 2 else 0) +
        (encList g l).length)) k.eid (encList g l) l).WF g := by
    intro k l hk hgk hs hl
    cases k with
    | mk t' l' e' p' cs' =>
      simp only at hgk hs ⊢
      obtain ⟨_, h2, _⟩ := hk
      refine ⟨?_, h2, by simp [hgk, hl]⟩
      simp only [UInt16.toNat_ofNat']
      apply Nat.mod_eq_of_lt
      rw [IE.enc] at hs
      simp only [hgk, if_true, encHdr, List.length_append] at hs
      have h2 : ∀ x, (be16 x).length = 2 := fun _ => rfl
      simp only [h2] at hs
      split at hs
      · rename_i hv; simp only [hv, if_true]; rw [h2] at hs; omega
      · rename_i hv; simp only [hv, Bool.false_eq_true, if_false]; simp at hs; omega
  induction path generalizing i with
  | nil =>
    simp only [findPath, Res.ok.injEq] at hf
    subst hf
    have ha : editRepair g op [] i = _ := apply_eq g i hg op
    refine ⟨_, ha, ⟨rfl, rfl, rfl⟩, fun hs => ?_⟩
    apply hmk i _ hi hg hs
    obtain ⟨_, hwc⟩ := WF_children g hi hg
    cases op with
    | add ies =>
      rw [EditOp.onList, WFList_append]
      exact ⟨hwc, (WFList_mem g).2 (hw ies rfl)⟩
    | remove t =>
      rw [WFList_mem] at hwc ⊢
      intro d hd
      exact hwc d (List.mem_filter.1 hd).1
  | cons t ts ih =>
    obtain ⟨d, hd, hrest⟩ := findPath_cons g hf
    obtain ⟨hgi, pre, post, h1, h2, h3⟩ := findByType_ok g hd
    obtain ⟨hpi, hwi⟩ := WF_children g hi hgi
    have hwd : d.WF g := (WFList_mem g).1 hwi d (by simp [h1])
    obtain ⟨d', e1, e2, e3⟩ := ih d hwd hrest
    have hadd : ∀ l : List IE, ({ i with children := l } : IE).add g [] =
        .ok ⟨i.typ, UInt16.ofNat ((if isVendor i.typ then 2 else 0) + (encList g l).length), i.eid,
          encList g l, l⟩ := by
      intro l
      simp [IE.add, hgi, derefAll, serializeLoop_eq, IE.setLength]
    refine ⟨⟨i.typ, UInt16.ofNat ((if isVendor i.typ then 2 else 0) +
      (encList g (pre ++ d' :: post)).length), i.eid, encList g (pre ++ d' :: post),
      pre ++ d' :: post⟩, ?_, ⟨rfl, rfl, pre, d, d', post, h1, h2, h3, rfl, e2⟩, fun hs => ?_⟩
    · simp only [editRepair, hgi, Bool.not_true, Bool.false_eq_true, if_false, h1,
        updFirst_of pre post h2 h3 e1, Res.ok_bind]
      exact hadd _
    · apply hmk i _ hi hgi hs
      have hle : (d'.enc g).length ≤ 65539 := by
        rw [enc_of_grouped g (by exact hgi)] at hs
        simp only [encList_mid, List.length_append] at hs
        omega
      rw [WFList_mem] at hwi ⊢
      intro x hx
      rcases List.mem_append.1 hx with hx | hx
      · exact hwi x (by simp [h1, hx])
      · rcases List.mem_cons.1 hx with hx | hx
        · exact hx ▸ e3 hle
        · exact hwi x (by simp [h1, hx])

/-- C63. What can be found can be edited: without repair the edit also succeeds, and what was found
is afterwards what the edit makes of it. -/
theorem C63_edit_found (op : EditOp) (path : List IEType) (i c : IE)
    (hf : findPath g path i = .ok c) :
    ∃ j c', op.apply g c = .ok c' ∧ editFound g op path i = .ok j ∧ findPath g path j = .ok c' := by
  have htyp : ∀ k k' : IE, op.apply g k = .ok k' → k'.typ = k.typ := by
    intro k k' h
    cases hg : g k.typ with
    | false =>
      have := C08_not_grouped g k hg
      cases op with
      | add ies => simp only [EditOp.apply, (this 0 (ies.map some)).1, Res.ok.injEq] at h; rw [h]
      | remove t => simp only [EditOp.apply, (this t []).2.1, Res.ok.injEq] at h; rw [h]
    | true => rw [apply_eq g k hg op, Res.ok.injEq] at h; rw [← h]
  have happ : ∀ k : IE, ∃ k', op.apply g k = .ok k' := by
    intro k
    cases hg : g k.typ with
    | false =>
      have := C08_not_grouped g k hg
      cases op with
      | add ies => exact ⟨k, (this 0 (ies.map some)).1⟩
      | remove t => exact ⟨k, (this t []).2.1⟩
    | true => exact ⟨_, apply_eq g k hg op⟩
  suffices hmain : ∃ j c', op.apply g c = .ok c' ∧ editFound g op path i = .ok j ∧
      findPath g path j = .ok c' ∧ j.typ = i.typ by
    obtain ⟨j, c', h1, h2, h3, _⟩ := hmain
    exact ⟨j, c', h1, h2, h3⟩
  induction path generalizing i with
  | nil =>
    simp only [findPath, Res.ok.injEq] at hf
    subst hf
    obtain ⟨k', hk⟩ := happ i
    exact ⟨k', k', hk, hk, rfl, htyp i k' hk⟩
  | cons t ts ih =>
    obtain ⟨d, hd, hrest⟩ := findPath_cons g hf
    obtain ⟨hgi, pre, post, h1, h2, h3⟩ := findByType_ok g hd
    obtain ⟨d', c', e1, e2, e3, e4⟩ := ih d hrest
    refine ⟨{ i with children := pre ++ d' :: post }, c', e1, ?_, ?_, rfl⟩
    · simp only [editFound, hgi, Bool.not_true, Bool.false_eq_true, if_false, h1,
        updFirst_of pre post h2 h3 e2, Res.ok_bind, Res.pure_eq]
    · have hfl : ∀ pre : List IE, (∀ x ∈ pre, x.typ ≠ t) →
          findLoop t (pre ++ d' :: post) = .ok d' := by
        intro pre
        induction pre with
        | nil => intro _; simp [findLoop, e4, h3]
        | cons x xs ihx =>
          intro hx
          have h0 : x.typ ≠ t := hx x (by simp)
          simp [findLoop, h0, ihx fun y hy => hx y (by simp [hy])]
      simp [findPath, IE.findByType, hgi, hfl pre h2, e3]

/-- Two of the grouped types, /repo/ie/ie_grouped.go:11-12: Create PDR and PDI. -/
def pdrGrouped (t : IEType) : Bool := t == 1 || t == 2

/-- Create PDR holding PDI holding Source Interface; a Network Instance is added to the PDI found in
it. The PDI then announces more bytes than the Create PDR around it: the encoding is rejected. -/
theorem C63_grow_violated :
    ∃ i j b, i.WF pdrGrouped ∧ editFound pdrGrouped
        (.add [⟨22, 1, 0, [65], []⟩]) [2] i = .ok j ∧ j.marshal pdrGrouped = .ok b ∧
      parse pdrGrouped b = .err .unexpectedEOF := by
  refine ⟨⟨1, 9, 0, [0, 2, 0, 5, 0, 20, 0, 1, 0], [⟨2, 5, 0, [0, 20, 0, 1, 0], [⟨20, 1, 0, [0], []⟩]⟩]⟩,
    _, _, ?_, rfl, marshal_eq _ _, ?_⟩
  · simp [IE.WF, WFList, encList, IE.enc, pdrGrouped]; decide
  · decide

/-- The other way round: removing an element from a group found inside another makes the outer group
swallow what follows it in the message. -/
theorem C63_shrink_violated :
    ∃ i j, i.WF pdrGrouped ∧ editFound pdrGrouped (.remove 20) [2] i = .ok j ∧
      parseMulti pdrGrouped (encList pdrGrouped [j, ⟨60, 1, 0, [9], []⟩]) =
        .ok [⟨1, 9, 0, [0, 2, 0, 0, 0, 60, 0, 1, 9], [⟨2, 0, 0, [], []⟩, ⟨60, 1, 0, [9], []⟩]⟩] := by
  refine ⟨⟨1, 9, 0, [0, 2, 0, 5, 0, 20, 0, 1, 0], [⟨2, 5, 0, [0, 20, 0, 1, 0], [⟨20, 1, 0, [0], []⟩]⟩]⟩,
    _, ?_, rfl, ?_⟩
  · simp [IE.WF, WFList, encList, IE.enc, pdrGrouped]; decide
  · decide

example : editRepair pdrGrouped (.add [⟨22, 1, 0, [65], []⟩]) [2]
      ⟨1, 4, 0, [0, 2, 0, 0], [⟨2, 0, 0, [], []⟩]⟩
    = .ok ⟨1, 9, 0, [0, 2, 0, 5, 0, 22, 0, 1, 65],
        [⟨2, 5, 0, [0, 22, 0, 1, 65], [⟨22, 1, 0, [65], []⟩]⟩]⟩ := by decide

end Pfcp
