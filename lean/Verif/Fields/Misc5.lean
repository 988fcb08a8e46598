/- PFDContents. -/
import Verif.Fields.Misc4

namespace Pfcp
namespace Fields

/-- `PFDContentsFields`, /repo/ie/pfd-contents.go:62-80. -/
structure PFDContents where
  flags : UInt8
  fdLen : UInt16
  fd : Bytes
  urlLen : UInt16
  url : Bytes
  dnLen : UInt16
  dn : Bytes
  cpLen : UInt16
  cp : Bytes
  dnpLen : UInt16
  dnp : Bytes
  afdLen : UInt16
  afd : List Bytes
  aurlLen : UInt16
  aurl : List Bytes
  adnpLen : UInt16
  adnp : List Bytes
  deriving DecidableEq

namespace PFDContents

/-- The loops at :116-119, :127-130, :138-141. -/
def total : List Bytes → Nat
  | [] => 0
  | a :: r => 2 + a.length + total r

/-- `NewPFDContentsFields`, :83-149. The length of an absent part stays 0, which is also its length. -/
def new (fd url dn cp dnp : Bytes) (afd aurl adnp : List Bytes) : PFDContents :=
  { flags := (if fd.isEmpty then 0 else 0x01) ||| (if url.isEmpty then 0 else 0x02) |||
      (if dn.isEmpty then 0 else 0x04) ||| (if cp.isEmpty then 0 else 0x08) ||| (if dnp.isEmpty then 0 else 0x10) |||
      (if afd.isEmpty then 0 else 0x20) ||| (if aurl.isEmpty then 0 else 0x40) ||| (if adnp.isEmpty then 0 else 0x80)
    fdLen := UInt16.ofNat fd.length, fd := fd
    urlLen := UInt16.ofNat url.length, url := url
    dnLen := UInt16.ofNat dn.length, dn := dn
    cpLen := UInt16.ofNat cp.length, cp := cp
    dnpLen := UInt16.ofNat dnp.length, dnp := dnp
    afdLen := UInt16.ofNat (total afd), afd := afd
    aurlLen := UInt16.ofNat (total aurl), aurl := aurl
    adnpLen := UInt16.ofNat (total adnp), adnp := adnp }

/-- `HasFD` :222, `HasURL` :212, `HasDN` :202, `HasCP` :192, `HasDNP` :182, `HasAFD` :172, `HasAURL` :162, `HasADNP`
:152. -/
def hasFD (fl : UInt8) : Bool := has1stBit fl
def hasURL (fl : UInt8) : Bool := has2ndBit fl
def hasDN (fl : UInt8) : Bool := has3rdBit fl
def hasCP (fl : UInt8) : Bool := has4thBit fl
def hasDNP (fl : UInt8) : Bool := has5thBit fl
def hasAFD (fl : UInt8) : Bool := has6thBit fl
def hasAURL (fl : UInt8) : Bool := has7thBit fl
def hasADNP (fl : UInt8) : Bool := has8thBit fl

/-- A single text, e.g. :251-256. The check compares what is left with `offset+2`, the length field being still 0. -/
def parseText : P (UInt16 × Bytes) := do
  let r ← P.rest
  let o ← P.off
  if r.length < o + 2 + 0 then P.fail .unexpectedEOF
  else do
    let n ← P.u16
    let t ← P.bytes n.toNat
    pure (n, t)

/-- The loop over the items, e.g. :303-315, from position `s` of `p`. -/
def items (p : Slice) : Nat → Nat → Res (List Bytes)
  | 0, _ => .panic
  | fuel + 1, s =>
    let e := s + 2
    if p.data.length ≤ e then .ok []
    else do
      let x ← p.sub s e
      let l := (dec16 x.data).toNat
      if p.data.length < e + l then .ok []
      else do
        let t ← p.sub e (e + l)
        let r ← items p fuel (s + (2 + l))
        .ok (t.data :: r)

/-- `p := b[offset+2 : offset+2+n]` and the loop over it, e.g. :301-316. -/
def parseItems (n : UInt16) : P (UInt16 × List Bytes) := fun s o =>
  s.sub o (o + n.toNat) >>= fun p => items p (p.data.length + 1) 0 >>= fun l => .ok ((n, l), o + n.toNat)

/-- A list of texts, e.g. :296-316. -/
def parseList : P (UInt16 × List Bytes) := do
  let r ← P.rest
  if r.length < 2 + 0 then P.fail .unexpectedEOF
  else do
    let n ← P.u16
    parseItems n

/-- `UnmarshalBinary` into a zero value, :241-371. -/
def parseP : P PFDContents := do
  P.minLen 2
  let fl ← P.peek 0
  P.skip 2
  let a ← P.opt (hasFD fl) parseText (0, [])
  let b ← P.opt (hasURL fl) parseText (0, [])
  let c ← P.opt (hasDN fl) parseText (0, [])
  let d ← P.opt (hasCP fl) parseText (0, [])
  let e ← P.opt (hasDNP fl) parseText (0, [])
  let f ← P.opt (hasAFD fl) parseList (0, [])
  let g ← P.opt (hasAURL fl) parseList (0, [])
  let h ← P.opt (hasADNP fl) parseList (0, [])
  pure ⟨fl, a.1, a.2, b.1, b.2, c.1, c.2, d.1, d.2, e.1, e.2, f.1, f.2, g.1, g.2, h.1, h.2⟩

/-- e.g. :393-395 -/
def textW (n : UInt16) (t : Bytes) : W := W.put (be16 n) ;; W.copy n.toNat t
/-- e.g. :425-430 -/
def itemsW : List Bytes → W
  | [] => W.nop
  | a :: r => W.put (be16 (UInt16.ofNat a.length)) ;; W.copy a.length a ;; itemsW r
/-- e.g. :423-430 -/
def listW (n : UInt16) (l : List Bytes) : W := W.put (be16 n) ;; itemsW l

/-- The parts of `MarshalTo`, :392-453. -/
def bodyW (f : PFDContents) : W :=
  W.opt (hasFD f.flags) (textW f.fdLen f.fd) ;; W.opt (hasURL f.flags) (textW f.urlLen f.url) ;;
  W.opt (hasDN f.flags) (textW f.dnLen f.dn) ;; W.opt (hasCP f.flags) (textW f.cpLen f.cp) ;;
  W.opt (hasDNP f.flags) (textW f.dnpLen f.dnp) ;; W.opt (hasAFD f.flags) (listW f.afdLen f.afd) ;;
  W.opt (hasAURL f.flags) (listW f.aurlLen f.aurl) ;; W.opt (hasADNP f.flags) (listW f.adnpLen f.adnp)

/-- `MarshalTo`, :383-456. -/
def marshalW (f : PFDContents) : W := W.minLen 1 ;; (W.poke f.flags ;; W.skip 2) ;; bodyW f

/-- `MarshalLen`, :459-495. -/
def marshalLen (f : PFDContents) : Nat :=
  let l := 2
  let l := if hasFD f.flags then l + (2 + f.fdLen.toNat) else l
  let l := if hasURL f.flags then l + (2 + f.urlLen.toNat) else l
  let l := if hasDN f.flags then l + (2 + f.dnLen.toNat) else l
  let l := if hasCP f.flags then l + (2 + f.cpLen.toNat) else l
  let l := if hasDNP f.flags then l + (2 + f.dnpLen.toNat) else l
  let l := if hasAFD f.flags then l + (2 + f.afdLen.toNat) else l
  let l := if hasAURL f.flags then l + (2 + f.aurlLen.toNat) else l
  let l := if hasADNP f.flags then l + (2 + f.adnpLen.toNat) else l
  l

/-- `ParsePFDContentsFields` :232-238 and `Marshal` :374-380. -/
def codec : Codec PFDContents := ⟨parseP.run, fun f => f.marshalW.marshal f.marshalLen⟩

/-! #### Encoding -/

/-- A text with its length in front, as it is written. -/
def lv (t : Bytes) : Bytes := be16 (UInt16.ofNat t.length) ++ t
/-- An optional part. -/
def part (o : Option Bytes) : Bytes := (o.map lv).getD []
/-- The items of a list. -/
def blob : List Bytes → Bytes
  | [] => []
  | a :: r => lv a ++ blob r

theorem lv_length (t : Bytes) : (lv t).length = 2 + t.length := by simp [lv, be16_length]
theorem blob_length (l : List Bytes) : (blob l).length = total l := by
  induction l with
  | nil => rfl
  | cons a r ih => rw [blob, total, List.length_append, lv_length, ih]

theorem emits_text {n : UInt16} {t : Bytes} (h : t.length < 65536) (hn : n = UInt16.ofNat t.length) :
    W.Emits (textW n t) (lv t) := by
  subst hn
  exact W.Emits.seq (W.Emits.put _) (W.Emits.copy t (by simp; omega))

theorem emits_items (l : List Bytes) : W.Emits (itemsW l) (blob l) := by
  induction l with
  | nil => exact W.Emits.nop
  | cons a r ih =>
    rw [blob, lv, List.append_assoc]
    exact W.Emits.seq (W.Emits.put _) (W.Emits.seq (W.Emits.copy a rfl) ih)

theorem emits_list {n : UInt16} {l : List Bytes} (hn : n = UInt16.ofNat (blob l).length) :
    W.Emits (listW n l) (lv (blob l)) := by
  subst hn
  exact W.Emits.seq (W.Emits.put _) (emits_items l)

theorem emits_part {c : Bool} {w : W} {t : Bytes} {o : Option Bytes} (hc : c = o.isSome) (ht : ∀ x, o = some x → x = t)
    (hw : o.isSome → W.Emits w (lv t)) : W.Emits (W.opt c w) (part o) := by
  subst hc
  cases o with
  | none => exact W.Emits.nop
  | some x => rw [ht x rfl]; exact hw rfl

/-! #### Decoding -/

/-- `p` reads `w` as `v` if there is enough behind it, as measured by `C offset length`, and refuses it otherwise. -/
def _root_.Pfcp.P.ReadsIf {α : Type} (p : P α) (w : Bytes) (v : α) (C : Nat → Nat → Bool) : Prop :=
  ∀ pre post sp, p ⟨pre ++ w ++ post, sp⟩ pre.length
    = if C pre.length (pre ++ w ++ post).length then .ok (v, pre.length + w.length) else .err .unexpectedEOF

theorem readsIf_bind {α β : Type} {p : P α} {f : α → P β} {w w' : Bytes} {v : α} {v' : β} {C C' : Nat → Nat → Bool}
    (hp : P.ReadsIf p w v C) (hf : P.ReadsIf (f v) w' v' C') :
    P.ReadsIf (p >>= f) (w ++ w') v' (fun o l => C o l && C' (o + w.length) l) := by
  intro pre post sp
  have h1 := hp pre (w' ++ post) sp
  have h2 := hf (pre ++ w) post sp
  simp only [List.append_assoc] at h1 h2 ⊢
  generalize hL : (pre ++ (w ++ (w' ++ post))).length = L at h1 h2 ⊢
  simp only [List.length_append] at h2 ⊢
  by_cases c1 : C pre.length L = true
  · rw [if_pos c1] at h1
    rw [P.bind_ok h1, h2, c1]
    simp only [Bool.true_and, Nat.add_assoc]
  · rw [if_neg c1] at h1
    rw [P.bind_err h1]
    simp [c1]

theorem readsIf_pure {α : Type} (v : α) : P.ReadsIf (pure v) [] v (fun _ _ => true) := by
  intro pre post sp
  simp
  rfl

theorem readsIf_of_reads {α : Type} {p : P α} {w : Bytes} {v : α} (h : P.Reads p w v) :
    P.ReadsIf p w v (fun _ _ => true) := by
  intro pre post sp
  rw [h pre post sp]
  rfl

/-- The room the check for a single text asks for. -/
def room (o l : Nat) : Bool := 2 * o + 2 ≤ l

theorem off_eq (s : Slice) (o : Nat) : P.off s o = .ok (o, o) := rfl

theorem rest_eq (pre r sp : Bytes) : P.rest ⟨pre ++ r, sp⟩ pre.length = .ok (r, pre.length) := by
  unfold P.rest Slice.subFrom Slice.len
  rw [P.sub_data _ _ _ _ (by simp) (by simp)]
  simp only [List.take_length, List.drop_left, Res.ok_bind]

theorem reads_lv (t : Bytes) (h : t.length < 65536) :
    P.Reads (P.u16 >>= fun n => P.bytes n.toNat >>= fun t => (pure (n, t) : P _)) (lv t)
      (UInt16.ofNat t.length, t) := by
  refine P.Reads.bind (a := UInt16.ofNat t.length) ?_ (P.Reads.map (fun t => (_, t)) (P.Reads.bytes t (by simp; omega)))
  have := P.Reads.map dec16 (P.Reads.bytes (be16 (UInt16.ofNat t.length)) (be16_length _))
  rw [dec16_be16] at this
  exact this

theorem reads_text (t : Bytes) (h : t.length < 65536) :
    P.ReadsIf parseText (lv t) (UInt16.ofNat t.length, t) room := by
  intro pre post sp
  unfold parseText
  rw [List.append_assoc, P.bind_ok (rest_eq _ _ _), P.bind_ok (off_eq _ _), ← List.append_assoc]
  by_cases c : room pre.length (pre ++ lv t ++ post).length = true
  · rw [if_pos c]
    unfold room at c
    simp only [decide_eq_true_eq, List.length_append] at c
    rw [if_neg (by simp only [List.length_append]; omega)]
    exact reads_lv t h pre post sp
  · rw [if_neg c]
    unfold room at c
    simp only [decide_eq_true_eq, List.length_append] at c
    rw [if_pos (by simp only [List.length_append]; omega)]
    rfl

/-- The items of a list, read from the front. -/
def split : Nat → Bytes → List Bytes
  | 0, _ => []
  | k + 1, b => if b.length ≤ 2 then []
    else if b.length < 2 + (dec16 (b.take 2)).toNat then []
    else (b.drop 2).take (dec16 (b.take 2)).toNat :: split k (b.drop (2 + (dec16 (b.take 2)).toNat))

/-- The texts that a list part of an element is decoded to. -/
def texts (b : Bytes) : List Bytes := split b.length b

theorem items_eq (fuel : Nat) : ∀ (k : Nat) (pre b sp : Bytes), b.length < fuel → b.length ≤ k →
    items ⟨pre ++ b, sp⟩ fuel pre.length = .ok (split k b) := by
  induction fuel with
  | zero => intro k pre b sp h; omega
  | succ fuel ih =>
    intro k pre b sp h hk
    unfold items
    simp only [List.length_append]
    by_cases c1 : b.length ≤ 2
    · rw [if_pos (by omega)]
      cases k with
      | zero => rfl
      | succ k => unfold split; rw [if_pos c1]
    · rw [if_neg (by omega)]
      obtain ⟨k, rfl⟩ : ∃ j, k = j + 1 := ⟨k - 1, by omega⟩
      unfold split
      rw [if_neg c1]
      rw [P.sub_data _ _ _ _ (by omega) (by simp; omega), Res.ok_bind]
      have e : (((pre ++ b).take (pre.length + 2)).drop pre.length) = b.take 2 := by
        rw [List.drop_take, List.drop_left]; congr 1; omega
      simp only [e]
      by_cases c2 : b.length < 2 + (dec16 (b.take 2)).toNat
      · rw [if_pos c2, if_pos (by omega)]
      · rw [if_neg c2, if_neg (by omega)]
        rw [P.sub_data _ _ _ _ (by omega) (by simp; omega), Res.ok_bind]
        have h1 := ih k (pre ++ b.take (2 + (dec16 (b.take 2)).toNat)) (b.drop (2 + (dec16 (b.take 2)).toNat)) sp
          (by simp; omega) (by rw [List.length_drop]; omega)
        rw [List.append_assoc, List.take_append_drop] at h1
        rw [show (pre ++ b.take (2 + (dec16 (b.take 2)).toNat)).length
          = pre.length + (2 + (dec16 (b.take 2)).toNat) by simp; omega] at h1
        rw [h1, Res.ok_bind]
        have e3 : ((pre ++ b).take (pre.length + 2 + (dec16 (b.take 2)).toNat)).drop (pre.length + 2)
            = (b.drop 2).take (dec16 (b.take 2)).toNat := by
          rw [List.drop_take, ← List.drop_drop, List.drop_left, Nat.add_sub_cancel_left]
        rw [e3]

theorem reads_list (b : Bytes) (h : b.length < 65536) :
    P.ReadsIf parseList (lv b) (UInt16.ofNat b.length, texts b) (fun _ _ => true) := by
  intro pre post sp
  unfold parseList
  rw [if_pos rfl]
  rw [List.append_assoc, P.bind_ok (rest_eq _ _ _), ← List.append_assoc]
  rw [if_neg (by simp only [List.length_append, lv_length]; omega)]
  have h1 : P.Reads P.u16 (be16 (UInt16.ofNat b.length)) (UInt16.ofNat b.length) := by
    have := P.Reads.map dec16 (P.Reads.bytes (be16 (UInt16.ofNat b.length)) (be16_length _))
    rw [dec16_be16] at this
    exact this
  have h2 := h1 pre (b ++ post) sp
  rw [← List.append_assoc, List.append_assoc pre] at h2
  rw [show pre ++ lv b ++ post = pre ++ (be16 (UInt16.ofNat b.length) ++ b) ++ post from rfl, P.bind_ok h2]
  unfold parseItems
  have hn : (UInt16.ofNat b.length).toNat = b.length := by simp; omega
  rw [P.sub_data _ _ _ _ (by omega) (by simp [hn]; omega), Res.ok_bind]
  have e : ((pre ++ (be16 (UInt16.ofNat b.length) ++ b) ++ post).take
      (pre.length + (be16 (UInt16.ofNat b.length)).length + (UInt16.ofNat b.length).toNat)).drop
      (pre.length + (be16 (UInt16.ofNat b.length)).length) = b := by
    rw [hn, List.drop_take, Nat.add_sub_cancel_left, ← List.append_assoc, List.append_assoc (pre ++ _),
      ← List.length_append, List.drop_left, List.take_left]
  rw [e]
  have h3 := items_eq (b.length + 1) b.length [] b
    ((pre ++ (be16 (UInt16.ofNat b.length) ++ b) ++ post).drop
      (pre.length + (be16 (UInt16.ofNat b.length)).length + (UInt16.ofNat b.length).toNat) ++ sp) (by omega) (by omega)
  simp only [List.nil_append, List.length_nil] at h3
  rw [h3, Res.ok_bind, hn]
  simp only [lv, List.length_append, texts, Nat.add_assoc]

/-- What is decoded from an optional part. -/
def textVal (o : Option Bytes) : UInt16 × Bytes := (UInt16.ofNat (o.getD []).length, o.getD [])
def listVal (o : Option Bytes) : UInt16 × List Bytes := (UInt16.ofNat (o.getD []).length, texts (o.getD []))

def Short (o : Option Bytes) : Prop := ∀ t, o = some t → t.length < 65536

theorem reads_optText {c : Bool} {o : Option Bytes} (hc : c = o.isSome) (h : Short o) :
    P.ReadsIf (P.opt c parseText (0, [])) (part o) (textVal o) (fun p l => !c || room p l) := by
  subst hc
  cases o with
  | none => exact readsIf_pure _
  | some t => exact reads_text t (h t rfl)

theorem reads_optList {c : Bool} {o : Option Bytes} (hc : c = o.isSome) (h : Short o) :
    P.ReadsIf (P.opt c parseList (0, [])) (part o) (listVal o) (fun _ _ => true) := by
  subst hc
  cases o with
  | none => exact readsIf_pure _
  | some t => exact reads_list t (h t rfl)

/-- Every single text present has at least as much behind its start, plus two, as there is in front of it: the room the
decoder's checks ask for. `o` is where the first one starts, `l` the length of the payload. -/
def Roomy (l : Nat) : Nat → List (Option Bytes) → Bool
  | _, [] => true
  | o, none :: r => Roomy l o r
  | o, some t :: r => decide (2 * o + 2 ≤ l) && Roomy l (o + 2 + t.length) r

theorem roomy_cons (l o : Nat) (x : Option Bytes) (r : List (Option Bytes)) :
    Roomy l o (x :: r) = ((!x.isSome || room o l) && Roomy l (o + (part x).length) r) := by
  cases x with
  | none => simp [Roomy, part]
  | some t => simp [Roomy, part, lv_length, room, Nat.add_assoc]

theorem readsIf_text {β : Type} {fl : Bool} {x : Option Bytes} {f : UInt16 × Bytes → P β} {w' : Bytes} {v' : β}
    {r : List (Option Bytes)} (hc : fl = x.isSome) (h : Short x)
    (hf : P.ReadsIf (f (textVal x)) w' v' (fun o l => Roomy l o r)) :
    P.ReadsIf (P.opt fl parseText (0, []) >>= f) (part x ++ w') v' (fun o l => Roomy l o (x :: r)) := by
  have k := readsIf_bind (reads_optText hc h) hf
  subst hc
  simp only [roomy_cons]
  exact k

theorem readsIf_list {β : Type} {fl : Bool} {x : Option Bytes} {f : UInt16 × List Bytes → P β} {w' : Bytes} {v' : β}
    (hc : fl = x.isSome) (h : Short x) (hf : P.ReadsIf (f (listVal x)) w' v' (fun o l => Roomy l o [])) :
    P.ReadsIf (P.opt fl parseList (0, []) >>= f) (part x ++ w') v' (fun o l => Roomy l o []) := by
  have k := readsIf_bind (reads_optList hc h) hf
  simp only [Roomy, Bool.and_true] at k ⊢
  exact k

/-- What is decoded from the parts. -/
def value (fl : UInt8) (a b c d e f g h : Option Bytes) : PFDContents :=
  ⟨fl, (textVal a).1, (textVal a).2, (textVal b).1, (textVal b).2, (textVal c).1, (textVal c).2,
    (textVal d).1, (textVal d).2, (textVal e).1, (textVal e).2, (listVal f).1, (listVal f).2,
    (listVal g).1, (listVal g).2, (listVal h).1, (listVal h).2⟩

/-- The parts, in order. -/
def parts (a b c d e f g h : Option Bytes) : Bytes :=
  part a ++ (part b ++ (part c ++ (part d ++ (part e ++ (part f ++ (part g ++ (part h ++ [])))))))

/-- Everything the decoder does with a well delimited payload. -/
theorem parse_eq (fl x : UInt8) (a b c d e f g h : Option Bytes)
    (ha : hasFD fl = a.isSome) (hb : hasURL fl = b.isSome) (hc : hasDN fl = c.isSome) (hd : hasCP fl = d.isSome)
    (he : hasDNP fl = e.isSome) (hf : hasAFD fl = f.isSome) (hg : hasAURL fl = g.isSome) (hh : hasADNP fl = h.isSome)
    (sa : Short a) (sb : Short b) (sc : Short c) (sd : Short d) (se : Short e) (sf : Short f) (sg : Short g)
    (sh : Short h) (tail sp : Bytes) :
    codec.parse ⟨[fl, x] ++ parts a b c d e f g h ++ tail, sp⟩ =
    if Roomy ([fl, x] ++ parts a b c d e f g h ++ tail).length 2 [a, b, c, d, e] then
      .ok (value fl a b c d e f g h)
    else .err .unexpectedEOF := by
  have e0 : codec.parse ⟨[fl, x] ++ parts a b c d e f g h ++ tail, sp⟩ = _ := P.run_minLen_eq (n := 2) (by simp)
  rw [e0]
  unfold P.run
  rw [P.bind_ok (a := fl) (o' := 0) (by rfl), P.bind_ok (a := ()) (o' := 2) (by rfl)]
  have key : P.ReadsIf (do
      let a ← P.opt (hasFD fl) parseText (0, [])
      let b ← P.opt (hasURL fl) parseText (0, [])
      let c ← P.opt (hasDN fl) parseText (0, [])
      let d ← P.opt (hasCP fl) parseText (0, [])
      let e ← P.opt (hasDNP fl) parseText (0, [])
      let f ← P.opt (hasAFD fl) parseList (0, [])
      let g ← P.opt (hasAURL fl) parseList (0, [])
      let h ← P.opt (hasADNP fl) parseList (0, [])
      pure ⟨fl, a.1, a.2, b.1, b.2, c.1, c.2, d.1, d.2, e.1, e.2, f.1, f.2, g.1, g.2, h.1, h.2⟩)
      (parts a b c d e f g h) (value fl a b c d e f g h) (fun o l => Roomy l o [a, b, c, d, e]) := by
    refine readsIf_text ha sa (readsIf_text hb sb ?_)
    refine readsIf_text hc sc (readsIf_text hd sd ?_)
    refine readsIf_text he se (readsIf_list hf sf ?_)
    refine readsIf_list hg sg (readsIf_list hh sh ?_)
    exact readsIf_pure _
  have k := key [fl, x] tail sp
  simp only [List.length_cons, List.length_nil, Nat.zero_add, Nat.reduceAdd] at k
  rw [k]
  generalize Roomy _ 2 [a, b, c, d, e] = r
  cases r <;> rfl

/-! #### Encoding, whole -/

theorem part_length (o : Option Bytes) : (part o).length = if o.isSome then 2 + (o.getD []).length else 0 := by
  cases o <;> simp [part, lv_length]

/-- The value with the given parts. -/
def full (fl : UInt8) (a b c d e : Option Bytes) (f g h : Option (List Bytes)) : PFDContents :=
  ⟨fl, UInt16.ofNat (a.getD []).length, a.getD [], UInt16.ofNat (b.getD []).length, b.getD [],
    UInt16.ofNat (c.getD []).length, c.getD [], UInt16.ofNat (d.getD []).length, d.getD [],
    UInt16.ofNat (e.getD []).length, e.getD [], UInt16.ofNat (total (f.getD [])), f.getD [],
    UInt16.ofNat (total (g.getD [])), g.getD [], UInt16.ofNat (total (h.getD [])), h.getD []⟩

theorem emits_optText {c : Bool} {o : Option Bytes} (hc : c = o.isSome) (h : Short o) :
    W.Emits (W.opt c (textW (UInt16.ofNat (o.getD []).length) (o.getD []))) (part o) := by
  subst hc
  cases o with
  | none => exact W.Emits.nop
  | some t => exact emits_text (h t rfl) rfl

theorem emits_optList {c : Bool} {o : Option (List Bytes)} (hc : c = o.isSome) :
    W.Emits (W.opt c (listW (UInt16.ofNat (total (o.getD []))) (o.getD []))) (part (o.map blob)) := by
  subst hc
  cases o with
  | none => exact W.Emits.nop
  | some t => exact emits_list (by simp [blob_length])

theorem emits (fl : UInt8) (a b c d e : Option Bytes) (f g h : Option (List Bytes))
    (ha : hasFD fl = a.isSome) (hb : hasURL fl = b.isSome) (hc : hasDN fl = c.isSome) (hd : hasCP fl = d.isSome)
    (he : hasDNP fl = e.isSome) (hf : hasAFD fl = f.isSome) (hg : hasAURL fl = g.isSome) (hh : hasADNP fl = h.isSome)
    (sa : Short a) (sb : Short b) (sc : Short c) (sd : Short d) (se : Short e) (sf : Short (f.map blob))
    (sg : Short (g.map blob)) (sh : Short (h.map blob)) :
    codec.marshal (full fl a b c d e f g h)
      = .ok ([fl, 0] ++ parts a b c d e (f.map blob) (g.map blob) (h.map blob)) := by
  have hlen : (full fl a b c d e f g h).marshalLen
      = ([fl, 0] ++ parts a b c d e (f.map blob) (g.map blob) (h.map blob)).length := by
    have h1 : ∀ {o : Option Bytes}, Short o → (part o).length
        = if o.isSome then 2 + (UInt16.ofNat (o.getD []).length).toNat else 0 := by
      intro o ho
      rw [part_length]
      cases o with
      | none => rfl
      | some t =>
        have := ho t rfl
        simp
        omega
    have h2 : ∀ {o : Option (List Bytes)}, Short (o.map blob) → (part (o.map blob)).length
        = if o.isSome then 2 + (UInt16.ofNat (total (o.getD []))).toNat else 0 := by
      intro o ho
      rw [part_length]
      cases o with
      | none => rfl
      | some t =>
        have := ho _ rfl
        rw [blob_length] at this
        simp [blob_length]
        omega
    unfold marshalLen parts full
    simp only [ite_len, List.length_append, ha, hb, hc, hd, he, hf, hg, hh, h1 sa, h1 sb, h1 sc, h1 sd, h1 se, h2 sf,
      h2 sg, h2 sh, List.length_cons, List.length_nil]
    omega
  show W.marshal (marshalW _) (marshalLen _) = _
  rw [hlen]
  refine W.Emits.marshal_minLen (by simp) (W.Emits.seq (W.Emits.poke_skip fl 2 (by omega)) ?_)
  refine W.Emits.seq (emits_optText ha sa) (W.Emits.seq (emits_optText hb sb) (W.Emits.seq (emits_optText hc sc)
    (W.Emits.seq (emits_optText hd sd) (W.Emits.seq (emits_optText he se) (W.Emits.seq (emits_optList hf)
      (W.Emits.seq (emits_optList hg) (W.Emits.tail (emits_optList hh))))))))

/-! #### Room -/

theorem fills_put (bs : Bytes) : W.Fills (W.put bs) bs.length := by
  intro d o h
  unfold W.put Slice.putAt Slice.cap
  simp only [List.length_nil]
  by_cases c : o + bs.length ≤ d.length
  · rw [if_pos c, if_pos (by omega), Res.ok_bind]
    refine ⟨_, by unfold Slice.overwrite; simp only [List.append_nil]; congr 2
                  ; exact congrArg _ (List.drop_of_length_le (by simp; omega)), ?_⟩
    simp
    omega
  · rw [if_neg c, if_neg (by omega)]
    rfl

theorem fills_opt {w : W} {k : Nat} (c : Bool) (h : W.Fills w k) : W.Fills (W.opt c w) (if c then k else 0) := by
  cases c with
  | false => exact MACAddresses.fills_nop
  | true => exact h

theorem fills_text (n : UInt16) (t : Bytes) : W.Fills (textW n t) (2 + n.toNat) := by
  have := MACAddresses.fills_seq (fills_put (be16 n)) (MACAddresses.fills_copy n.toNat t)
  rw [be16_length] at this
  exact this

theorem fills_items (l : List Bytes) : W.Fills (itemsW l) (total l) := by
  induction l with
  | nil => exact MACAddresses.fills_nop
  | cons a r ih =>
    have := MACAddresses.fills_seq (fills_put (be16 (UInt16.ofNat a.length)))
      (MACAddresses.fills_seq (MACAddresses.fills_copy a.length a) ih)
    rw [be16_length, ← Nat.add_assoc] at this
    exact this

theorem fills_list (n : UInt16) (l : List Bytes) : W.Fills (listW n l) (2 + total l) := by
  have := MACAddresses.fills_seq (fills_put (be16 n)) (fills_items l)
  rw [be16_length] at this
  exact this

/-- What `MarshalTo` needs. -/
def size (f : PFDContents) : Nat :=
  2 + ((if hasFD f.flags then 2 + f.fdLen.toNat else 0) + ((if hasURL f.flags then 2 + f.urlLen.toNat else 0) +
    ((if hasDN f.flags then 2 + f.dnLen.toNat else 0) + ((if hasCP f.flags then 2 + f.cpLen.toNat else 0) +
      ((if hasDNP f.flags then 2 + f.dnpLen.toNat else 0) + ((if hasAFD f.flags then 2 + total f.afd else 0) +
        ((if hasAURL f.flags then 2 + total f.aurl else 0) + (if hasADNP f.flags then 2 + total f.adnp else 0))))))))

/-- `Marshal` succeeds exactly if `MarshalLen` is large enough, and panics otherwise. -/
theorem marshal_room (f : PFDContents) :
    if size f ≤ f.marshalLen then ∃ w, codec.marshal f = .ok w else codec.marshal f = .panic := by
  have hm : 2 ≤ f.marshalLen := by unfold marshalLen; simp only [ite_len]; omega
  have h : W.Fills (bodyW f) _ := MACAddresses.fills_seq (fills_opt (hasFD f.flags) (fills_text f.fdLen f.fd))
    (MACAddresses.fills_seq (fills_opt (hasURL f.flags) (fills_text f.urlLen f.url))
    (MACAddresses.fills_seq (fills_opt (hasDN f.flags) (fills_text f.dnLen f.dn))
    (MACAddresses.fills_seq (fills_opt (hasCP f.flags) (fills_text f.cpLen f.cp))
    (MACAddresses.fills_seq (fills_opt (hasDNP f.flags) (fills_text f.dnpLen f.dnp))
    (MACAddresses.fills_seq (fills_opt (hasAFD f.flags) (fills_list f.afdLen f.afd))
    (MACAddresses.fills_seq (fills_opt (hasAURL f.flags) (fills_list f.aurlLen f.aurl))
      (fills_opt (hasADNP f.flags) (fills_list f.adnpLen f.adnp))))))))
  have e : codec.marshal f = ((bodyW f ⟨(List.replicate f.marshalLen 0).set 0 f.flags, []⟩ 2
        >>= fun r => .ok r.1) >>= fun s : Slice => .ok s.data) := by
    show W.marshal (W.minLen 1 ;; (W.poke f.flags ;; W.skip 2) ;; bodyW f) _ = _
    unfold W.marshal W.run Slice.make
    unfold W.seq W.minLen W.poke W.skip Slice.set
    simp only [List.length_replicate]
    rw [if_neg (by omega), Res.ok_bind]
    simp only [List.length_replicate]
    rw [if_pos (by omega)]
    rfl
  have h := h ((List.replicate f.marshalLen 0).set 0 f.flags) 2 (by simp; omega)
  rw [e]
  simp only [List.length_set, List.length_replicate] at h
  by_cases c : size f ≤ f.marshalLen
  · rw [if_pos c]
    unfold size at c
    rw [if_pos c] at h
    obtain ⟨d', e', _⟩ := h
    exact ⟨d', by rw [e']; rfl⟩
  · rw [if_neg c]
    unfold size at c
    rw [if_neg c] at h
    rw [h]
    rfl

/-! #### What was decoded -/

theorem sub_inv {d : Bytes} {lo hi : Nat} {x : Slice} (h : Slice.sub ⟨d, []⟩ lo hi = .ok x) :
    lo ≤ hi ∧ hi ≤ d.length ∧ x.data = (d.take hi).drop lo := by
  unfold Slice.sub Slice.cap at h
  simp only [List.length_nil, Nat.add_zero, List.append_nil] at h
  split at h
  · rename_i c
    cases h
    exact ⟨c.1, c.2, rfl⟩
  · cases h

/-- A length and as many octets, without spare capacity. -/
theorem lv_inv {d : Bytes} {o : Nat} {n : UInt16} {o1 : Nat} {x : Slice} (h1 : P.u16 ⟨d, []⟩ o = .ok (n, o1))
    (h2 : Slice.sub ⟨d, []⟩ o1 (o1 + n.toNat) = .ok x) :
    o1 = o + 2 ∧ x.data.length = n.toNat ∧ d.drop o = lv x.data ++ d.drop (o1 + n.toNat) := by
  unfold P.u16 at h1
  obtain ⟨y, o2, h1, h3⟩ := P.bind_inv h1
  cases h3
  unfold P.bytes at h1
  cases hs : Slice.sub ⟨d, []⟩ o (o + 2) with
  | panic => rw [hs] at h1; cases h1
  | err e => rw [hs] at h1; cases h1
  | ok z =>
    rw [hs] at h1
    cases h1
    obtain ⟨_, l1, e1⟩ := sub_inv hs
    obtain ⟨_, l2, e2⟩ := sub_inv h2
    have hz : z.data.length = 2 := by rw [e1]; simp; omega
    have hx : x.data.length = (dec16 z.data).toNat := by rw [e2]; simp; omega
    refine ⟨rfl, hx, ?_⟩
    unfold lv
    rw [hx, UInt16.ofNat_toNat, be16_dec16 _ hz, e2]
    generalize (dec16 z.data).toNat = m
    rw [e1]
    have a1 : d.drop (o + 2) = (d.drop o).drop 2 := (List.drop_drop ..).symm
    have a2 : d.drop (o + 2 + m) = ((d.drop o).drop 2).drop m := by rw [← a1, List.drop_drop]
    rw [List.drop_take, List.drop_take, Nat.add_sub_cancel_left, Nat.add_sub_cancel_left, a1, a2, List.append_assoc,
      List.take_append_drop, List.take_append_drop]

theorem text_inv {d : Bytes} {o o' : Nat} {r : UInt16 × Bytes} (h : parseText ⟨d, []⟩ o = .ok (r, o')) :
    ∃ t, r = textVal (some t) ∧ t.length < 65536 ∧ d.drop o = lv t ++ d.drop o' := by
  unfold parseText at h
  obtain ⟨_, _, h0, h⟩ := P.bind_inv h
  obtain ⟨_, _, h1, h⟩ := P.bind_inv h
  cases h1
  have h2 : (P.u16 >>= fun n => P.bytes n.toNat >>= fun t => (pure (n, t) : P _)) ⟨d, []⟩ o = .ok (r, o') := by
    unfold P.rest at h0
    cases hs : Slice.subFrom ⟨d, []⟩ o with
    | panic => rw [hs] at h0; cases h0
    | err e => rw [hs] at h0; cases h0
    | ok z =>
      rw [hs] at h0
      cases h0
      split at h
      · cases h
      · exact h
  obtain ⟨n, o1, h3, h⟩ := P.bind_inv h2
  obtain ⟨t, o2, h4, h⟩ := P.bind_inv h
  cases h
  unfold P.bytes at h4
  cases hs : Slice.sub ⟨d, []⟩ o1 (o1 + n.toNat) with
  | panic => rw [hs] at h4; cases h4
  | err e => rw [hs] at h4; cases h4
  | ok z =>
    rw [hs] at h4
    cases h4
    obtain ⟨rfl, hl, e⟩ := lv_inv h3 hs
    refine ⟨z.data, ?_, ?_, e⟩
    · unfold textVal
      rw [Option.getD_some, hl, UInt16.ofNat_toNat]
    · rw [hl]; exact n.toNat_lt

theorem list_inv {d : Bytes} {o o' : Nat} {r : UInt16 × List Bytes} (h : parseList ⟨d, []⟩ o = .ok (r, o')) :
    ∃ b, r = listVal (some b) ∧ b.length < 65536 ∧ d.drop o = lv b ++ d.drop o' := by
  unfold parseList at h
  obtain ⟨_, _, h0, h⟩ := P.bind_inv h
  have h2 : (P.u16 >>= parseItems) ⟨d, []⟩ o = .ok (r, o') := by
    unfold P.rest at h0
    cases hs : Slice.subFrom ⟨d, []⟩ o with
    | panic => rw [hs] at h0; cases h0
    | err e => rw [hs] at h0; cases h0
    | ok z =>
      rw [hs] at h0
      cases h0
      split at h
      · cases h
      · exact h
  obtain ⟨n, o1, h3, h⟩ := P.bind_inv h2
  unfold parseItems at h
  cases hs : Slice.sub ⟨d, []⟩ o1 (o1 + n.toNat) with
  | panic => rw [hs] at h; cases h
  | err e => rw [hs] at h; cases h
  | ok z =>
    rw [hs, Res.ok_bind] at h
    obtain ⟨rfl, hl, e⟩ := lv_inv h3 hs
    have hi := items_eq (z.data.length + 1) z.data.length [] z.data z.spare (by omega) (by omega)
    simp only [List.nil_append, List.length_nil] at hi
    rw [show (⟨z.data, z.spare⟩ : Slice) = z from rfl] at hi
    rw [hi, Res.ok_bind] at h
    cases h
    refine ⟨z.data, ?_, ?_, e⟩
    · unfold listVal texts
      rw [Option.getD_some, hl, UInt16.ofNat_toNat]
    · rw [hl]; exact n.toNat_lt

theorem optText_inv {c : Bool} {d : Bytes} {o o' : Nat} {r : UInt16 × Bytes}
    (h : P.opt c parseText (0, []) ⟨d, []⟩ o = .ok (r, o')) :
    ∃ x, c = x.isSome ∧ r = textVal x ∧ Short x ∧ d.drop o = part x ++ d.drop o' := by
  cases c with
  | false => cases h; exact ⟨none, rfl, rfl, fun t h => (by cases h), rfl⟩
  | true =>
    obtain ⟨t, h1, h2, h3⟩ := text_inv h
    exact ⟨some t, rfl, h1, fun x hx => (by cases hx; exact h2), h3⟩

theorem optList_inv {c : Bool} {d : Bytes} {o o' : Nat} {r : UInt16 × List Bytes}
    (h : P.opt c parseList (0, []) ⟨d, []⟩ o = .ok (r, o')) :
    ∃ x, c = x.isSome ∧ r = listVal x ∧ Short x ∧ d.drop o = part x ++ d.drop o' := by
  cases c with
  | false => cases h; exact ⟨none, rfl, rfl, fun t h => (by cases h), rfl⟩
  | true =>
    obtain ⟨t, h1, h2, h3⟩ := list_inv h
    exact ⟨some t, rfl, h1, fun x hx => (by cases hx; exact h2), h3⟩

/-- The payload of an accepted element without spare capacity is well delimited. -/
theorem takes {dt : Bytes} {v : PFDContents} (hp : codec.parse ⟨dt, []⟩ = .ok v) :
    ∃ (x : UInt8) (a b c d e f g h : Option Bytes) (post : Bytes), dt = [v.flags, x] ++ parts a b c d e f g h ++ post ∧
      v = value v.flags a b c d e f g h ∧
      hasFD v.flags = a.isSome ∧ hasURL v.flags = b.isSome ∧ hasDN v.flags = c.isSome ∧ hasCP v.flags = d.isSome ∧
      hasDNP v.flags = e.isSome ∧ hasAFD v.flags = f.isSome ∧ hasAURL v.flags = g.isSome ∧
      hasADNP v.flags = h.isSome ∧ Short a ∧ Short b ∧ Short c ∧ Short d ∧ Short e ∧ Short f ∧ Short g ∧ Short h := by
  match dt with
  | [] => cases hp
  | [fl] => cases hp
  | fl :: x :: r =>
    have e0 : codec.parse ⟨fl :: x :: r, []⟩ = _ := P.run_minLen_eq (n := 2) (by simp)
    rw [e0] at hp
    unfold P.run at hp
    rw [P.bind_ok (a := fl) (o' := 0) (by rfl), P.bind_ok (a := ()) (o' := 2) (by rfl)] at hp
    split at hp
    · rename_i v' o9 hb
      cases hp
      obtain ⟨_, _, h, hb⟩ := P.bind_inv hb
      obtain ⟨a, ha, rfl, sa, ea⟩ := optText_inv h
      obtain ⟨_, _, h, hb⟩ := P.bind_inv hb
      obtain ⟨b, hb', rfl, sb, eb⟩ := optText_inv h
      obtain ⟨_, _, h, hb⟩ := P.bind_inv hb
      obtain ⟨c, hc, rfl, sc, ec⟩ := optText_inv h
      obtain ⟨_, _, h, hb⟩ := P.bind_inv hb
      obtain ⟨d, hd, rfl, sd, ed⟩ := optText_inv h
      obtain ⟨_, _, h, hb⟩ := P.bind_inv hb
      obtain ⟨e, he, rfl, se, ee⟩ := optText_inv h
      obtain ⟨_, _, h, hb⟩ := P.bind_inv hb
      obtain ⟨f, hf, rfl, sf, ef⟩ := optList_inv h
      obtain ⟨_, _, h, hb⟩ := P.bind_inv hb
      obtain ⟨g, hg, rfl, sg, eg⟩ := optList_inv h
      obtain ⟨_, o8, h, hb⟩ := P.bind_inv hb
      obtain ⟨i, hi, rfl, si, ei⟩ := optList_inv h
      cases hb
      refine ⟨x, a, b, c, d, e, f, g, i, (fl :: x :: r).drop o9, ?_, rfl, ha, hb', hc, hd, he, hf, hg, hi, sa, sb, sc,
        sd, se, sf, sg, si⟩
      have e2 : [fl, x] ++ (fl :: x :: r).drop 2 = [fl, x] ++ parts a b c d e f g i ++ (fl :: x :: r).drop o9 := by
        rw [ea, eb, ec, ed, ee, ef, eg, ei]
        simp only [List.append_assoc, parts, List.append_nil]
      exact e2
    · cases hp
    · cases hp

/-! #### Lists -/

/-- A list without its last text if that is empty. -/
def kept : List Bytes → List Bytes
  | [] => []
  | [a] => if a.isEmpty then [] else [a]
  | a :: b :: r => a :: kept (b :: r)

theorem split_blob (l : List Bytes) (h : ∀ a ∈ l, a.length < 65536) : ∀ k, (blob l).length ≤ k →
    split k (blob l) = kept l := by
  induction l with
  | nil => intro k _; cases k <;> rfl
  | cons a r ih =>
    intro k hk
    have hl := h a (List.mem_cons_self ..)
    have hlen : (blob (a :: r)).length = 2 + a.length + (blob r).length := by
      rw [blob, List.length_append, lv_length]
    obtain ⟨k, rfl⟩ : ∃ j, k = j + 1 := ⟨k - 1, by omega⟩
    have ht : (blob (a :: r)).take 2 = be16 (UInt16.ofNat a.length) := by
      rw [blob, lv, List.append_assoc, List.take_append_of_le_length (by rw [be16_length]; omega),
        List.take_of_length_le (by rw [be16_length]; omega)]
    have hn : (dec16 ((blob (a :: r)).take 2)).toNat = a.length := by
      rw [ht, dec16_be16]; simp; omega
    have hd : (blob (a :: r)).drop 2 = a ++ blob r := by
      rw [blob, lv, List.append_assoc, ← be16_length (UInt16.ofNat a.length), List.drop_left]
    unfold split
    rw [hn, hlen]
    by_cases c : 2 + a.length + (blob r).length ≤ 2
    · rw [if_pos c]
      have ha : a = [] := List.length_eq_zero_iff.1 (by omega)
      have hr : r = [] := by
        cases r with
        | nil => rfl
        | cons b r => rw [blob, List.length_append, lv_length] at c; omega
      subst ha hr
      rfl
    · rw [if_neg c, if_neg (by omega), ← List.drop_drop, hd, List.take_left, List.drop_left,
        ih (fun x hx => h x (List.mem_cons_of_mem _ hx)) k (by omega)]
      cases r with
      | nil =>
        cases a with
        | nil => simp [blob] at c
        | cons _ _ => rfl
      | cons b r => rfl

theorem texts_blob (l : List Bytes) (h : ∀ a ∈ l, a.length < 65536) : texts (blob l) = kept l :=
  split_blob l h _ (Nat.le_refl _)

theorem mem_total {l : List Bytes} {a : Bytes} (h : a ∈ l) : a.length ≤ total l := by
  induction l with
  | nil => cases h
  | cons b r ih =>
    unfold total
    rcases List.mem_cons.1 h with rfl | h
    · omega
    · have := ih h; omega

end PFDContents
end Fields
end Pfcp
