/- Property theorems C40-C43, C52, C53 for PFDContents. -/
import Verif.Fields.Misc5

namespace Pfcp
namespace Fields

/-! ### PFDContents -/

namespace PFDContents

/-- A single text is present if it is not empty, a list if it has texts. -/
def given (t : Bytes) : Option Bytes := if t.isEmpty then none else some t
def givenList (l : List Bytes) : Option (List Bytes) := if l.isEmpty then none else some l

theorem given_getD (t : Bytes) : (given t).getD [] = t := by cases t <;> rfl
theorem givenList_getD (t : List Bytes) : (givenList t).getD [] = t := by cases t <;> rfl
theorem given_isSome (t : Bytes) : (given t).isSome = !t.isEmpty := by cases t <;> rfl
theorem givenList_isSome (t : List Bytes) : (givenList t).isSome = !t.isEmpty := by cases t <;> rfl

/-- The flags octet. -/
def flagsOf (a b c d e f g h : Bool) : UInt8 :=
  (if a then 1 else 0) + (if b then 2 else 0) + (if c then 4 else 0) + (if d then 8 else 0) + (if e then 16 else 0) +
  (if f then 32 else 0) + (if g then 64 else 0) + (if h then 128 else 0)

theorem flags_key : ∀ a b c d e f g h : Bool,
    ((if a then 0 else 0x01) ||| (if b then 0 else 0x02) ||| (if c then 0 else 0x04) ||| (if d then 0 else 0x08) |||
      (if e then 0 else 0x10) ||| (if f then 0 else 0x20) ||| (if g then 0 else 0x40) ||| (if h then 0 else 0x80) : UInt8)
      = flagsOf (!a) (!b) (!c) (!d) (!e) (!f) (!g) (!h) := by decide

theorem flags_bits : ∀ a b c d e f g h : Bool, hasFD (flagsOf a b c d e f g h) = a ∧
    hasURL (flagsOf a b c d e f g h) = b ∧ hasDN (flagsOf a b c d e f g h) = c ∧ hasCP (flagsOf a b c d e f g h) = d ∧
    hasDNP (flagsOf a b c d e f g h) = e ∧ hasAFD (flagsOf a b c d e f g h) = f ∧
    hasAURL (flagsOf a b c d e f g h) = g ∧ hasADNP (flagsOf a b c d e f g h) = h := by decide

/-- The flags of what the constructor is given. -/
def newFlags (fd url dn cp dnp : Bytes) (afd aurl adnp : List Bytes) : UInt8 :=
  flagsOf (!fd.isEmpty) (!url.isEmpty) (!dn.isEmpty) (!cp.isEmpty) (!dnp.isEmpty) (!afd.isEmpty) (!aurl.isEmpty)
    (!adnp.isEmpty)

theorem new_eq (fd url dn cp dnp : Bytes) (afd aurl adnp : List Bytes) : new fd url dn cp dnp afd aurl adnp
    = full (newFlags fd url dn cp dnp afd aurl adnp) (given fd) (given url) (given dn) (given cp) (given dnp)
      (givenList afd) (givenList aurl) (givenList adnp) := by
  unfold new full newFlags
  simp only [given_getD, givenList_getD, flags_key]

theorem short_given {t : Bytes} (h : t.length < 65536) : Short (given t) := by
  intro x hx
  unfold given at hx
  split at hx
  · cases hx
  · cases hx; exact h
theorem short_list {l : List Bytes} (h : total l < 65536) : Short ((givenList l).map blob) := by
  intro x hx
  unfold givenList at hx
  split at hx
  · cases hx
  · cases hx; rw [blob_length]; exact h

/-- All lengths fit their fields. -/
def Fits (fd url dn cp dnp : Bytes) (afd aurl adnp : List Bytes) : Prop :=
  (fd.length < 65536 ∧ url.length < 65536 ∧ dn.length < 65536 ∧ cp.length < 65536 ∧ dnp.length < 65536) ∧
  total afd < 65536 ∧ total aurl < 65536 ∧ total adnp < 65536

/-- The encoding: flags, a spare octet, and behind it the parts given, each with its length, the texts of a list again
each with its length. -/
def wire (fd url dn cp dnp : Bytes) (afd aurl adnp : List Bytes) : Bytes :=
  let text (t : Bytes) := if t.isEmpty then [] else be16 (UInt16.ofNat t.length) ++ t
  let list (l : List Bytes) := if l.isEmpty then [] else
    be16 (UInt16.ofNat (l.flatMap fun t => be16 (UInt16.ofNat t.length) ++ t).length) ++
      l.flatMap fun t => be16 (UInt16.ofNat t.length) ++ t
  [newFlags fd url dn cp dnp afd aurl adnp, 0] ++ text fd ++ text url ++ text dn ++ text cp ++ text dnp ++ list afd ++
    list aurl ++ list adnp

theorem blob_eq (l : List Bytes) : blob l = l.flatMap fun t => be16 (UInt16.ofNat t.length) ++ t := by
  induction l with
  | nil => rfl
  | cons a r ih => rw [blob, List.flatMap_cons, ih]; rfl

theorem wire_eq (fd url dn cp dnp : Bytes) (afd aurl adnp : List Bytes) : wire fd url dn cp dnp afd aurl adnp
    = [newFlags fd url dn cp dnp afd aurl adnp, 0] ++ parts (given fd) (given url) (given dn) (given cp) (given dnp)
      ((givenList afd).map blob) ((givenList aurl).map blob) ((givenList adnp).map blob) := by
  have h1 : ∀ t, part (given t) = if t.isEmpty then [] else be16 (UInt16.ofNat t.length) ++ t := by
    intro t; cases t <;> rfl
  have h2 : ∀ l : List Bytes, part ((givenList l).map blob) = if l.isEmpty then [] else
    be16 (UInt16.ofNat (l.flatMap fun t => be16 (UInt16.ofNat t.length) ++ t).length) ++
      l.flatMap fun t => be16 (UInt16.ofNat t.length) ++ t := by
    intro l
    rw [← blob_eq]
    cases l <;> rfl
  unfold wire parts
  simp only [h1, h2, List.append_assoc, List.append_nil]

theorem new_bits (fd url dn cp dnp : Bytes) (afd aurl adnp : List Bytes) :
    let fl := newFlags fd url dn cp dnp afd aurl adnp
    hasFD fl = (given fd).isSome ∧ hasURL fl = (given url).isSome ∧ hasDN fl = (given dn).isSome ∧
    hasCP fl = (given cp).isSome ∧ hasDNP fl = (given dnp).isSome ∧ hasAFD fl = (givenList afd).isSome ∧
    hasAURL fl = (givenList aurl).isSome ∧ hasADNP fl = (givenList adnp).isSome := by
  simp only [given_isSome, givenList_isSome]
  exact flags_bits _ _ _ _ _ _ _ _

end PFDContents

open PFDContents

/-- C52. -/
theorem C52_PFDContents (fd url dn cp dnp : Bytes) (afd aurl adnp : List Bytes)
    (h : Fits fd url dn cp dnp afd aurl adnp) :
    PFDContents.codec.Encodes (PFDContents.new fd url dn cp dnp afd aurl adnp) (wire fd url dn cp dnp afd aurl adnp) := by
  obtain ⟨⟨h1, h2, h3, h4, h5⟩, h6, h7, h8⟩ := h
  obtain ⟨b1, b2, b3, b4, b5, b6, b7, b8⟩ := new_bits fd url dn cp dnp afd aurl adnp
  unfold Codec.Encodes
  rw [new_eq, wire_eq]
  exact PFDContents.emits _ _ _ _ _ _ _ _ _ b1 b2 b3 b4 b5 b6 b7 b8 (short_given h1) (short_given h2) (short_given h3)
    (short_given h4) (short_given h5) (short_list h6) (short_list h7) (short_list h8)

/-- C40, complete: what decoding gives for every value the constructor can encode, followed by any bytes. It is refused
unless there is enough room behind each single text (`Roomy`), and otherwise decoded, except that a list loses its last
text if that is empty (`kept`). -/
theorem C40_PFDContents_partial (fd url dn cp dnp : Bytes) (afd aurl adnp : List Bytes)
    (h : Fits fd url dn cp dnp afd aurl adnp) (tail sp : Bytes) :
    PFDContents.codec.parse ⟨wire fd url dn cp dnp afd aurl adnp ++ tail, sp⟩ =
      if Roomy (wire fd url dn cp dnp afd aurl adnp ++ tail).length 2 [given fd, given url, given dn, given cp, given dnp]
      then .ok { PFDContents.new fd url dn cp dnp afd aurl adnp with
        afd := kept afd, aurl := kept aurl, adnp := kept adnp }
      else .err .unexpectedEOF := by
  obtain ⟨⟨h1, h2, h3, h4, h5⟩, h6, h7, h8⟩ := h
  obtain ⟨b1, b2, b3, b4, b5, b6, b7, b8⟩ := new_bits fd url dn cp dnp afd aurl adnp
  have hm : ∀ l : List Bytes, (givenList l).isSome = ((givenList l).map blob).isSome := by intro l; simp
  rw [hm] at b6 b7 b8
  have hv : ∀ l : List Bytes, total l < 65536 → listVal ((givenList l).map blob) = (UInt16.ofNat (total l), kept l) := by
    intro l hl
    have hg : ((givenList l).map blob).getD [] = blob l := by cases l <;> rfl
    unfold listVal
    rw [hg, blob_length, texts_blob l fun a ha => Nat.lt_of_le_of_lt (mem_total ha) hl]
  rw [wire_eq, parse_eq _ 0 _ _ _ _ _ _ _ _ b1 b2 b3 b4 b5 b6 b7 b8 (short_given h1) (short_given h2) (short_given h3)
    (short_given h4) (short_given h5) (short_list h6) (short_list h7) (short_list h8), new_eq]
  unfold value full
  simp only [hv _ h6, hv _ h7, hv _ h8, textVal, given_getD, givenList_getD]

/-- C40 for a flow description alone of two octets or more. -/
theorem C40_PFDContents_single_partial (fd : Bytes) (h : fd.length < 65536) (h2 : 2 ≤ fd.length) :
    PFDContents.codec.Yields (PFDContents.new fd [] [] [] [] [] [] []) (PFDContents.new fd [] [] [] [] [] [] []) := by
  have hf : Fits fd [] [] [] [] [] [] [] := ⟨⟨h, by decide, by decide, by decide, by decide⟩, by decide, by decide, by decide⟩
  refine ⟨_, C52_PFDContents fd [] [] [] [] [] [] [] hf, fun tail sp => ?_⟩
  have he : fd.isEmpty = false := by cases fd with | nil => cases h2 | cons _ _ => rfl
  have hg : given fd = some fd := by unfold given; rw [he]; rfl
  rw [C40_PFDContents_partial fd [] [] [] [] [] [] [] hf, if_pos ?_]
  · rfl
  · rw [hg]
    have hl : (wire fd [] [] [] [] [] [] [] ++ tail).length = 4 + fd.length + tail.length := by
      unfold wire
      simp [he, be16_length]
      omega
    rw [hl]
    simp [Roomy, given]
    omega

/-- C40 for lists alone, with no empty text at the end of one. -/
theorem C40_PFDContents_lists_partial (afd aurl adnp : List Bytes) (h6 : total afd < 65536) (h7 : total aurl < 65536)
    (h8 : total adnp < 65536) (k6 : kept afd = afd) (k7 : kept aurl = aurl) (k8 : kept adnp = adnp) :
    PFDContents.codec.Yields (PFDContents.new [] [] [] [] [] afd aurl adnp)
      (PFDContents.new [] [] [] [] [] afd aurl adnp) := by
  have hf : Fits [] [] [] [] [] afd aurl adnp := ⟨⟨by decide, by decide, by decide, by decide, by decide⟩, h6, h7, h8⟩
  refine ⟨_, C52_PFDContents _ _ _ _ _ _ _ _ hf, fun tail sp => ?_⟩
  rw [C40_PFDContents_partial _ _ _ _ _ _ _ _ hf, if_pos (by rfl), k6, k7, k8]
  rfl

/-- C40 is false: two single texts are refused, unless the second is longer than the first by four octets or more; here a
flow description and a URL. -/
theorem C40_PFDContents_violated (fd url : Bytes) (h1 : fd.length < 65536) (h2 : url.length < 65536) (n1 : fd ≠ [])
    (n2 : url ≠ []) (h : url.length < fd.length + 4) (sp : Bytes) : ∃ w,
    PFDContents.codec.marshal (PFDContents.new fd url [] [] [] [] [] []) = .ok w ∧
    PFDContents.codec.parse ⟨w, sp⟩ = .err .unexpectedEOF := by
  have hf : Fits fd url [] [] [] [] [] [] := ⟨⟨h1, h2, by decide, by decide, by decide⟩, by decide, by decide, by decide⟩
  refine ⟨_, C52_PFDContents _ _ _ _ _ _ _ _ hf, ?_⟩
  have e1 : fd.isEmpty = false := by cases fd with | nil => exact absurd rfl n1 | cons _ _ => rfl
  have e2 : url.isEmpty = false := by cases url with | nil => exact absurd rfl n2 | cons _ _ => rfl
  have hp := C40_PFDContents_partial _ _ _ _ _ _ _ _ hf [] sp
  rw [List.append_nil] at hp
  rw [hp, if_neg ?_]
  have hl : (wire fd url [] [] [] [] [] []).length = 6 + fd.length + url.length := by
    unfold wire
    simp [e1, e2, be16_length]
    omega
  have g1 : given fd = some fd := by unfold given; rw [e1]; rfl
  have g2 : given url = some url := by unfold given; rw [e2]; rfl
  rw [hl, g1, g2]
  simp [Roomy, given]
  omega

/-- C40 is false: an empty text at the end of a list is lost. -/
theorem C40_PFDContents_list_violated (afd : List Bytes) (h : total afd < 65534) (tail sp : Bytes) : ∃ w v,
    PFDContents.codec.marshal (PFDContents.new [] [] [] [] [] (afd ++ [[]]) [] []) = .ok w ∧
    PFDContents.codec.parse ⟨w ++ tail, sp⟩ = .ok v ∧ v.afd = afd := by
  have ht : ∀ l : List Bytes, total (l ++ [[]]) = total l + 2 := by
    intro l
    induction l with
    | nil => rfl
    | cons a r ih => rw [List.cons_append, total, total, ih]; omega
  have hk : ∀ l : List Bytes, kept (l ++ [[]]) = l := by
    intro l
    induction l with
    | nil => rfl
    | cons a r ih =>
      cases r with
      | nil => rfl
      | cons b r => rw [List.cons_append, List.cons_append, kept, ← List.cons_append, ih]
  have hf : Fits [] [] [] [] [] (afd ++ [[]]) [] [] :=
    ⟨⟨by decide, by decide, by decide, by decide, by decide⟩, by rw [ht]; omega, by decide, by decide⟩
  have hp := C40_PFDContents_partial _ _ _ _ _ _ _ _ hf tail sp
  rw [if_pos (by rfl)] at hp
  exact ⟨_, _, C52_PFDContents _ _ _ _ _ _ _ _ hf, hp, hk afd⟩

/-- C41 is false: if the first text is declared longer than the payload, the decoder panics (without spare capacity). -/
theorem C41_PFDContents_violated (fl x hi lo : UInt8) (r : Bytes) (hf : bit fl 0 = true) (h2 : 2 ≤ r.length)
    (h : r.length < hi.toNat * 256 + lo.toNat) : PFDContents.codec.parse ⟨fl :: x :: hi :: lo :: r, []⟩ = .panic := by
  have e0 : PFDContents.codec.parse ⟨fl :: x :: hi :: lo :: r, []⟩ = _ := P.run_minLen_eq (n := 2) (by simp)
  rw [e0]
  unfold P.run
  rw [P.bind_ok (a := fl) (o' := 0) (by rfl), P.bind_ok (a := ()) (o' := 2) (by rfl)]
  have hn : (dec16 [hi, lo]).toNat = hi.toNat * 256 + lo.toNat := by
    have h1 := hi.toNat_lt
    have h2 := lo.toNat_lt
    simp [dec16, beNat]
    omega
  have ht : P.opt (hasFD fl) parseText (0, []) ⟨fl :: x :: hi :: lo :: r, []⟩ 2 = .panic := by
    unfold hasFD
    rw [has1stBit_eq, hf]
    show parseText _ _ = _
    unfold parseText
    have h1 : P.rest ⟨fl :: x :: hi :: lo :: r, []⟩ 2 = _ := rest_eq [fl, x] (hi :: lo :: r) []
    rw [P.bind_ok h1, P.bind_ok (off_eq _ _), if_neg (by simp; omega)]
    rw [P.bind_ok (a := dec16 [hi, lo]) (o' := 4) (by rfl)]
    apply P.bind_panic
    unfold P.bytes Slice.sub Slice.cap
    rw [if_neg (by simp [hn]; omega)]
    rfl
  rw [P.bind_panic ht]

/-- C41 holds for payloads whose parts are as long as they are declared. -/
theorem C41_PFDContents_partial (fl x : UInt8) (a b c d e f g h : Option Bytes)
    (ha : bit fl 0 = a.isSome) (hb : bit fl 1 = b.isSome) (hc : bit fl 2 = c.isSome) (hd : bit fl 3 = d.isSome)
    (he : bit fl 4 = e.isSome) (hf : bit fl 5 = f.isSome) (hg : bit fl 6 = g.isSome) (hh : bit fl 7 = h.isSome)
    (sa : Short a) (sb : Short b) (sc : Short c) (sd : Short d) (se : Short e) (sf : Short f) (sg : Short g)
    (sh : Short h) (tail sp : Bytes) :
    PFDContents.codec.parse ⟨[fl, x] ++ parts a b c d e f g h ++ tail, sp⟩ ≠ .panic := by
  rw [parse_eq fl x a b c d e f g h (by rw [← ha]; exact has1stBit_eq fl) (by rw [← hb]; exact has2ndBit_eq fl)
    (by rw [← hc]; exact has3rdBit_eq fl) (by rw [← hd]; exact has4thBit_eq fl) (by rw [← he]; exact has5thBit_eq fl)
    (by rw [← hf]; exact has6thBit_eq fl) (by rw [← hg]; exact has7thBit_eq fl) (by rw [← hh]; exact has8thBit_eq fl)
    sa sb sc sd se sf sg sh]
  split <;> simp

/-- C42 is false: a flow description declared longer than the payload is read from the memory behind it. -/
theorem C42_PFDContents_violated (x hi lo : UInt8) (r sp : Bytes) (h2 : 2 ≤ r.length)
    (h : r.length < hi.toNat * 256 + lo.toNat) (hs : hi.toNat * 256 + lo.toNat ≤ r.length + sp.length) :
    ∃ v, PFDContents.codec.parse ⟨1 :: x :: hi :: lo :: r, sp⟩ = .ok v ∧
      v.fd = r ++ sp.take (hi.toNat * 256 + lo.toNat - r.length) := by
  have hn : (dec16 [hi, lo]).toNat = hi.toNat * 256 + lo.toNat := by
    have h1 := hi.toNat_lt
    have h2 := lo.toNat_lt
    simp [dec16, beNat]
    omega
  refine ⟨⟨1, dec16 [hi, lo], r ++ sp.take (hi.toNat * 256 + lo.toNat - r.length), 0, [], 0, [], 0, [], 0, [], 0, [],
    0, [], 0, []⟩, ?_, rfl⟩
  have e0 : PFDContents.codec.parse ⟨1 :: x :: hi :: lo :: r, sp⟩ = _ := P.run_minLen_eq (n := 2) (by simp)
  rw [e0]
  unfold P.run
  rw [P.bind_ok (a := 1) (o' := 0) (by rfl), P.bind_ok (a := ()) (o' := 2) (by rfl)]
  have ht : P.opt (hasFD 1) parseText (0, []) ⟨1 :: x :: hi :: lo :: r, sp⟩ 2
      = .ok ((dec16 [hi, lo], r ++ sp.take (hi.toNat * 256 + lo.toNat - r.length)), 4 + (dec16 [hi, lo]).toNat) := by
    show parseText _ _ = _
    unfold parseText
    have h1 : P.rest ⟨1 :: x :: hi :: lo :: r, sp⟩ 2 = _ := rest_eq [1, x] (hi :: lo :: r) sp
    rw [P.bind_ok h1, P.bind_ok (off_eq _ _), if_neg (by simp; omega)]
    have h3 : P.u16 ⟨1 :: x :: hi :: lo :: r, sp⟩ [(1 : UInt8), x].length = .ok (dec16 [hi, lo], 4) := by
      apply P.bind_ok (a := [hi, lo])
      unfold P.bytes
      rw [P.sub_data _ _ _ _ (by omega) (by simp)]
      rfl
    rw [P.bind_ok h3]
    have hb : P.bytes (dec16 [hi, lo]).toNat ⟨1 :: x :: hi :: lo :: r, sp⟩ 4
        = .ok (r ++ sp.take (hi.toNat * 256 + lo.toNat - r.length), 4 + (dec16 [hi, lo]).toNat) := by
      unfold P.bytes Slice.sub Slice.cap
      rw [if_pos (by simp [hn]; omega), Res.ok_bind, hn]
      simp only
      congr 2
      rw [List.drop_take, Nat.add_sub_cancel_left]
      show List.take _ (r ++ sp) = _
      rw [List.take_append, List.take_of_length_le (by omega)]
    rw [P.bind_ok hb]
    rfl
  rw [P.bind_ok ht]
  rfl

/-- C43: the constructor succeeds exactly if each list, with its lengths, takes less than 65536 octets, and panics
otherwise. -/
theorem C43_PFDContents_partial (fd url dn cp dnp : Bytes) (afd aurl adnp : List Bytes) :
    (PFDContents.codec.Builds (PFDContents.new fd url dn cp dnp afd aurl adnp) ↔
      total afd < 65536 ∧ total aurl < 65536 ∧ total adnp < 65536) ∧
    (PFDContents.codec.marshal (PFDContents.new fd url dn cp dnp afd aurl adnp) = .panic ↔
      ¬ (total afd < 65536 ∧ total aurl < 65536 ∧ total adnp < 65536)) := by
  have hr := marshal_room (PFDContents.new fd url dn cp dnp afd aurl adnp)
  obtain ⟨b1, b2, b3, b4, b5, b6, b7, b8⟩ := new_bits fd url dn cp dnp afd aurl adnp
  have key : size (PFDContents.new fd url dn cp dnp afd aurl adnp)
      ≤ (PFDContents.new fd url dn cp dnp afd aurl adnp).marshalLen ↔
      total afd < 65536 ∧ total aurl < 65536 ∧ total adnp < 65536 := by
    have hz : ∀ l : List Bytes, (givenList l).isSome = false → total l = 0 := by
      intro l hl
      cases l with
      | nil => rfl
      | cons _ _ => cases hl
    have h6 := hz afd
    have h7 := hz aurl
    have h8 := hz adnp
    have m : ∀ n, (UInt16.ofNat n).toNat = n % 65536 := by intro n; simp
    rw [new_eq]
    unfold size marshalLen full
    simp only [ite_len, b1, b2, b3, b4, b5, b6, b7, b8, givenList_getD, m]
    generalize (givenList afd).isSome = s6 at *
    generalize (givenList aurl).isSome = s7 at *
    generalize (givenList adnp).isSome = s8 at *
    cases s6 <;> cases s7 <;> cases s8 <;> simp only [Bool.false_eq_true, if_true, if_false] <;>
      simp only [forall_const, Bool.true_eq_false, false_implies] at h6 h7 h8 <;> omega
  unfold Codec.Builds
  by_cases c : total afd < 65536 ∧ total aurl < 65536 ∧ total adnp < 65536
  · rw [if_pos (key.2 c)] at hr
    obtain ⟨w, hw⟩ := hr
    rw [hw]
    exact ⟨⟨fun _ => c, fun _ => ⟨w, rfl⟩⟩, ⟨fun h => (by cases h), fun h => absurd c h⟩⟩
  · rw [if_neg (fun h => c (key.1 h))] at hr
    rw [hr]
    exact ⟨⟨fun h => (by obtain ⟨_, h⟩ := h; cases h), fun h => absurd h c⟩, ⟨fun _ => c, fun _ => rfl⟩⟩

/-- C43 is false: a list of one text of 65534 octets or more makes the constructor panic. -/
theorem C43_PFDContents_violated (fd url dn cp dnp t : Bytes) (aurl adnp : List Bytes) (h : 65534 ≤ t.length) :
    PFDContents.codec.marshal (PFDContents.new fd url dn cp dnp [t] aurl adnp) = .panic := by
  rw [(C43_PFDContents_partial fd url dn cp dnp [t] aurl adnp).2]
  intro hc
  have := hc.1
  simp [total] at this
  omega

/-- C53 for a payload with nothing behind it in memory: if the lists in it are made of texts, the last one not empty, then
re-encoding gives the payload without what follows the last part, and with the spare octet cleared. -/
theorem C53_PFDContents_partial (dt : Bytes) (v : PFDContents) (hp : PFDContents.codec.parse ⟨dt, []⟩ = .ok v) :
    ∃ (x : UInt8) (a b c d e f g h : Option Bytes) (post : Bytes), dt = [v.flags, x] ++ parts a b c d e f g h ++ post ∧
      ((∀ p ∈ [f, g, h], p = none ∨ ∃ l, p = some (blob l) ∧ kept l = l) →
        PFDContents.codec.marshal v = .ok ([v.flags, 0] ++ parts a b c d e f g h)) := by
  obtain ⟨x, a, b, c, d, e, f, g, h, post, ed, ev, ha, hb, hc, hd, he, hf, hg, hh, sa, sb, sc, sd, se, sf, sg, sh⟩ :=
    takes hp
  refine ⟨x, a, b, c, d, e, f, g, h, post, ed, fun hl => ?_⟩
  have lift : ∀ p : Option Bytes, Short p → (p = none ∨ ∃ l, p = some (blob l) ∧ kept l = l) → ∃ q : Option (List Bytes),
      p = q.map blob ∧ listVal p = (UInt16.ofNat (total (q.getD [])), q.getD []) := by
    intro p sp hp
    rcases hp with rfl | ⟨l, rfl, hk⟩
    · exact ⟨none, rfl, rfl⟩
    · refine ⟨some l, rfl, ?_⟩
      have hs := sp _ rfl
      rw [blob_length] at hs
      unfold listVal
      rw [Option.getD_some, Option.getD_some, blob_length,
        texts_blob l fun a ha => Nat.lt_of_le_of_lt (mem_total ha) hs, hk]
  obtain ⟨qf, rfl, vf⟩ := lift f sf (hl f (by simp))
  obtain ⟨qg, rfl, vg⟩ := lift g sg (hl g (by simp))
  obtain ⟨qh, rfl, vh⟩ := lift h sh (hl h (by simp))
  have hm := PFDContents.emits v.flags a b c d e qf qg qh ha hb hc hd he (by rw [hf]; simp) (by rw [hg]; simp)
    (by rw [hh]; simp) sa sb sc sd se sf sg sh
  have hv : v = full v.flags a b c d e qf qg qh := by
    refine ev.trans ?_
    unfold value full
    rw [vf, vg, vh]
    rfl
  rw [← hv] at hm
  exact hm

/-- C53 is false: the spare octet is cleared, and a list with an empty text at its end moves what follows it. -/
theorem C53_PFDContents_violated :
    (∃ v, PFDContents.codec.parse ⟨[0, 7], []⟩ = .ok v ∧ PFDContents.codec.marshal v = .ok [0, 0]) ∧
    (∃ v, PFDContents.codec.parse ⟨[0x60, 0, 0, 2, 0, 0, 0, 3, 0, 1, 65], []⟩ = .ok v ∧
      PFDContents.codec.marshal v = .ok [0x60, 0, 0, 2, 0, 3, 0, 1, 65, 0, 0]) :=
  ⟨⟨PFDContents.new [] [] [] [] [] [] [] [], by decide, by decide⟩,
    ⟨⟨0x60, 0, [], 0, [], 0, [], 0, [], 0, [], 2, [], 3, [[65]], 0, []⟩, by decide, by decide⟩⟩

example : Fits [65, 66, 67] [65] [] [] [] [[65], [66]] [] [[67]] := by unfold Fits; decide
example : kept [[65], [66]] = [[65], [66]] := by decide
example : Roomy 20 2 [given [65, 66], given [67, 68, 69, 70, 71, 72], none, none, none] = true := by decide
example : ∃ v, PFDContents.codec.parse ⟨wire [65, 66] [67, 68, 69, 70, 71, 72] [] [] [] [] [] [], []⟩ = .ok v :=
  ⟨PFDContents.new [65, 66] [67, 68, 69, 70, 71, 72] [] [] [] [] [] [], by decide⟩

end Fields
end Pfcp
