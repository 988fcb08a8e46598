/-
Property theorems about node identifiers, FQ-CSIDs, feature flags and the accessors that combine others: C55, C56 (the
n-th F-TEID), C57 (network instance names). `g`, `mem`, `sp` and `rest` as in `Verif/Ctor/MultiProps.lean`.
-/
import Verif.Ctor.MultiProps
import Verif.Ctor.Props
import Verif.Ctor.GroupProps
import Verif.Acc.Kinds

namespace Pfcp
open Fields
open Text (dotted wireName)

/-- A flag of the UP function features element says whether its bit is set in the octet given (octets not given count
as 0), for all of the flags. -/
theorem C55_up_features_flags (g : IEType → Bool) (mem : IE → Bytes) (fs : List UInt8) (k n : Nat) (f : Flag) (hn : n < 8)
    (hk : k < 4) (hf : flagAt T.UPFunctionFeatures k n = some f) (hg : g T.UPFunctionFeatures = false) :
    ∃ i, newUPFunctionFeatures fs = .ok i ∧
      f.call g mem i = .ok (match fs[k]? with | some o => o.toNat.testBit n | none => false) := by
  obtain ⟨i, b, h1, -, -, -⟩ := C55_up_features g mem fs [] hg
  refine ⟨i, h1, ?_⟩
  have h2 : newUPFunctionFeatures fs = .ok (IE.new T.UPFunctionFeatures ((fs ++ [0, 0, 0, 0]).take (if fs.length ≤ 2 then 2 else 4))) :=
    up_features_new fs
  rw [h2] at h1
  cases h1
  have hx : f ≠ .HasMAC := by
    have := layout_forall (p := fun t _ _ f => decide (t = T.UPFunctionFeatures → f ≠ .HasMAC)) (by decide +kernel) hn hf
    exact of_decide_eq_true this rfl
  have hlen : ((fs ++ [0, 0, 0, 0]).take (if fs.length ≤ 2 then 2 else 4)).length = if fs.length ≤ 2 then 2 else 4 := by
    rw [List.length_take, List.length_append]
    split <;> simp <;> omega
  by_cases h : k < if fs.length ≤ 2 then 2 else 4
  · rw [C30_layout_partial g mem _ k n f hn hf (by decide) _ rfl hg (by show k < List.length (List.take _ _); omega)
      (by show minOctets T.UPFunctionFeatures ≤ List.length (List.take _ _); rw [hlen, show minOctets T.UPFunctionFeatures = 1 from rfl]; split <;> omega)]
    have e : ((fs ++ [0, 0, 0, 0]).take (if fs.length ≤ 2 then 2 else 4))[k]? = (fs ++ [0, 0, 0, 0])[k]? := List.getElem?_take_of_lt h
    congr 1
    cases hv : fs[k]? with
    | some o =>
      have h3 : k < fs.length := (List.getElem?_eq_some_iff.1 hv).1
      rw [List.getElem?_append_left h3, hv] at e
      obtain ⟨h4, h5⟩ := List.getElem?_eq_some_iff.1 e
      exact congrArg (fun o : UInt8 => o.toNat.testBit n) h5
    | none =>
      have h3 : fs.length ≤ k := List.getElem?_eq_none_iff.1 hv
      rw [List.getElem?_append_right h3] at e
      have h6 : ([0, 0, 0, 0] : List UInt8)[k - fs.length]? = some 0 := by
        have : k - fs.length = 0 ∨ k - fs.length = 1 ∨ k - fs.length = 2 ∨ k - fs.length = 3 := by omega
        rcases this with h | h | h | h <;> rw [h] <;> rfl
      rw [h6] at e
      obtain ⟨h4, h5⟩ := List.getElem?_eq_some_iff.1 e
      exact (congrArg (fun o : UInt8 => o.toNat.testBit n) h5).trans (Nat.zero_testBit n)
  · rw [C30_short_partial g mem _ k n f hn hf hx _ rfl (.inl (by show List.length (List.take _ _) ≤ k; omega))]
    have h3 : fs.length ≤ k := by
      split at h <;> omega
    rw [List.getElem?_eq_none_iff.2 h3]

example : flagAt T.UPFunctionFeatures 3 2 = some .HasVTIME := by decide +kernel

/-! ## Node identifiers -/

theorem fill (n : Nat) (x : UInt8) (e : Bytes) (h : e.length = n) :
    ((Slice.make (n + 1)).set 0 x >>= fun s => s.copyAt 1 s.len e) = .ok ⟨x :: e, []⟩ := by
  subst h
  unfold Slice.make Slice.set
  rw [if_pos (by simp)]
  simp only [Res.ok_bind]
  unfold Slice.copyAt
  rw [if_pos (by simp [Slice.len, Slice.cap])]
  unfold Slice.overwrite Slice.len
  simp [List.replicate_succ, Nat.add_comm]

theorem fill_short (n : Nat) (x : UInt8) :
    ((Slice.make (n + 1)).set 0 x >>= fun s => s.copyAt 1 s.len []) = .ok ⟨x :: List.replicate n 0, []⟩ := by
  unfold Slice.make Slice.set
  rw [if_pos (by simp)]
  simp only [Res.ok_bind]
  unfold Slice.copyAt
  rw [if_pos (by simp [Slice.len, Slice.cap])]
  unfold Slice.overwrite Slice.len
  simp [List.replicate_succ]

/-- The node identifier element with this first octet and these octets behind it. -/
theorem node_id_read (g : IEType → Bool) (mem : IE → Bytes) (x : UInt8) (e rest : Bytes) (he : 0 < e.length) (hl : e.length ≤ 65534)
    (hg : g T.NodeID = false) :
    ∃ b, (IE.new T.NodeID (x :: e)).marshal g = .ok b ∧ parse g (b ++ rest) = .ok (IE.new T.NodeID (x :: e)) ∧
      Acc.NodeID.call g mem (IE.new T.NodeID (x :: e)) =
        if x = 0 then .ok (.ipText (to4 e)) else if x = 1 then .ok (.ipText (to16 e))
        else if x = 2 then Text.decodeFQDN e >>= fun v => .ok (.bytes v) else .err (.invalidNodeID x) := by
  refine made g _ _ rest hg (by decide) (by simp; omega) ?_
  rw [call_new g mem _ _ _ .nodeID 0 rfl (by decide) (by simp)]
  simp only [Leaf.run]
  unfold nodeIDOf
  rw [if_neg (by show ¬ (e.length + 1 < 2); omega)]
  show (Slice.subFrom ⟨[x] ++ e, _⟩ 1 >>= fun r => _) = _
  unfold Slice.subFrom
  rw [sub_last [x] e _ 1 _ rfl (by simp [Slice.len]; omega)]
  rfl

/-- A node identifier made of an IPv4 address that `net.ParseIP` accepts. -/
theorem C55_node_id_ipv4_partial (g : IEType → Bool) (mem : IE → Bytes) (parseIP : Bytes → Option Bytes) (ipv4 ipv6 fqdn a rest : Bytes)
    (h0 : ipv4 ≠ []) (h : parseIP ipv4 = some (v4Prefix ++ a)) (ha : a.length = 4) (hg : g T.NodeID = false) :
    ∃ i b, newNodeID parseIP ipv4 ipv6 fqdn = .ok (some i) ∧ i.marshal g = .ok b ∧ parse g (b ++ rest) = .ok i ∧
      i.payload = 0 :: a ∧ Acc.NodeID.call g mem i = .ok (.ipText a) := by
  obtain ⟨b, h1, h2, h3⟩ := node_id_read g mem 0 a rest (by omega) (by omega) hg
  refine ⟨_, b, ?_, h1, h2, rfl, ?_⟩
  · unfold newNodeID
    rw [if_pos h0, h]
    have e : to4 ((some (v4Prefix ++ a)).getD []) = a := by
      show to4 (v4Prefix ++ a) = a
      unfold to4
      rw [if_neg (by simp [v4Prefix]), if_pos ⟨by simp [v4Prefix, ha], rfl⟩]
      rfl
    rw [e]
    have hf := fill 4 0 a ha
    obtain ⟨s, hs1, hs2⟩ := Res.bind_eq_ok.1 hf
    show ((Slice.make 5).set 0 0 >>= _) = _
    rw [hs1]
    show (s.copyAt 1 s.len a >>= _) = _
    rw [hs2]
    rfl
  · rw [h3, if_pos rfl]
    unfold to4
    rw [if_pos ha]

example : ([10, 0, 0, 1] : Bytes).length = 4 := by decide

/-- A node identifier made of an IPv6 address that `net.ParseIP` accepts. -/
theorem C55_node_id_ipv6_partial (g : IEType → Bool) (mem : IE → Bytes) (parseIP : Bytes → Option Bytes) (ipv6 fqdn a rest : Bytes)
    (h0 : ipv6 ≠ []) (h : parseIP ipv6 = some a) (ha : a.length = 16) (hg : g T.NodeID = false) :
    ∃ i b, newNodeID parseIP [] ipv6 fqdn = .ok (some i) ∧ i.marshal g = .ok b ∧ parse g (b ++ rest) = .ok i ∧
      i.payload = 1 :: a ∧ Acc.NodeID.call g mem i = .ok (.ipText a) := by
  obtain ⟨b, h1, h2, h3⟩ := node_id_read g mem 1 a rest (by omega) (by omega) hg
  have e16 : to16 a = a := by
    unfold to16
    rw [if_neg (by omega), if_pos ha]
  refine ⟨_, b, ?_, h1, h2, rfl, ?_⟩
  · unfold newNodeID
    rw [if_neg (by simp), if_pos h0, h]
    have e : to16 ((some a).getD []) = a := e16
    rw [e]
    obtain ⟨s, hs1, hs2⟩ := Res.bind_eq_ok.1 (fill 16 1 a ha)
    show ((Slice.make 17).set 0 1 >>= _) = _
    rw [hs1]
    show (s.copyAt 1 s.len a >>= _) = _
    rw [hs2]
    rfl
  · rw [h3, if_neg (by decide), if_pos rfl, e16]

example : (List.replicate 15 (0 : UInt8) ++ [1]).length = 16 := by decide

theorem node_id_name (ls : List Bytes) (h0 : ls ≠ []) (h : ∀ l ∈ ls, (46 : UInt8) ∉ l) :
    nodeIDName (dotted ls) = .ok (IE.new T.NodeID (2 :: wireName ls)) := by
  unfold nodeIDName
  rw [Text.C33_layout ls h0 h]
  obtain ⟨s, hs1, hs2⟩ := Res.bind_eq_ok.1 (fill (wireName ls).length 2 (wireName ls) rfl)
  rw [wireName_length ls h0] at hs1
  show ((Slice.make (2 + (dotted ls).length)).set 0 2 >>= _) = _
  rw [show 2 + (dotted ls).length = (dotted ls).length + 1 + 1 by omega, hs1]
  show (s.copyAt 1 s.len (wireName ls) >>= _) = _
  rw [hs2]
  rfl

/-- A node identifier made of a domain name whose labels have at most 255 octets. -/
theorem C55_node_id_name (g : IEType → Bool) (mem : IE → Bytes) (parseIP : Bytes → Option Bytes) (ls : List Bytes) (rest : Bytes)
    (h0 : dotted ls ≠ []) (hl : ∀ l ∈ ls, l.length < 256 ∧ (46 : UInt8) ∉ l) (hsz : (dotted ls).length < 65534)
    (hg : g T.NodeID = false) :
    ∃ i b, newNodeID parseIP [] [] (dotted ls) = .ok (some i) ∧ i.marshal g = .ok b ∧ parse g (b ++ rest) = .ok i ∧
      i.payload = 2 :: wireName ls ∧ Acc.NodeID.call g mem i = .ok (.bytes (dotted ls)) := by
  have hne : ls ≠ [] := by
    rintro rfl
    exact h0 rfl
  have hw := wireName_length ls hne
  obtain ⟨b, h1, h2, h3⟩ := node_id_read g mem 2 (wireName ls) rest (by omega) (by omega) hg
  refine ⟨_, b, ?_, h1, h2, rfl, ?_⟩
  · unfold newNodeID
    rw [if_neg (by simp), if_neg (by simp), if_pos h0, node_id_name ls hne (fun l h => (hl l h).2)]
    rfl
  · rw [h3, if_neg (by decide), if_neg (by decide), if_pos rfl, Text.C33_decode ls (fun l h => (hl l h).1)]
    rfl

example : dotted [[97], [98]] ≠ [] := by decide

/-- No argument, no element. -/
theorem C55_node_id_none (parseIP : Bytes → Option Bytes) : newNodeID parseIP [] [] [] = .ok none := rfl

/-- The single-argument form makes the element that fits the text. -/
theorem C55_node_id_heuristic (parseIP : Bytes → Option Bytes) (s : Bytes) (h0 : s ≠ []) :
    (∀ a, parseIP s = some (v4Prefix ++ a) → a.length = 4 → newNodeIDHeuristic parseIP s = newNodeID parseIP s [] []) ∧
    (∀ a, parseIP s = some a → a.length = 16 → (∀ r, a ≠ v4Prefix ++ r) → newNodeIDHeuristic parseIP s = newNodeID parseIP [] s []) ∧
    (parseIP s = none → newNodeIDHeuristic parseIP s = newNodeID parseIP [] [] s) ∧
    newNodeIDHeuristic parseIP [] = .ok none := by
  refine ⟨?_, ?_, ?_, rfl⟩
  · intro a h ha
    have e : to4 (v4Prefix ++ a) = a := by
      unfold to4
      rw [if_neg (by simp [v4Prefix]), if_pos ⟨by simp [v4Prefix, ha], rfl⟩]
      rfl
    unfold newNodeIDHeuristic newNodeID
    rw [if_neg h0, if_pos h0, h]
    dsimp only
    rw [e, if_pos (by intro h; rw [h] at ha; cases ha)]
    show _ = ((Slice.make 5).set 0 0 >>= fun s => s.copyAt 1 s.len (to4 (v4Prefix ++ a)) >>= _)
    rw [e]
  · intro a h ha hr
    have e : to4 a = [] := by
      unfold to4
      rw [if_neg (by omega), if_neg]
      rintro ⟨-, hp⟩
      exact hr (a.drop 12) (by rw [← hp, List.take_append_drop])
    unfold newNodeIDHeuristic newNodeID
    rw [if_neg h0, if_neg (by simp), if_pos h0, h]
    dsimp only
    rw [e, if_neg (by simp)]
    rfl
  · intro h
    unfold newNodeIDHeuristic newNodeID
    rw [if_neg h0, if_neg (by simp), if_neg (by simp), if_pos h0, h]

/-- A text that is no IPv4 address does not make the constructor fail: node 0.0.0.0 is sent. -/
theorem C55_node_id_violated (g : IEType → Bool) (mem : IE → Bytes) (parseIP : Bytes → Option Bytes) (ipv4 : Bytes) (h0 : ipv4 ≠ [])
    (h : parseIP ipv4 = none) (hg : g T.NodeID = false) :
    ∃ i, newNodeID parseIP ipv4 [] [] = .ok (some i) ∧ Acc.NodeID.call g mem i = .ok (.ipText [0, 0, 0, 0]) := by
  obtain ⟨b, h1, h2, h3⟩ := node_id_read g mem 0 [0, 0, 0, 0] [] (by decide) (by decide) hg
  refine ⟨_, ?_, h3⟩
  unfold newNodeID
  rw [if_pos h0, h]
  rfl

example : ∃ f : Bytes → Option Bytes, f [120] = none := ⟨fun _ => none, rfl⟩

/-! ## FQ-CSID -/

/-- Once the loop is entered, it runs until it leaves the memory of the payload. -/
theorem csidLoop_panics (s : Slice) : ∀ fuel off, s.len < off + 2 → csidLoop s fuel off = .panic
  | 0, _, _ => rfl
  | fuel + 1, off, h => by
    unfold csidLoop
    rw [if_pos h]
    cases hv : s.u16At off with
    | panic => rfl
    | err e =>
      unfold Slice.u16At Slice.sub at hv
      split at hv <;> cases hv
    | ok v =>
      show (csidLoop s fuel (off + 2) >>= _) = _
      rw [csidLoop_panics s fuel (off + 2) (by omega)]
      rfl

theorem csidLoop_exact (s : Slice) (fuel off : Nat) :
    csidLoop s (fuel + 1) off = if off + 2 ≤ s.len then .ok [] else .panic := by
  split
  · rename_i h
    unfold csidLoop
    rw [if_neg (by omega)]
  · rename_i h
    exact csidLoop_panics s (fuel + 1) off (by omega)

/-- Whatever element is received, `CSIDs` never returns an identifier: its loop condition is the wrong way round. -/
theorem C55_csids_violated (g : IEType → Bool) (mem : IE → Bytes) (i : IE) (v : List UInt16)
    (h : Acc.CSIDs.call g mem i = .ok (.u16s v)) : v = [] := by
  by_cases ht : i.typ = T.FQCSID
  · by_cases hl : 1 ≤ i.payload.length
    · rw [call_leaf g mem .CSIDs i .csids (by rw [ht]; rfl) hl] at h
      simp only [Leaf.run] at h
      obtain ⟨w, h1, h2⟩ := Res.bind_eq_ok.1 h
      cases h2
      unfold csidsOf at h1
      obtain ⟨b, -, h3⟩ := Res.bind_eq_ok.1 h1
      dsimp only at h3
      rw [csidLoop_exact, csidLoop_exact] at h3
      split at h3
      · split at h3 <;> cases h3
        rfl
      · split at h3
        · split at h3 <;> cases h3
          rfl
        · cases h3
    · rw [call_eq, if_pos (by show i.payload.length < 1; omega)] at h
      cases h
  · have h1 : Acc.CSIDs.table.cases.lookup i.typ = none := by
      show List.lookup i.typ [(T.FQCSID, Body.leaf .csids)] = none
      rw [List.lookup_cons]
      rw [show (i.typ == T.FQCSID) = false by simpa using ht]
      rfl
    rw [call_eq, h1] at h
    split at h <;> cases h

/-- Such calls exist: the identifier sent with an IPv4 node address. -/
example : Acc.CSIDs.call (fun _ => false) (fun _ => []) (IE.new T.FQCSID [0x01, 127, 0, 0, 1, 0, 9]) = .ok (.u16s []) := by
  rw [call_new _ _ _ _ _ .csids 1 rfl (by decide) (by decide)]
  rfl

theorem nib (n : UInt8) (hn : n = 0 ∨ n = 1 ∨ n = 2) (c : UInt8) :
    ((((n <<< 4) &&& 0xf0) ||| (c &&& 0x0f)) >>> 4) &&& 0x0f = n := by
  revert c
  refine forall_byte ?_
  rcases hn with rfl | rfl | rfl <;> decide +kernel

/-- The node address and its kind, if at least one identifier is given and the address has the size of its kind (four
octets for a node that is named otherwise). -/
theorem C55_fqcsid_partial (g : IEType → Bool) (mem : IE → Bytes) (text : Bytes) (ip : Option Bytes) (nid : Bytes) (kind : UInt8)
    (csids : List UInt16) (rest : Bytes) (hc : csids ≠ []) (hsz : 2 * csids.length ≤ 65518)
    (h : (kind = 0 ∧ ip = some (v4Prefix ++ nid) ∧ nid.length = 4) ∨
      (kind = 1 ∧ ip = some nid ∧ nid.length = 16 ∧ ∀ r, nid ≠ v4Prefix ++ r) ∨
      (kind = 2 ∧ ip = none ∧ Text.hexDecode text = .ok nid ∧ nid.length = 4)) (hg : g T.FQCSID = false) :
    ∃ i b, newFQCSID text ip csids = .ok (some i) ∧ i.marshal g = .ok b ∧ parse g (b ++ rest) = .ok i ∧
      Acc.NodeIDType.call g mem i = .ok (.u8 kind) ∧ Acc.NodeAddress.call g mem i = .ok (.bytes nid) := by
  have hk : kind = 0 ∨ kind = 1 ∨ kind = 2 := by
    rcases h with h | h | h
    · exact .inl h.1
    · exact .inr (.inl h.1)
    · exact .inr (.inr h.1)
  have hlen : (csids.flatMap be16).length = 2 * csids.length := by
    clear hc hsz
    induction csids with
    | nil => rfl
    | cons c cs ih =>
      rw [List.flatMap_cons, List.length_append, be16_len, ih, List.length_cons]
      omega
  have hpos : 0 < csids.length := List.length_pos_iff.2 hc
  have hn : nid.length ≤ 16 := by
    rcases h with h | h | h
    · omega
    · omega
    · omega
  let o : UInt8 := ((kind <<< 4) &&& 0xf0) ||| (UInt8.ofNat csids.length &&& 0x0f)
  have ho : (o >>> 4) &&& 0x0f = kind := nib kind hk _
  have hnew : newFQCSID text ip csids = .ok (some (IE.new T.FQCSID (o :: (nid ++ csids.flatMap be16)))) := by
    unfold newFQCSID
    rcases h with ⟨rfl, rfl, ha⟩ | ⟨rfl, rfl, ha, hr⟩ | ⟨rfl, rfl, hd, -⟩
    · have e : to4 (v4Prefix ++ nid) = nid := by
        unfold to4
        rw [if_neg (by simp [v4Prefix]), if_pos ⟨by simp [v4Prefix, ha], rfl⟩]
        rfl
      dsimp only
      rw [e, if_pos (by intro h; rw [h] at ha; cases ha)]
    · have e : to4 nid = [] := by
        unfold to4
        rw [if_neg (by omega), if_neg]
        rintro ⟨-, hp⟩
        exact hr (nid.drop 12) (by rw [← hp, List.take_append_drop])
      dsimp only
      rw [e, if_neg (by simp)]
    · dsimp only
      rw [hd]
  obtain ⟨b, h1, h2⟩ := new_wire g T.FQCSID (o :: (nid ++ csids.flatMap be16)) rest hg (by decide)
    (by simp only [List.length_cons, List.length_append, hlen]; omega)
  refine ⟨_, b, hnew, h1, h2, ?_, ?_⟩
  · rw [call_new g mem _ _ _ .nodeIDType 1 rfl (by decide) (by simp)]
    show Res.ok (Val.u8 ((o >>> 4) &&& 0x0f)) = _
    rw [ho]
  · rw [call_new g mem _ _ _ .nodeAddress 1 rfl (by decide) (by simp)]
    simp only [Leaf.run]
    have key : nodeAddressOf ⟨o :: (nid ++ csids.flatMap be16), mem (IE.new T.FQCSID (o :: (nid ++ csids.flatMap be16)))⟩ = .ok nid := by
      unfold nodeAddressOf
      have e0 : ∀ sp, Slice.idx ⟨o :: (nid ++ csids.flatMap be16), sp⟩ 0 = .ok o := fun _ => rfl
      rw [e0]
      simp only [Res.ok_bind, ho]
      have hl : ∀ sp, Slice.len ⟨o :: (nid ++ csids.flatMap be16), sp⟩ = 1 + (nid.length + 2 * csids.length) := by
        intro sp
        simp only [Slice.len, List.length_cons, List.length_append, hlen]
        omega
      rw [hl]
      rcases h with ⟨rfl, -, ha⟩ | ⟨rfl, -, ha, -⟩ | ⟨rfl, -, -, ha⟩
      · rw [if_pos (by decide), if_neg (by omega),
          show Slice.sub ⟨o :: (nid ++ csids.flatMap be16), _⟩ 1 5 = _ from sub_mid [o] nid (csids.flatMap be16) _ 1 5 rfl (by omega)]
        rfl
      · rw [if_neg (by decide), if_pos rfl, if_neg (by omega),
          show Slice.sub ⟨o :: (nid ++ csids.flatMap be16), _⟩ 1 17 = _ from sub_mid [o] nid (csids.flatMap be16) _ 1 17 rfl (by omega)]
        rfl
      · rw [if_pos (by decide), if_neg (by omega),
          show Slice.sub ⟨o :: (nid ++ csids.flatMap be16), _⟩ 1 5 = _ from sub_mid [o] nid (csids.flatMap be16) _ 1 5 rfl (by omega)]
        rfl
    show (nodeAddressOf ⟨o :: (nid ++ csids.flatMap be16), _⟩ >>= fun v => Res.ok (Val.bytes v)) = _
    rw [key]
    rfl

example : some (v4Prefix ++ [127, 0, 0, 1]) = some (v4Prefix ++ ([127, 0, 0, 1] : Bytes)) ∧ ([1] : List UInt16) ≠ [] := by decide

/-- Without an identifier, the address is sent but cannot be read. -/
theorem C55_fqcsid_violated (g : IEType → Bool) (mem : IE → Bytes) (text a : Bytes) (ha : a.length = 4) :
    ∃ i, newFQCSID text (some (v4Prefix ++ a)) [] = .ok (some i) ∧ i.payload = 0 :: a ∧
      Acc.NodeAddress.call g mem i = .err .unexpectedEOF := by
  have e : to4 (v4Prefix ++ a) = a := by
    unfold to4
    rw [if_neg (by simp [v4Prefix]), if_pos ⟨by simp [v4Prefix, ha], rfl⟩]
    rfl
  refine ⟨IE.new T.FQCSID (0 :: a), ?_, rfl, ?_⟩
  · unfold newFQCSID
    dsimp only
    rw [e, if_pos (by intro h; rw [h] at ha; cases ha), List.flatMap_nil, List.append_nil]
    rfl
  · rw [call_new g mem _ _ _ .nodeAddress 1 rfl (by decide) (by simp)]
    show (nodeAddressOf ⟨0 :: a, _⟩ >>= fun v => Res.ok (Val.bytes v)) = _
    unfold nodeAddressOf
    have e0 : ∀ sp, Slice.idx ⟨0 :: a, sp⟩ 0 = .ok 0 := fun _ => rfl
    rw [e0]
    simp only [Res.ok_bind]
    rw [if_pos (by decide), if_pos (by simp only [Slice.len, List.length_cons]; omega)]
    rfl

example : ([127, 0, 0, 1] : Bytes).length = 4 := by decide

/-! ## C56: the n-th F-TEID -/

/-- The F-TEIDs among children, in order. -/
def fteids (cs : List IE) : List IE := cs.filter (fun x => x.typ = T.FTEID)

theorem localLoop_eq (g : IEType → Bool) (mem : IE → Bytes) (n : Nat) : ∀ (cs : List IE) (c : Nat), c < n →
    localLoop g mem n cs c = match (fteids cs)[n - c - 1]? with
      | some x => asFTEID (Acc.FTEID.call g mem x)
      | none => .err .ieNotFound
  | [], c, h => by
    unfold localLoop fteids
    simp
  | x :: xs, c, h => by
    unfold localLoop
    by_cases hx : x.typ = T.FTEID
    · rw [if_pos hx]
      have e : fteids (x :: xs) = x :: fteids xs := by
        unfold fteids
        rw [List.filter_cons_of_pos (by simpa using hx)]
      rw [e]
      by_cases hc : c + 1 = n
      · rw [if_pos (by omega), show n - c - 1 = 0 by omega]
        rfl
      · rw [if_neg (by omega)]
        have := localLoop_eq g mem n xs (c + 1) (by omega)
        rw [show ((c : Int) + 1) = ((c + 1 : Nat) : Int) by omega, this,
          show n - c - 1 = (n - (c + 1) - 1) + 1 by omega, List.getElem?_cons_succ]
    · rw [if_neg hx]
      have e : fteids (x :: xs) = fteids xs := by
        unfold fteids
        rw [List.filter_cons_of_neg (by simpa using hx)]
      rw [e]
      exact localLoop_eq g mem n xs c h

/-- `LocalFTEIDN(n)` on a created traffic endpoint made of any children: the value of the n-th F-TEID among them counted
from 1, and "not found" if there are fewer or `n` is not positive. -/
theorem C56_nth (g : IEType → Bool) (mem : IE → Bytes) (i : IE) (cs : List IE) (n : Int) (ht : i.typ = T.CreatedTrafficEndpoint)
    (hcs : Acc.CreatedTrafficEndpoint.call g mem i = .ok (.ies cs)) :
    localFTEIDN g mem n i =
      if n < 1 then .err .ieNotFound
      else match (fteids cs)[n.toNat - 1]? with
        | some x => asFTEID (Acc.FTEID.call g mem x)
        | none => .err .ieNotFound := by
  unfold localFTEIDN
  rw [if_pos ht]
  split
  · rfl
  · rename_i h
    rw [hcs]
    show localLoop g mem n cs 0 = _
    have := localLoop_eq g mem n.toNat cs 0 (by omega)
    rw [show ((n.toNat : Nat) : Int) = n by omega, Nat.sub_zero] at this
    exact this

/-- On elements of any other type, it reports the type. -/
theorem C56_foreign (g : IEType → Bool) (mem : IE → Bytes) (i : IE) (n : Int) (ht : i.typ ≠ T.CreatedTrafficEndpoint) (hn : 1 ≤ n) :
    localFTEIDN g mem n i = .err (.invalidTypeError i.typ) := by
  unfold localFTEIDN
  rw [if_neg (by omega), if_neg ht]

/-- Together: what is put into a created traffic endpoint is found after the wire, in its position. -/
theorem C56_found (g : IEType → Bool) (mem : IE → Bytes) (cs : List (Option IE)) (rest : Bytes) (n : Nat) (x : IE)
    (hg : g T.CreatedTrafficEndpoint = true) (hwf : ∀ x ∈ cs.filterMap id, x.WF g)
    (hsz : (encList g (cs.filterMap id)).length ≤ 65535) (hx : (fteids (cs.filterMap id))[n]? = some x) :
    ∃ i b, GroupCtor.NewCreatedTrafficEndpoint.build g cs = .ok (some i) ∧ i.marshal g = .ok b ∧ parse g (b ++ rest) = .ok i ∧
      localFTEIDN g mem (n + 1) i = asFTEID (Acc.FTEID.call g mem x) := by
  obtain ⟨i, b, h1, h2, h3, h4, -, -⟩ := C54_children g mem .NewCreatedTrafficEndpoint cs rest hg hwf hsz
  have ht : i.typ = T.CreatedTrafficEndpoint := by
    have hi := newGrouped_eq g GroupCtor.NewCreatedTrafficEndpoint.def cs (C54_default .NewCreatedTrafficEndpoint).2
    have : GroupCtor.NewCreatedTrafficEndpoint.build g cs = newGrouped g GroupCtor.NewCreatedTrafficEndpoint.def 0 cs := rfl
    rw [this, hi] at h1
    cases h1
    rfl
  refine ⟨i, b, h1, h2, h3, ?_⟩
  rw [C56_nth g mem i _ _ ht h4, if_neg (by omega), show ((n : Int) + 1).toNat - 1 = n by omega, hx]

example : (fteids ([some (IE.new T.FTEID [1, 0, 0, 0, 1, 127, 0, 0, 1]), none, some (IE.new T.FTEID [1, 0, 0, 0, 2, 127, 0, 0, 1])].filterMap
    id))[1]? = some (IE.new T.FTEID [1, 0, 0, 0, 2, 127, 0, 0, 1]) := by rfl

/-! ## C57: names of network instances -/

theorem network_instance_raw (g : IEType → Bool) (mem : IE → Bytes) (p : Bytes) (hg : g T.NetworkInstance = false) :
    asBytes (Acc.NetworkInstance.call g mem (IE.new T.NetworkInstance p)) = .ok p := by
  rw [call_new g mem _ _ _ .str 0 rfl (by decide) (by simp)]
  simp only [Leaf.run]
  unfold IE.valueAsString
  rw [show g (IE.new T.NetworkInstance p).typ = false from hg]
  rfl

/-- A network instance made of a domain name: `NetworkInstanceFQDN` and `NetworkInstanceHeuristic` return the name after
the wire. -/
theorem C57_name (g : IEType → Bool) (mem : IE → Bytes) (f : SecondsConv) (ls : List Bytes) (rest : Bytes) (hls : ls ≠ [])
    (h : ∀ l ∈ ls, l.length < 256 ∧ (46 : UInt8) ∉ l) (hne : dotted ls ≠ []) (hsz : (dotted ls).length < 65535)
    (hg : g T.NetworkInstance = false) :
    ∃ i b, IECtor.NewNetworkInstanceFQDN.build f (.bytes (dotted ls)) = some i ∧
      i.marshal g = .ok b ∧ parse g (b ++ rest) = .ok i ∧
      networkInstanceFQDN g mem i = .ok (dotted ls) ∧ networkInstanceHeuristic g mem i = .ok (dotted ls) := by
  have hw := wireName_length ls hls
  obtain ⟨b, h1, h2⟩ := new_wire g T.NetworkInstance (wireName ls) rest hg (by decide) (by omega)
  have key : networkInstanceFQDN g mem (IE.new T.NetworkInstance (wireName ls)) = .ok (dotted ls) := by
    unfold networkInstanceFQDN
    rw [network_instance_raw g mem _ hg]
    exact Text.C33_decode ls fun l hl => (h l hl).1
  refine ⟨_, b, ?_, h1, h2, key, ?_⟩
  · show (match Text.encodeFQDN (dotted ls) with | .ok b => some b | _ => none).map (IE.new T.NetworkInstance) = _
    rw [Text.C33_layout ls hls fun l hl => (h l hl).2]
    rfl
  · unfold networkInstanceHeuristic
    rw [key]
    show (if dotted ls ≠ [] then _ else _) = _
    rw [if_pos hne]

/-- For instance `a.bc`. -/
example : dotted [[97], [98, 99]] ≠ [] ∧ ∀ l ∈ ([[97], [98, 99]] : List Bytes), l.length < 256 ∧ (46 : UInt8) ∉ l := by decide

/-- A network instance made of plain text: `NetworkInstance` returns the text, and `NetworkInstanceHeuristic` does if the
code of the first character is at least the length of the text (for instance any text of at most 97 octets that begins
with a lower-case letter). -/
theorem C57_text_partial (g : IEType → Bool) (mem : IE → Bytes) (f : SecondsConv) (c : UInt8) (s rest : Bytes)
    (h : s.length < c.toNat) (hg : g T.NetworkInstance = false) :
    ∃ i b, IECtor.NewNetworkInstance.build f (.bytes (c :: s)) = some i ∧
      i.marshal g = .ok b ∧ parse g (b ++ rest) = .ok i ∧
      Acc.NetworkInstance.call g mem i = .ok (.bytes (c :: s)) ∧ networkInstanceHeuristic g mem i = .ok (c :: s) := by
  have hc : c.toNat < 256 := c.toNat_lt
  obtain ⟨b, h1, h2⟩ := new_wire g T.NetworkInstance (c :: s) rest hg (by decide) (by simp only [List.length_cons]; omega)
  refine ⟨IE.new T.NetworkInstance (c :: s), b, rfl, h1, h2, ?_, ?_⟩
  · rw [call_new g mem _ _ _ .str 0 rfl (by decide) (by simp)]
    simp only [Leaf.run]
    unfold IE.valueAsString
    rw [show g (IE.new T.NetworkInstance (c :: s)).typ = false from hg]
    rfl
  · unfold networkInstanceHeuristic networkInstanceFQDN
    rw [network_instance_raw g mem _ hg]
    have : Text.decodeFQDN (c :: s) = .ok [] := by
      unfold Text.decodeFQDN Text.decodeLabels
      rw [if_neg (by simp)]
      have e0 : index (c :: s) 0 = .ok c := rfl
      rw [e0]
      simp only [Res.ok_bind]
      rw [if_pos (by simp only [List.length_cons]; omega)]
      rfl
    show (Text.decodeFQDN (c :: s) >>= fun v => if v ≠ [] then _ else Res.ok (c :: s)) = _
    rw [this]
    rfl

example : ([105, 110, 116, 101, 114, 110, 101, 116] : Bytes).length < (105 : UInt8).toNat := by decide

/-- Other text is mistaken for a name: a digit and 48 letters, which is also a label of 48 octets, loses its first
character. -/
theorem C57_heuristic_violated (g : IEType → Bool) (mem : IE → Bytes) (f : SecondsConv) (hg : g T.NetworkInstance = false) :
    ∃ i, IECtor.NewNetworkInstance.build f (.bytes (48 :: List.replicate 48 97)) = some i ∧
      networkInstanceHeuristic g mem i = .ok (List.replicate 48 97) := by
  refine ⟨_, rfl, ?_⟩
  unfold networkInstanceHeuristic networkInstanceFQDN
  show (asBytes (Acc.NetworkInstance.call g mem (IE.new T.NetworkInstance (48 :: List.replicate 48 97))) >>= _) >>= _ = _
  rw [network_instance_raw g mem _ hg]
  show (Text.decodeFQDN (48 :: List.replicate 48 97) >>= _) = _
  rw [show Text.decodeFQDN (48 :: List.replicate 48 97) = .ok (List.replicate 48 97) by decide +kernel]
  rfl

/-- In forwarding parameters the name is not found: what is decoded as a name is the payload of the parent element, not of
the network instance in it. -/
theorem C57_grouped_violated : ∃ i v, newGrouped (defaultGroupedTypes.contains ·) T.ForwardingParameters 0
      [some (IE.new T.NetworkInstance [3, 97, 98, 99])] = .ok (some i) ∧
    Acc.NetworkInstance.call (defaultGroupedTypes.contains ·) (fun _ => []) i = .ok (.bytes [3, 97, 98, 99]) ∧
    networkInstanceFQDN (defaultGroupedTypes.contains ·) (fun _ => []) i = .ok v ∧ v = [] :=
  ⟨_, _, rfl, by rfl, by rfl, by rfl⟩

/-- `MustAPNDNN` returns the name, or nothing if there is none. -/
theorem C57_must_apn (g : IEType → Bool) (mem : IE → Bytes) (ls : List Bytes) (f : SecondsConv) (rest : Bytes) (hls : ls ≠ [])
    (h : ∀ l ∈ ls, l.length < 256 ∧ (46 : UInt8) ∉ l) (hsz : (dotted ls).length < 65535) (hg : g T.APNDNN = false) :
    ∃ i b, IECtor.NewAPNDNN.build f (.bytes (dotted ls)) = some i ∧ i.marshal g = .ok b ∧ parse g (b ++ rest) = .ok i ∧
      mustAPNDNN g mem i = .ok (dotted ls) := by
  obtain ⟨i, b, h1, h2, h3, h4⟩ := C29_domain g mem f .NewAPNDNN ls rest (by decide) (by decide) hg hls h hsz
  refine ⟨i, b, h1, h2, h3, ?_⟩
  unfold mustAPNDNN
  rw [show Acc.APNDNN.call g mem i = .ok (.bytes (dotted ls)) from h4]
  rfl

theorem C57_must_apn_foreign (g : IEType → Bool) (mem : IE → Bytes) (i : IE) (ht : i.typ ≠ T.APNDNN) :
    mustAPNDNN g mem i = .ok [] := by
  unfold mustAPNDNN
  have h1 : Acc.APNDNN.table.cases.lookup i.typ = none := by
    show List.lookup i.typ [(T.APNDNN, Body.leaf .fqdn)] = none
    rw [List.lookup_cons]
    rw [show (i.typ == T.APNDNN) = false by simpa using ht]
    rfl
  rw [call_eq, h1, if_neg (by show ¬ i.payload.length < 0; omega)]
  rfl

example : (IE.new T.Cause [1]).typ ≠ T.APNDNN := by decide

/-! ## The remaining values -/

/-- The number of bits of the TEID range, and zero for other elements. -/
theorem C55_teidri (mem : IE → Bytes) (b : UInt8) (s : Bytes) :
    teidri mem (IE.new T.UserPlaneIPResourceInformation (b :: s)) = .ok ((b >>> 2) &&& 0x07) := rfl

theorem C55_teidri_foreign (mem : IE → Bytes) (i : IE) (ht : i.typ ≠ T.UserPlaneIPResourceInformation) : teidri mem i = .ok 0 :=
  if_pos ht

/-- An element without payload, which the decoder accepts, makes `TEIDRI` panic. -/
theorem C55_teidri_panics (g : IEType → Bool) (mem : IE → Bytes) (hg : g T.UserPlaneIPResourceInformation = false) :
    ∃ i, parse g [0, 116, 0, 0] = .ok i ∧ teidri mem i = .panic := by
  obtain ⟨b, h1, h2⟩ := new_wire g T.UserPlaneIPResourceInformation [] [] hg (by decide) (by simp)
  refine ⟨IE.new T.UserPlaneIPResourceInformation [], ?_, rfl⟩
  rw [marshal_eq] at h1
  cases h1
  rw [List.append_nil, show (IE.new T.UserPlaneIPResourceInformation []).enc g = [0, 116, 0, 0] by
    simp [IE.enc, IE.new, IE.setLength, T.UserPlaneIPResourceInformation, hg]; rfl] at h2
  exact h2

/-- The values that accessors pass on are of the type expected: `asU8` and so on panic only if the accessor does. -/
theorem C55_kinds (g : IEType → Bool) (mem : IE → Bytes) (a : Acc) (i : IE) :
    (a.returns = .uint8 → asU8 (a.call g mem i) = .panic → a.call g mem i = .panic) ∧
    (a.returns = .bytes ∨ a.returns = .string → asBytes (a.call g mem i) = .panic → a.call g mem i = .panic) ∧
    (a.returns = .ies → asIEs (a.call g mem i) = .panic → a.call g mem i = .panic) ∧
    (a.returns = .fteid → asFTEID (a.call g mem i) = .panic → a.call g mem i = .panic) := by
  have key := C38_typed g mem a i
  cases hr : a.call g mem i with
  | panic => simp
  | err e => simp [asU8, asBytes, asIEs, asFTEID]
  | ok v =>
    have hv := key v hr
    refine ⟨?_, ?_, ?_, ?_⟩
    · intro h; rw [h] at hv; cases v <;> first | exact absurd hv Bool.false_ne_true | exact fun hp => absurd hp (by simp [asU8])
    · rintro (h | h) <;> rw [h] at hv <;> cases v <;> first | exact absurd hv Bool.false_ne_true | exact fun hp => absurd hp (by simp [asBytes])
    · intro h; rw [h] at hv; cases v <;> first | exact absurd hv Bool.false_ne_true | exact fun hp => absurd hp (by simp [asIEs])
    · intro h; rw [h] at hv; cases v <;> first | exact absurd hv Bool.false_ne_true | exact fun hp => absurd hp (by simp [asFTEID])

/-- The accessors they are applied to have these types. -/
example : Acc.GateStatus.returns = .uint8 ∧ Acc.AccessAvailabilityInformation.returns = .uint8 ∧ Acc.MBR.returns = .bytes ∧
    Acc.GBR.returns = .bytes ∧ Acc.OuterHeaderRemoval.returns = .bytes ∧ Acc.SNSSAI.returns = .bytes ∧
    Acc.ForwardingPolicy.returns = .bytes ∧ Acc.UEIPAddressPoolIdentity.returns = .bytes ∧
    Acc.NetworkInstance.returns = .string ∧ Acc.APNDNN.returns = .string ∧ Acc.CreatedTrafficEndpoint.returns = .ies ∧
    Acc.FTEID.returns = .fteid := by decide

end Pfcp
