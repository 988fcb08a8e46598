/-
C41 exactly: for the decoders of structured elements that can panic, the inputs on which they do.
-/
import Verif.Fields.Props2
import Verif.Fields.Props3
import Verif.Fields.Props4

namespace Pfcp

namespace P

variable {α β : Type}

/-- `p` advances by `n` bytes if there are that many, and otherwise stops with an error. -/
def Moves (p : P α) (n : Nat) : Prop :=
  ∀ s o, o ≤ s.data.length → (s.data.length < o + n ∧ ∃ e, p s o = .err e) ∨
    (o + n ≤ s.data.length ∧ ∃ v, p s o = .ok (v, o + n))

theorem Moves.need (n : Nat) (s : Slice) (o : Nat) : (s.data.length < o + n ∧ P.need n s o = .err .unexpectedEOF) ∨
    (o + n ≤ s.data.length ∧ P.need n s o = .ok ((), o)) := by
  unfold P.need
  split
  · exact .inl ⟨‹_›, rfl⟩
  · exact .inr ⟨by omega, rfl⟩

theorem Moves.bytes (n : Nat) (s : Slice) (o : Nat) (h : o + n ≤ s.data.length) :
    P.bytes n s o = .ok ((s.data.drop o).take n, o + n) := by
  obtain ⟨d, sp⟩ := s
  unfold P.bytes
  rw [P.sub_data _ _ _ _ (by omega) h]
  simp only [Res.ok_bind]
  rw [List.drop_take, Nat.add_sub_cancel_left]

theorem Moves.field (n : Nat) : Moves (P.field n) n := by
  intro s o ho
  unfold P.field
  rcases Moves.need n s o with ⟨h, e⟩ | ⟨h, e⟩
  · exact .inl ⟨h, _, P.bind_err e⟩
  · exact .inr ⟨h, _, by rw [P.bind_ok e, Moves.bytes n s o h]⟩

theorem Moves.map {p : P α} {n : Nat} (h : Moves p n) (f : α → β) : Moves (p >>= fun x => Pure.pure (f x)) n := by
  intro s o ho
  rcases h s o ho with ⟨h, e, he⟩ | ⟨h, v, he⟩
  · exact .inl ⟨h, e, P.bind_err he⟩
  · exact .inr ⟨h, f v, by rw [P.bind_ok he]; rfl⟩

theorem Moves.ip (n : Nat) : Moves (P.ip n) n := Moves.map (Moves.field n) some
theorem Moves.f16 : Moves P.f16 2 := Moves.map (Moves.field 2) dec16
theorem Moves.f32 : Moves P.f32 4 := Moves.map (Moves.field 4) dec32

theorem u8_at (s : Slice) (o : Nat) (h : o < s.data.length) : P.u8 s o = .ok (s.data[o], o + 1) := by
  unfold P.u8 Slice.idx
  rw [List.getElem?_eq_getElem h]
  rfl

theorem u8_end (s : Slice) (o : Nat) (h : s.data.length ≤ o) : P.u8 s o = .panic := by
  unfold P.u8 Slice.idx
  rw [List.getElem?_eq_none h]
  rfl

theorem Moves.byte : Moves P.byte 1 := by
  intro s o ho
  unfold P.byte
  rcases Moves.need 1 s o with ⟨h, e⟩ | ⟨h, e⟩
  · exact .inl ⟨h, _, P.bind_err e⟩
  · exact .inr ⟨h, _, by rw [P.bind_ok e, u8_at s o (by omega)]⟩

theorem Moves.opt {p : P α} {n : Nat} (h : Moves p n) (c : Bool) (d : α) :
    Moves (P.opt c p d) (if c then n else 0) := by
  intro s o ho
  cases c
  · exact .inr ⟨by simpa using ho, d, rfl⟩
  · exact h s o ho

/-- A panic behind a field that cannot panic. -/
theorem Moves.bind_panic {p : P α} {f : α → P β} {n : Nat} (hp : Moves p n) {s : Slice} {o : Nat}
    (ho : o ≤ s.data.length) {Q : Prop} (hq : ∀ v, o + n ≤ s.data.length → (f v s (o + n) = .panic ↔ Q)) :
    (p >>= f) s o = .panic ↔ o + n ≤ s.data.length ∧ Q := by
  rcases hp s o ho with ⟨h, e, he⟩ | ⟨h, v, he⟩
  · rw [P.bind_err he]
    constructor
    · intro h; cases h
    · rintro ⟨h', _⟩; omega
  · rw [P.bind_ok he, hq v h]
    exact ⟨fun q => ⟨h, q⟩, fun q => q.2⟩

theorem bind_pure_panic {p : P α} {f : α → β} {s : Slice} {o : Nat} :
    (p >>= fun x => Pure.pure (f x)) s o = .panic ↔ p s o = .panic := by
  show P.bind p _ s o = _ ↔ _
  unfold P.bind
  cases p s o with
  | ok a => exact ⟨fun h => (nomatch h), fun h => (nomatch h)⟩
  | err e => exact ⟨fun h => (nomatch h), fun h => (nomatch h)⟩
  | panic => exact ⟨fun _ => rfl, fun _ => rfl⟩

theorem run_panic {p : P α} {s : Slice} : p.run s = .panic ↔ p s 0 = .panic := by
  unfold P.run
  cases p s 0 with
  | ok a => exact ⟨fun h => (nomatch h), fun h => (nomatch h)⟩
  | err e => exact ⟨fun h => (nomatch h), fun h => (nomatch h)⟩
  | panic => exact ⟨fun _ => rfl, fun _ => rfl⟩

theorem run_minLen_panic {n : Nat} {f : Unit → P β} {s : Slice} :
    (P.minLen n >>= f).run s = .panic ↔ n ≤ s.data.length ∧ f () s 0 = .panic := by
  by_cases h : n ≤ s.data.length
  · rw [P.run_minLen_eq h, run_panic]
    exact ⟨fun q => ⟨h, q⟩, fun q => q.2⟩
  · rw [P.run_minLen_err (by omega)]
    exact ⟨fun h => (nomatch h), fun q => absurd q.1 h⟩

end P

namespace Fields

/-- C41, exact for SourceIPAddress: it panics precisely when a mask prefix length is announced and the bytes end where
it should be. -/
theorem C41_SourceIPAddress_exact (s : Slice) : SourceIPAddress.codec.parse s = .panic ↔
    ∃ f rest, s.data = f :: rest ∧ rest ≠ [] ∧ bit f 2 = true ∧
      rest.length = (if bit f 1 then 4 else 0) + (if bit f 0 then 16 else 0) := by
  obtain ⟨d, sp⟩ := s
  show (P.minLen 2 >>= _).run _ = _ ↔ _
  rw [P.run_minLen_panic]
  match d with
  | [] => simp
  | f :: rest =>
    rw [P.bind_ok (a := f) (o' := 1) rfl]
    rw [(P.Moves.opt (P.Moves.ip 4) (SourceIPAddress.hasIPv4 f) none).bind_panic (by simp)
      (fun v4 h4 => (P.Moves.opt (P.Moves.ip 16) (SourceIPAddress.hasIPv6 f) none).bind_panic h4
      (Q := SourceIPAddress.hasMPL f = true ∧ (f :: rest).length = 1 + (if SourceIPAddress.hasIPv4 f then 4 else 0) +
        (if SourceIPAddress.hasIPv6 f then 16 else 0)) (fun v6 h6 => ?_))]
    · simp only [SourceIPAddress.hasIPv4, SourceIPAddress.hasIPv6, SourceIPAddress.hasMPL, has1stBit_eq, has2ndBit_eq,
        has3rdBit_eq, List.length_cons]
      constructor
      · rintro ⟨h2, _, _, hm, he⟩
        refine ⟨f, rest, rfl, ?_, hm, by omega⟩
        rintro rfl
        simp at h2
      · rintro ⟨f', rest', h, hne, hm, he⟩
        cases h
        have : rest.length ≠ 0 := by simpa using hne
        refine ⟨by omega, by omega, by omega, hm, by omega⟩
    · rw [P.bind_pure_panic]
      simp only at h6
      unfold P.opt
      cases hm : SourceIPAddress.hasMPL f
      · constructor
        · intro h; cases h
        · rintro ⟨h, _⟩; cases h
      · rw [if_pos rfl]
        rw [P.bind_ok (a := ()) (by unfold P.need; exact if_neg (by simpa using h6))]
        by_cases he : (f :: rest).length = 1 + (if SourceIPAddress.hasIPv4 f then 4 else 0) +
          (if SourceIPAddress.hasIPv6 f then 16 else 0)
        · rw [P.u8_end _ _ (by simp only; omega)]
          simp [he]
        · rw [P.u8_at _ _ (by simp only; omega)]
          constructor
          · intro h; cases h
          · rintro ⟨_, h⟩; exact absurd h he

example : SourceIPAddress.codec.parse ⟨[6, 192, 0, 2, 1, 24], []⟩ ≠ .panic := by decide

/-- A decoder that does not panic by itself, behind one that stops, advances or panics. -/
theorem bind_good_panic {α β : Type} {p : P α} {f : α → P β} {s : Slice} {o : Nat}
    (h : ∀ a o', p s o = .ok (a, o') → f a s o' ≠ .panic) : (p >>= f) s o = .panic ↔ p s o = .panic := by
  show P.bind p f s o = _ ↔ _
  unfold P.bind
  cases hp : p s o with
  | ok a => exact ⟨fun h' => absurd h' (h a.1 a.2 hp), fun h => (nomatch h)⟩
  | err e => exact ⟨fun h => (nomatch h), fun h => (nomatch h)⟩
  | panic => exact ⟨fun _ => rfl, fun _ => rfl⟩

theorem good_not_panic {α : Type} {p : P α} {m : Nat} (h : P.Good 0 p m) {s : Slice} {o : Nat} (ho : o ≤ s.data.length) :
    p s o ≠ .panic := (h s.data s.spare o (by omega)).1

theorem f16_at (s : Slice) (o : Nat) (h : o + 2 ≤ s.data.length) :
    P.f16 s o = .ok (dec16 ((s.data.drop o).take 2), o + 2) := by
  unfold P.f16 P.field
  rcases P.Moves.need 2 s o with ⟨h', _⟩ | ⟨_, e⟩
  · omega
  · rw [P.bind_ok (a := (s.data.drop o).take 2) (o' := o + 2) (by rw [P.bind_ok e, P.Moves.bytes 2 s o h])]
    rfl

theorem dec16_zero (w : Bytes) (h : w.length = 2) : (dec16 w).toNat = 0 ↔ w = [0, 0] := by
  constructor
  · intro h0
    have := be16_dec16 w h
    rw [show dec16 w = 0 from UInt16.toNat_inj.1 (by simpa using h0)] at this
    exact this.symm
  · rintro rfl; decide

theorem parseDI_panic (s : Slice) (o : Nat) (ho : o ≤ s.data.length) :
    RemoteGTPUPeer.parseDI s o = .panic ↔ s.data.drop o = [0, 0] := by
  unfold RemoteGTPUPeer.parseDI
  by_cases h2 : o + 2 ≤ s.data.length
  · rw [P.bind_ok (f16_at s o h2)]
    generalize hn : (dec16 ((s.data.drop o).take 2)).toNat = n
    rcases P.Moves.need n s (o + 2) with ⟨h, e⟩ | ⟨h, e⟩
    · rw [P.bind_err e]
      constructor
      · intro h; cases h
      · intro hd
        rw [hd] at hn
        have h0 : n = 0 := by rw [← hn]; decide
        omega
    · rw [P.bind_ok e]
      rw [bind_good_panic (by intro a o' _ h'; cases h')]
      unfold P.peek Slice.idx
      by_cases hl : s.data.length = o + 2
      · rw [List.getElem?_eq_none (by omega)]
        simp only [Res.panic_bind, true_iff]
        have hdl : (s.data.drop o).length = 2 := by simp; omega
        rw [List.take_of_length_le (by omega)] at hn
        exact (dec16_zero _ hdl).1 (by omega)
      · rw [List.getElem?_eq_getElem (by omega)]
        constructor
        · intro h; cases h
        · intro hd
          have := congrArg List.length hd
          simp at this
          omega
  · rw [P.bind_err (e := .unexpectedEOF) ?_]
    · constructor
      · intro h; cases h
      · intro hd
        have := congrArg List.length hd
        simp at this
        omega
    · unfold P.f16 P.field
      apply P.bind_err
      apply P.bind_err
      unfold P.need
      exact if_pos (by omega)

theorem parseDI_le {s : Slice} {o o' : Nat} {v : UInt16 × UInt8} (h : RemoteGTPUPeer.parseDI s o = .ok (v, o')) :
    o' ≤ s.data.length := by
  unfold RemoteGTPUPeer.parseDI at h
  by_cases h2 : o + 2 ≤ s.data.length
  · rw [P.bind_ok (f16_at s o h2)] at h
    rcases P.Moves.need (dec16 ((s.data.drop o).take 2)).toNat s (o + 2) with ⟨_, e⟩ | ⟨hn, e⟩
    · rw [P.bind_err e] at h; cases h
    · rw [P.bind_ok e] at h
      cases hp : P.peek 0 s (o + 2) with
      | err e => rw [P.bind_err hp] at h; cases h
      | panic => rw [P.bind_panic hp] at h; cases h
      | ok r =>
        rw [P.bind_ok (a := r.1) (o' := r.2) hp] at h
        have hr : r.2 = o + 2 := by
          unfold P.peek at hp
          obtain ⟨x, _, hx⟩ := Res.bind_eq_ok.1 hp
          cases hx; rfl
        cases h
        omega
  · rw [P.bind_err (e := .unexpectedEOF) ?_] at h
    · cases h
    · unfold P.f16 P.field
      apply P.bind_err
      apply P.bind_err
      unfold P.need
      exact if_pos (by omega)

/-- C41, exact for RemoteGTPUPeer: it panics precisely when a destination interface of length 0 ends the element. -/
theorem C41_RemoteGTPUPeer_exact (s : Slice) : RemoteGTPUPeer.codec.parse s = .panic ↔
    ∃ f mid, s.data = f :: (mid ++ [0, 0]) ∧ bit f 2 = true ∧
      mid.length = (if bit f 1 then 4 else 0) + (if bit f 0 then 16 else 0) := by
  obtain ⟨d, sp⟩ := s
  show (P.minLen 2 >>= _).run _ = _ ↔ _
  rw [P.run_minLen_panic]
  match d with
  | [] => simp
  | f :: rest =>
    rw [P.bind_ok (a := f) (o' := 1) rfl]
    rw [(P.Moves.opt (P.Moves.ip 4) (has2ndBit f) none).bind_panic (by simp)
      (fun v4 h4 => (P.Moves.opt (P.Moves.ip 16) (has1stBit f) none).bind_panic h4
      (Q := has3rdBit f = true ∧ (f :: rest).drop (1 + (if has2ndBit f then 4 else 0) +
        (if has1stBit f then 16 else 0)) = [0, 0]) (fun v6 h6 => ?_))]
    · simp only [has1stBit_eq, has2ndBit_eq, has3rdBit_eq]
      generalize hn : 1 + (if bit f 1 = true then 4 else 0) + (if bit f 0 = true then 16 else 0) = n
      constructor
      · rintro ⟨h2, _, hle, hm, he⟩
        have hn' : n = (n - 1) + 1 := by omega
        rw [hn'] at he
        refine ⟨f, rest.take (n - 1), ?_, hm, ?_⟩
        · rw [List.drop_succ_cons] at he
          conv => lhs; rw [← List.take_append_drop (n - 1) rest, he]
        · simp only [List.length_take, List.length_cons] at hle ⊢; omega
      · rintro ⟨f', mid, h, hm, he⟩
        cases h
        have hn' : n = mid.length + 1 := by omega
        subst hn'
        refine ⟨by simp, by simp; omega, by simp, hm, ?_⟩
        simp
    · cases hd : has3rdBit f
      · simp only [Bool.false_eq_true, false_and, iff_false]
        exact good_not_panic (m := 0) (P.Good.bind (m := 0) (P.Good.pure _ (Nat.le_refl _)) fun di =>
          P.Good.bind (m := 0) (P.Good.opt (P.Good.bind P.Good.f16 fun n => P.Good.bind (P.Good.field _) fun x =>
            P.Good.pure _ (Nat.le_refl _)) (Nat.le_refl _)) fun ni => P.Good.pure _ (Nat.le_refl _)) h6
      · simp only [true_and]
        rw [← parseDI_panic ⟨f :: rest, sp⟩ _ h6]
        exact bind_good_panic (fun di o' ho => good_not_panic (m := 0)
          (P.Good.bind (m := 0) (P.Good.opt (P.Good.bind P.Good.f16 fun n => P.Good.bind (P.Good.field _) fun x =>
            P.Good.pure _ (Nat.le_refl _)) (Nat.le_refl _)) fun ni => P.Good.pure _ (Nat.le_refl _)) (by
              exact parseDI_le ho))

example : RemoteGTPUPeer.codec.parse ⟨[4, 0, 1, 0], []⟩ ≠ .panic := by decide

open UserPlaneIPResourceInformation in
/-- C41, exact for UserPlaneIPResourceInformation: it panics precisely when a source interface is announced, what is
announced before is there, and there is a network instance as well or nothing is left. -/
theorem C41_UserPlaneIPResourceInformation_exact (s : Slice) :
    UserPlaneIPResourceInformation.codec.parse s = .panic ↔
    ∃ f rest, s.data = f :: rest ∧ rest ≠ [] ∧ bit f 6 = true ∧
      ∃ n, n = (if bit f 2 || bit f 3 || bit f 4 then 1 else 0) + (if bit f 0 then 4 else 0) + (if bit f 1 then 16 else 0) ∧
      if bit f 5 then n ≤ rest.length else n = rest.length := by
  have hT := hasTEIDRI_eq
  obtain ⟨d, sp⟩ := s
  show (P.minLen 2 >>= _).run _ = _ ↔ _
  rw [P.run_minLen_panic]
  match d with
  | [] => simp
  | f :: rest =>
    rw [P.bind_ok (a := f) (o' := 1) rfl]
    rw [(P.Moves.opt P.Moves.byte (hasTEIDRI f) 0).bind_panic (by simp)
      (fun tr ht => (P.Moves.opt (P.Moves.ip 4) (has1stBit f) none).bind_panic ht
      (fun v4 h4 => (P.Moves.opt (P.Moves.ip 16) (has2ndBit f) none).bind_panic h4
      (Q := has7thBit f = true ∧ (has6thBit f = true ∨ (f :: rest).length = 1 + (if hasTEIDRI f then 1 else 0) +
        (if has1stBit f then 4 else 0) + (if has2ndBit f then 16 else 0))) (fun v6 h6 => ?_)))]
    · simp only [hT, has1stBit_eq, has2ndBit_eq, has6thBit_eq, has7thBit_eq, List.length_cons]
      have hr : rest ≠ [] ↔ 0 < rest.length := by
        cases rest <;> simp
      constructor
      · rintro ⟨h2, _, _, hle, hm, he⟩
        refine ⟨f, rest, rfl, hr.2 (by omega), hm, _, rfl, ?_⟩
        split
        · omega
        · rename_i h5
          rcases he with he | he
          · exact absurd he h5
          · omega
      · rintro ⟨f', rest', h, hne, hm, n, hn, he⟩
        cases h
        have := hr.1 hne
        split at he
        · rename_i h5
          exact ⟨by omega, by omega, by omega, by omega, hm, .inl h5⟩
        · exact ⟨by omega, by omega, by omega, by omega, hm, .inr (by omega)⟩
    · have ho : 1 + (if hasTEIDRI f then 1 else 0) + (if has1stBit f then 4 else 0) + (if has2ndBit f then 16 else 0) ≤
        (f :: rest).length := h6
      generalize hn : 1 + (if hasTEIDRI f then 1 else 0) + (if has1stBit f then 4 else 0) +
        (if has2ndBit f then 16 else 0) = o at ho ⊢
      have ho1 : 1 ≤ o := by omega
      cases h6b : has6thBit f
      · rw [if_neg (by simp), P.bind_pure_panic]
        unfold P.opt
        cases h7 : has7thBit f
        · simp only [Bool.false_eq_true, if_false, false_and, iff_false]
          intro h; cases h
        · simp only [if_true, Bool.false_eq_true, false_or, true_and]
          rw [P.bind_pure_panic]
          by_cases he : (f :: rest).length = o
          · rw [P.u8_end _ _ (by simp only; omega)]
            simp [he]
          · rw [P.u8_at _ _ (by simp only; omega)]
            constructor
            · intro h; cases h
            · intro h; exact absurd h he
      · rw [if_pos rfl, P.bind_ok (a := (f :: rest).length) (o' := o) rfl]
        cases h7 : has7thBit f
        · simp only [Bool.false_eq_true, false_and, iff_false]
          rw [P.bind_ok (a := (0 : UInt8)) (o' := o) rfl]
          rw [if_neg (by simp), P.bind_err (e := .unexpectedEOF) (by unfold P.need; exact if_pos (by simp; omega))]
          intro h; cases h
        · simp only [true_and, true_or, iff_true]
          apply P.bind_panic
          unfold P.opt
          rw [if_pos rfl, P.bind_pure_panic]
          unfold at_ Slice.idx
          rw [List.getElem?_eq_none (by simp)]
          rfl

example : UserPlaneIPResourceInformation.codec.parse ⟨[0x41, 192, 0, 2, 1, 3], []⟩ ≠ .panic := by decide

open OuterHeaderCreation in
theorem parseTag_panic (s : Slice) (o : Nat) : parseTag s o = .panic ↔ o + 3 ≤ s.data.length := by
  unfold parseTag
  rcases P.Moves.need 3 s o with ⟨h, e⟩ | ⟨h, e⟩
  · rw [P.bind_err e]
    constructor
    · intro h; cases h
    · intro h'; omega
  · rw [P.bind_ok e, P.bind_ok (P.Moves.bytes 3 s o h)]
    exact ⟨fun _ => h, fun _ => rfl⟩

open OuterHeaderCreation in
/-- C41, exact for OuterHeaderCreation: it panics precisely when bit 7 or 8 of the second octet is set, what the first
octet announces is there, and three more octets follow. -/
theorem C41_OuterHeaderCreation_exact (s : Slice) : OuterHeaderCreation.codec.parse s = .panic ↔
    ∃ x b rest, s.data = x :: b :: rest ∧ (bit b 6 = true ∨ bit b 7 = true) ∧
      (if bit x 0 || bit x 1 then 4 else 0) + (if bit x 0 || bit x 2 || bit x 4 then 4 else 0) +
      (if bit x 1 || bit x 3 || bit x 5 then 16 else 0) + (if bit x 2 || bit x 3 then 2 else 0) + 3 ≤ rest.length := by
  obtain ⟨d, sp⟩ := s
  match d with
  | [] =>
    constructor
    · intro h; cases h
    · rintro ⟨_, _, _, h, _⟩; cases h
  | [x] =>
    constructor
    · intro h; cases h
    · rintro ⟨_, _, _, h, _⟩; cases h
  | x :: b :: rest =>
    show (P.minLen 2 >>= _).run _ = _ ↔ _
    rw [P.run_minLen_panic]
    have hd : parseDesc ⟨x :: b :: rest, sp⟩ 0 = .ok ((x, dec16 [x, b]), 2) := by
      unfold parseDesc
      rw [P.bind_ok (a := x) (o' := 0) rfl, P.bind_ok (a := dec16 [x, b]) (o' := 2)]
      · rfl
      · unfold P.u16
        rw [P.bind_ok (P.Moves.bytes 2 _ 0 (by simp))]
        rfl
    rw [P.bind_ok hd]
    simp only [(OuterHeaderCreation.octets x b).2]
    have key : ∀ o, o ≤ (x :: b :: rest).length → ∀ (fin : UInt32 → UInt32 → OuterHeaderCreation),
        (P.opt (has7thBit b) parseTag 0 >>= fun ctag => P.opt (has8thBit b) parseTag 0 >>= fun stag =>
          (Pure.pure (fin ctag stag) : P OuterHeaderCreation)) ⟨x :: b :: rest, sp⟩ o = .panic ↔
        (bit b 6 = true ∨ bit b 7 = true) ∧ o + 3 ≤ (x :: b :: rest).length := by
      intro o ho fin
      rw [← has7thBit_eq, ← has8thBit_eq]
      have hq := parseTag_panic ⟨x :: b :: rest, sp⟩ o
      have hne : ∀ r, parseTag ⟨x :: b :: rest, sp⟩ o ≠ .ok r := by
        intro r hr
        unfold parseTag at hr
        rcases P.Moves.need 3 ⟨x :: b :: rest, sp⟩ o with ⟨h, e⟩ | ⟨h, e⟩
        · rw [P.bind_err e] at hr; cases hr
        · rw [P.bind_ok e, P.bind_ok (P.Moves.bytes 3 _ o h)] at hr; cases hr
      cases has7thBit b
      · rw [P.bind_ok (a := (0 : UInt32)) (o' := o) rfl, P.bind_pure_panic]
        cases has8thBit b
        · simp only [Bool.false_eq_true, or_self, false_and, iff_false]
          intro h; cases h
        · simp only [or_true, true_and]
          exact hq
      · simp only [true_or, true_and]
        rw [← hq]
        exact bind_good_panic (fun a o' h => absurd h (hne _))
    rw [(P.Moves.opt P.Moves.f32 (hasTEID x) 0).bind_panic (by simp)
      (fun te ht => (P.Moves.opt (P.Moves.ip 4) (hasIPv4 x) none).bind_panic ht
      (fun v4 h4 => (P.Moves.opt (P.Moves.ip 16) (hasIPv6 x) none).bind_panic h4
      (fun v6 h6 => (P.Moves.opt P.Moves.f16 (hasPort x) 0).bind_panic h6
      (fun po hp => key _ hp _))))]
    simp only [hasTEID, hasIPv4, hasIPv6, hasPort, has1stBit_eq, has2ndBit_eq, has3rdBit_eq, has4thBit_eq, has5thBit_eq,
      has6thBit_eq, List.length_cons]
    constructor
    · rintro ⟨_, _, _, _, _, hb, hl⟩
      exact ⟨x, b, rest, rfl, hb, by omega⟩
    · rintro ⟨x', b', rest', h, hb, hl⟩
      cases h
      exact ⟨by omega, by omega, by omega, by omega, by omega, hb, by omega⟩

example : OuterHeaderCreation.codec.parse ⟨[1, 0, 0, 0, 0, 1, 192, 0, 2, 1], []⟩ ≠ .panic := by decide

open SDFFilter in
theorem tail_panic (flags : UInt8) (fd : UInt16 × Bytes) (s : Slice) (o : Nat) :
    SDFFilter.parseTail flags fd s o = .panic ↔
      s.data.length < o ∧ (bit flags 1 = true ∨ bit flags 2 = true ∨ bit flags 3 = true ∨ bit flags 4 = true) := by
  by_cases ho : o ≤ s.data.length
  · constructor
    · intro h; exact absurd h (good_not_panic (SDFFilter.good_tail flags fd) ho)
    · rintro ⟨h, _⟩; omega
  · have hl : ∀ n, P.left n s o = .panic := by
      intro n
      unfold P.left Slice.subFrom Slice.sub
      rw [if_neg (by unfold Slice.len; omega)]
      rfl
    have hN : ∀ n, parseN n s o = .panic := fun n => P.bind_panic (hl n)
    unfold SDFFilter.parseTail
    simp only [hasTTC, hasSPI, hasFL, hasBID, has2ndBit_eq, has3rdBit_eq, has4thBit_eq, has5thBit_eq]
    cases h1 : bit flags 1
    · rw [P.bind_ok (a := []) (o' := o) rfl]
      cases h2 : bit flags 2
      · rw [P.bind_ok (a := []) (o' := o) rfl]
        cases h3 : bit flags 3
        · rw [P.bind_ok (a := []) (o' := o) rfl]
          cases h4 : bit flags 4
          · rw [P.bind_ok (a := 0) (o' := o) rfl]
            simp only [Bool.false_eq_true, or_self, and_false, iff_false]
            intro h; cases h
          · rw [P.opt_true, P.bind_panic (show (P.left 4 >>= fun _ => P.u32) s o = .panic from P.bind_panic (hl 4))]
            simp; omega
        · rw [P.opt_true, P.bind_panic (hN 3)]
          simp; omega
      · rw [P.opt_true, P.bind_panic (hN 4)]
        simp; omega
    · rw [P.opt_true, P.bind_panic (hN 2)]
      simp; omega

open SDFFilter in
/-- C41, exact for SDFFilter: it panics precisely when the flow description is declared longer than what is left of the
element, and either does not fit into the buffer behind it or something else is announced after it. -/
theorem C41_SDFFilter_exact (s : Slice) : SDFFilter.codec.parse s = .panic ↔
    ∃ f x n1 n2 rest, s.data = f :: x :: n1 :: n2 :: rest ∧ rest ≠ [] ∧ bit f 0 = true ∧
      rest.length < n1.toNat * 256 + n2.toNat ∧
      (rest.length + s.spare.length < n1.toNat * 256 + n2.toNat ∨
        bit f 1 = true ∨ bit f 2 = true ∨ bit f 3 = true ∨ bit f 4 = true) := by
  obtain ⟨d, sp⟩ := s
  show (P.minLen 3 >>= _).run _ = _ ↔ _
  rw [P.run_minLen_panic]
  by_cases h3 : d.length < 3
  · constructor
    · rintro ⟨h, _⟩; simp only at h; omega
    · rintro ⟨_, _, _, _, _, h, _⟩
      simp only at h
      subst h
      simp only [List.length_cons] at h3
      omega
  match d, h3 with
  | [], h3 => simp at h3
  | [_], h3 => simp at h3
  | f :: x :: r, h3 =>
    rw [P.bind_ok (a := f) (o' := 1) rfl, P.bind_ok (a := ()) (o' := 2) rfl]
    simp only [hasFD, has1stBit_eq]
    cases h0 : bit f 0
    · rw [P.bind_ok (a := (0, [])) (o' := 2) rfl]
      have := (tail_panic f (0, []) ⟨f :: x :: r, sp⟩ 2)
      constructor
      · rintro ⟨_, h⟩
        have := (this.1 h).1
        simp only [List.length_cons] at this
        omega
      · rintro ⟨f', _, _, _, _, h, _, h0', _⟩
        cases h
        rw [h0] at h0'
        cases h0'
    · have hleft : P.left 3 ⟨f :: x :: r, sp⟩ 2 = if r.length < 3 then .err .unexpectedEOF else .ok ((), 2) := by
        unfold P.left Slice.subFrom
        rw [P.sub_data _ _ _ _ (by simp [Slice.len]) (by simp [Slice.len])]
        simp [Slice.len]
      rw [P.opt_true]
      by_cases hr : r.length < 3
      · have hfd : parseFD ⟨f :: x :: r, sp⟩ 2 = .err .unexpectedEOF := P.bind_err (by rw [hleft, if_pos hr])
        rw [P.bind_err hfd]
        constructor
        · rintro ⟨_, h⟩; cases h
        · rintro ⟨f', x', n1, n2, rest, h, hne, _⟩
          cases h
          cases rest with
          | nil => exact absurd rfl hne
          | cons => simp only [List.length_cons] at hr; omega
      · match r, hr, h3, hleft with
        | [], hr, _, _ => simp at hr
        | [_], hr, _, _ => simp at hr
        | n1 :: n2 :: rest, hr, h3, hleft =>
          have hn : (dec16 [n1, n2]).toNat = n1.toNat * 256 + n2.toNat := by
            have h1 := n1.toNat_lt
            have h2 := n2.toNat_lt
            simp [dec16, beNat]
            omega
          have hu : P.u16 ⟨f :: x :: n1 :: n2 :: rest, sp⟩ 2 = .ok (dec16 [n1, n2], 4) := by
            unfold P.u16
            rw [P.bind_ok (P.Moves.bytes 2 _ 2 (by simp))]
            rfl
          have hne : rest ≠ [] := by
            rintro rfl
            simp at hr
          have hfd : parseFD ⟨f :: x :: n1 :: n2 :: rest, sp⟩ 2 =
              if n1.toNat * 256 + n2.toNat ≤ rest.length + sp.length then
                .ok ((dec16 [n1, n2], (rest ++ sp).take (n1.toNat * 256 + n2.toNat)), 4 + (n1.toNat * 256 + n2.toNat))
              else .panic := by
            unfold parseFD
            rw [P.bind_ok (a := ()) (o' := 2) (by rw [hleft, if_neg hr]), P.bind_ok hu, hn]
            split
            · rename_i hc
              rw [P.bind_ok (a := (rest ++ sp).take (n1.toNat * 256 + n2.toNat)) (o' := 4 + (n1.toNat * 256 + n2.toNat))]
              · rfl
              · unfold P.bytes Slice.sub
                rw [if_pos ⟨by omega, by simp [Slice.cap]; omega⟩]
                simp [List.drop_take]
            · rename_i hc
              apply P.bind_panic
              unfold P.bytes Slice.sub
              rw [if_neg (by simp [Slice.cap]; omega)]
              rfl
          constructor
          · rintro ⟨_, h⟩
            refine ⟨f, x, n1, n2, rest, rfl, hne, h0, ?_⟩
            by_cases hc : n1.toNat * 256 + n2.toNat ≤ rest.length + sp.length
            · rw [P.bind_ok (by rw [hfd, if_pos hc])] at h
              obtain ⟨a, b⟩ := (tail_panic f _ _ _).1 h
              simp only [List.length_cons] at a
              exact ⟨by omega, .inr b⟩
            · exact ⟨by omega, .inl (by omega)⟩
          · rintro ⟨f', x', m1, m2, rest', h, _, _, hlt, hor⟩
            cases h
            refine ⟨by simp, ?_⟩
            by_cases hc : n1.toNat * 256 + n2.toNat ≤ rest.length + sp.length
            · rw [P.bind_ok (by rw [hfd, if_pos hc])]
              refine (tail_panic f _ _ _).2 ⟨by simp only [List.length_cons]; omega, ?_⟩
              rcases hor with hor | hor
              · omega
              · exact hor
            · exact P.bind_panic (by rw [hfd, if_neg hc])

example : SDFFilter.codec.parse ⟨[3, 0, 0, 1, 65, 1, 2], []⟩ ≠ .panic := by decide
example : SDFFilter.codec.parse ⟨[3, 0, 0, 9, 65], [1, 2, 3, 4, 5, 6, 7, 8, 9, 10]⟩ = .panic := by decide

end Fields
end Pfcp
