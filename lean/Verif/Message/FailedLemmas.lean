/-
Lemmas for C75: the assigning decoders in one step.
-/
import Verif.Message.Failed

namespace Pfcp

variable (g : IEType → Bool)

/-- The outcome of a call together with what it leaves, as the functions for successful calls give it. -/
def St.outcome {σ : Type} : Res Unit × σ → Res σ
  | (.ok _, s) => .ok s
  | (.err e, _) => .err e
  | (.panic, _) => .panic

/-- The end of `IE.UnmarshalBinary`, once the header is read. -/
def IE.unmarshalEnd (b : Bytes) (i : IE) (off n : Nat) : Res Unit × IE :=
  if b.length ≤ off then (.ok (), i)
  else if b.length < off + n then (.err .unexpectedEOF, i)
  else if g i.typ then
    match parseMulti g ((b.take (off + n)).drop off) with
    | .ok cs => (.ok (), { i with payload := (b.take (off + n)).drop off, children := cs })
    | .err e => (.err e, { i with payload := (b.take (off + n)).drop off, children := [] })
    | .panic => (.panic, { i with payload := (b.take (off + n)).drop off })
  else (.ok (), { i with payload := (b.take (off + n)).drop off })

theorem IE.unmarshalSt_eq (old : IE) (b : Bytes) :
    IE.unmarshalSt g b old =
      if b.length < 4 then (.err .unexpectedEOF, old)
      else
        let t := dec16 ((b.take 2).drop 0)
        let len := dec16 ((b.take 4).drop 2)
        if isVendor t then
          if b.length < 6 then (.err .unexpectedEOF, { old with typ := t, length := len })
          else if len.toNat < 2 then (.err .invalidLength, { old with typ := t, length := len })
          else IE.unmarshalEnd g b { old with typ := t, length := len, eid := dec16 ((b.take 6).drop 4) } (4 + 2) (len.toNat - 2)
        else IE.unmarshalEnd g b { old with typ := t, length := len } 4 len.toNat := by
  unfold IE.unmarshalSt IE.unmarshalEnd
  by_cases h4 : b.length < 4
  · simp only [h4, if_true]; rfl
  · simp only [h4, if_false]
    rw [slice_ok b 0 2 (by omega) (by omega), slice_ok b 2 4 (by omega) (by omega)]
    simp only [St.bind_lift_ok, St.bind_assign, St.bind_read]
    generalize dec16 (List.drop 0 (List.take 2 b)) = t
    generalize dec16 (List.drop 2 (List.take 4 b)) = len
    by_cases hv : isVendor t = true
    · simp only [hv, if_true]
      by_cases h6 : b.length < 6
      · simp only [h6, if_true]; rfl
      · simp only [h6, if_false]
        by_cases h2 : len.toNat < 2
        · simp only [h2, if_true]; rfl
        · simp only [h2, if_false]
          rw [slice_ok b 4 6 (by omega) (by omega)]
          show St.bind _ _ _ = _
          unfold St.bind
          simp only [St.bind_lift_ok, St.bind_assign, St.pure_apply]
          by_cases h7 : b.length ≤ 4 + 2
          · simp only [h7, if_true]; rfl
          · by_cases h8 : b.length < 4 + 2 + (len.toNat - 2)
            · simp only [h7, h8, if_true, if_false]; rfl
            · simp only [h7, h8, if_false]
              rw [slice_ok b _ _ (by omega) (by omega)]
              simp only [St.bind_lift_ok, St.bind_assign]
              by_cases hg : g t = true
              · simp only [hg, if_true]
                cases parseMulti g _ <;> rfl
              · simp only [hg]; rfl
    · simp only [hv, Bool.false_eq_true, if_false, St.bind_pure]
      by_cases h7 : b.length ≤ 4
      · simp only [h7, if_true]; rfl
      · by_cases h8 : b.length < 4 + len.toNat
        · simp only [h7, h8, if_true, if_false]; rfl
        · simp only [h7, h8, if_false]
          rw [slice_ok b _ _ (by omega) (by omega)]
          simp only [St.bind_lift_ok, St.bind_assign]
          by_cases hg : g t = true
          · simp only [hg, if_true]
            cases parseMulti g _ <;> rfl
          · simp only [hg]; rfl

/-- The end of `Header.UnmarshalBinary`, once the session identifier is read. -/
def Header.unmarshalEnd (b : Bytes) (h : Header) (off : Nat) : Res Unit × Header :=
  if b.length < off + 4 then (.err .unexpectedEOF, h)
  else (.ok (), { h with seq := uint24To32 ((b.take (off + 3)).drop off), pri := (b.drop (off + 3)).headD 0,
                         payload := b.drop (off + 4) })

theorem Header.unmarshalSt_eq (old : Header) (b : Bytes) :
    Header.unmarshalSt b old =
      if b.length < 8 then (.err .unexpectedEOF, old)
      else
        let h := { old with flags := b.headD 0, typ := (b.drop 1).headD 0, length := dec16 ((b.take 4).drop 2) }
        if has1stBit (b.headD 0) then
          if b.length < 12 then (.err .unexpectedEOF, h)
          else Header.unmarshalEnd b { h with seid := dec64 ((b.take 12).drop 4) } 12
        else Header.unmarshalEnd b h 4 := by
  have idx : ∀ n, n < b.length → index b n = .ok ((b.drop n).headD 0) := by
    intro n hn
    unfold index
    rw [List.headD_eq_head?_getD, List.head?_drop]
    rw [List.getElem?_eq_getElem hn]
    rfl
  have tail : ∀ (off : Nat) (h : Header) (n : UInt16), off + 4 ≤ b.length →
      (if n.toNat + (off + 4) ≠ b.length then (do
          let x ← St.lift (slice b (off + 4) b.length)
          St.assign fun h => { h with payload := x } : St Header Unit)
        else if b.length < off + 4 + n.toNat then St.fail .unexpectedEOF
        else do
          let x ← St.lift (slice b (off + 4) (off + 4 + n.toNat))
          St.assign fun h => { h with payload := x }) h = (.ok (), { h with payload := b.drop (off + 4) }) := by
    intro off h n ho
    by_cases hn : n.toNat + (off + 4) ≠ b.length
    · rw [if_pos hn, slice_ok b _ _ (by omega) (by omega), List.take_length]
      rfl
    · rw [if_neg hn, if_neg (by omega), slice_ok b _ _ (by omega) (by omega), List.take_of_length_le (by omega)]
      rfl
  unfold Header.unmarshalSt Header.unmarshalEnd
  by_cases h8 : b.length < 8
  · simp only [h8, if_true]; rfl
  · simp only [h8, if_false]
    rw [idx 0 (by omega), idx 1 (by omega), slice_ok b 2 4 (by omega) (by omega)]
    simp only [St.bind_lift_ok, St.bind_assign, St.bind_read, Header.hasSEID, List.drop_zero]
    by_cases hs : has1stBit (b.headD 0) = true
    · simp only [hs, if_true]
      by_cases h12 : b.length < 12
      · simp only [h12, if_true]; rfl
      · simp only [h12, if_false]
        rw [slice_ok b 4 (4 + 8) (by omega) (by omega)]
        show St.bind _ _ _ = _
        unfold St.bind
        simp only [St.bind_lift_ok, St.bind_assign, St.pure_apply]
        by_cases h16 : b.length < 16
        · rw [if_pos (by omega), if_pos (by omega)]; rfl
        · rw [if_neg (show ¬ b.length < 4 + 8 + 4 by omega), if_neg (show ¬ b.length < 12 + 4 by omega)]
          rw [slice_ok b _ _ (by omega) (by omega), idx _ (by omega)]
          simp only [St.bind_lift_ok, St.bind_assign]
          rw [tail _ _ _ (by omega)]
    · simp only [hs, Bool.false_eq_true, if_false, St.bind_pure]
      simp only [if_neg (show ¬ b.length < 4 + 4 by omega)]
      rw [slice_ok b _ _ (by omega) (by omega), idx _ (by omega)]
      simp only [St.bind_lift_ok, St.bind_assign]
      rw [tail _ _ _ (by omega)]

namespace MsgP

/-- What the decode does. -/
theorem unmarshalSt_eq (m : MsgP) (b : Bytes) :
    unmarshalSt g b m =
      match Header.parse b with
      | .err e => (.err e, { m with header := none })
      | .panic => (.panic, m)
      | .ok h =>
        if h.payload.length < 2 then (.ok (), { m with header := some h })
        else
          match parseMulti g h.payload with
          | .err e => (.err e, { m with header := some h, ies := if m.kind = .generic then [] else m.ies })
          | .panic => (.panic, { m with header := some h })
          | .ok xs =>
            if m.kind = .generic then (.ok (), { m with header := some h, ies := xs.map some })
            else
              match Msg.fileAll m.kind.tab.parseSwitch ⟨m.kind, h, m.fields, m.ies⟩ xs with
              | .ok m' => (.ok (), m'.ptr)
              | .err e => (.err e, { m with header := some h })
              | .panic => (.panic, { m with header := some h }) := by
  obtain ⟨k, hd, fs, ies⟩ := m
  unfold unmarshalSt
  cases Header.parse b with
  | err e => rfl
  | panic => rfl
  | ok h =>
    simp only [St.bind_assign]
    by_cases hl : h.payload.length < 2
    · simp only [hl, if_true]; rfl
    · simp only [hl, if_false, St.bind_read]
      cases parseMulti g h.payload with
      | err e => cases k <;> rfl
      | panic => cases k <;> rfl
      | ok xs =>
        cases k <;> first
          | rfl
          | (simp only [reduceCtorEq, if_false]
             cases Msg.fileAll _ _ xs <;> rfl)

theorem file_no_err (cases : List (IEType × FieldName)) (xs : List IE) : ∀ (m : Msg) (e : GoErr),
    Msg.fileAll cases m xs ≠ .err e := by
  induction xs with
  | nil => intro m e h; cases h
  | cons i xs ih =>
    intro m e h
    rw [Msg.fileAll] at h
    unfold Msg.file Msg.put at h
    split at h
    · split at h
      · exact ih _ _ h
      · cases h
    · exact ih _ _ h

/-- The old header does not matter to a decode. -/
theorem header_irrelevant (m : MsgP) (b : Bytes) (x : Option Header) (hp : Header.parse b ≠ .panic) :
    unmarshalSt g b { m with header := x } = unmarshalSt g b m := by
  rw [unmarshalSt_eq, unmarshalSt_eq]
  cases h : Header.parse b with
  | err e => rfl
  | panic => exact absurd h hp
  | ok h => rfl

end MsgP

end Pfcp
