import Verif.Lemmas.Decode
import Verif.Props.Protocol

/-! Encoding of the values computed in a cycle. -/

namespace Ur20

open Spec Com Coupler

/-- The registers of a counter channel for a value: two for the duration, one for the command. -/
def counterWords : ChannelValue → Option (Word × Word × Word)
  | .disabled => some (0#16, 0#16, 0#16)
  | .fcntOut v =>
    if v.duration ≤ 8388607000 then
      some (microHi (v.duration / 1000), microLo (v.duration / 1000),
        controlWord v.command)
    else none
  | _ => none

theorem encode_first_disabled (out : List Word) (i : Nat) :
    Fcnt.encodeChannel i .disabled out = .ok out := rfl

theorem fcnt_encode (m : Fcnt.Mod) (hm : m.chParams.length = 2) (v0 v1 : ChannelValue) :
    (Module.fcnt m).processOutputValues [v0, v1] =
      match counterWords v0, counterWords v1 with
      | some a, some b => .ok [a.1, a.2.1, b.1, b.2.1, a.2.2, b.2.2]
      | _, _ => .err .channelValue := by
  have h0 : Fcnt.encodeChannel 0 v0 (List.replicate 6 0#16) =
      match counterWords v0 with
      | some a => .ok [a.1, a.2.1, 0#16, 0#16, a.2.2, 0#16]
      | none => .err .channelValue := by
    cases v0 with
    | fcntOut v =>
      by_cases hd : v.duration ≤ 8388607000
      · rw [encode_first v hd]
        simp only [counterWords, if_pos hd]
      · rw [encode_too_long 0 v (by omega)]
        simp only [counterWords, if_neg hd]
    | _ => rfl
  have h1 : ∀ a b c : Word, Fcnt.encodeChannel 1 v1 [a, b, 0#16, 0#16, c, 0#16] =
      match counterWords v1 with
      | some x => .ok [a, b, x.1, x.2.1, c, x.2.2]
      | none => .err .channelValue := by
    intro a b c
    cases v1 with
    | fcntOut v =>
      by_cases hd : v.duration ≤ 8388607000
      · rw [encode_second v hd]
        simp only [counterWords, if_pos hd]
      · rw [encode_too_long 1 v (by omega)]
        simp only [counterWords, if_neg hd]
    | _ => rfl
  have hc : ModuleType.UR20_2FCNT_100.channelCount = 2 := rfl
  simp only [Module.processOutputValues, Fcnt.Mod.processOutputValues, hc, hm, List.length_cons,
    List.length_nil, ne_eq, Nat.reduceAdd, not_true, if_false, Fcnt.encodeLoop]
  rw [h0]
  cases counterWords v0 with
  | none => rfl
  | some a =>
    simp only [Res.bind]
    rw [h1]
    cases counterWords v1 <;> rfl

/-- The command that a control register asks for. -/
def commandOf (w : Word) : Option Command :=
  if w.getLsbD 8 then some .start else if w.getLsbD 9 then some .stop else none

theorem fcnt_decode (m : Fcnt.Mod) (h0 l0 h1 l1 c0 c1 : Word) :
    (Module.fcnt m).processOutputData [h0, l0, h1, l1, c0, c1] =
      .ok [.fcntOut ⟨(h0.toNat * 65536 + l0.toNat) * 1000, commandOf c0⟩,
        .fcntOut ⟨(h1.toNat * 65536 + l1.toNat) * 1000, commandOf c1⟩] := by
  have h8 : ∀ w : Word, testBit16 w 8 = w.getLsbD 8 := fun w => testBit16_eq w 8 (by omega)
  have h9 : ∀ w : Word, testBit16 w 9 = w.getLsbD 9 := fun w => testBit16_eq w 9 (by omega)
  simp only [Module.processOutputData, Fcnt.Mod.processOutputData, List.length_cons,
    List.length_nil, ne_eq, Nat.reduceAdd, not_true, if_false]
  change mapRes (Fcnt.outputChannel [h0, l0, h1, l1, c0, c1]) [0, 1] = _
  simp only [mapRes, Fcnt.outputChannel, Res.bind_eq, Res.pure_eq, idx, Nat.zero_mul, Nat.one_mul,
    Nat.zero_add, Nat.add_zero, Nat.reduceAdd, List.getElem?_cons_zero, List.getElem?_cons_succ,
    Res.bind, wide_toNat, h8, h9, commandOf]

theorem length_two {α : Type} {l : List α} (h : l.length = 2) : ∃ a b, l = [a, b] := by
  match l, h with
  | [a, b], _ => exact ⟨a, b, rfl⟩

theorem length_six {α : Type} {l : List α} (h : l.length = 6) :
    ∃ a b c d e f, l = [a, b, c, d, e, f] := by
  match l, h with
  | [a, b, c, d, e, f], _ => exact ⟨a, b, c, d, e, f, rfl⟩

theorem counterWords_some {v : ChannelValue}
    (h : v = .disabled ∨ ∃ x, v = .fcntOut x ∧ x.duration ≤ 8388607000) :
    ∃ a, counterWords v = some a := by
  rcases h with rfl | ⟨x, rfl, hx⟩
  · exact ⟨_, rfl⟩
  · simp only [counterWords, if_pos hx]
    exact ⟨_, rfl⟩

/-- The result of a serial step can be encoded. -/
theorem next_encodable {len : ProcessDataLength} {p : MessageProcessor} (hq : QueueOk len p)
    {i : RsIn} {o : RsOut} (hi : i.rxCnt < 4) (ho : o.txCnt < 4)
    (hd : o.data.length ≤ len.userDataLen) :
    (p.next i o).2.txCnt < 4 ∧ (p.next i o).2.rxCntAck < 4 ∧
      (p.next i o).2.data.length ≤ len.userDataLen := by
  refine ⟨?_, by rw [Sys.next_rxCntAck]; omega, ?_⟩ <;>
  · cases hs : p.initState with
    | clearBuffers => rw [next_clear _ _ _ hs]; simp; try omega
    | reset => rw [next_reset _ _ _ hs]; simp; try omega
    | done =>
      rw [next_done _ _ _ hs]
      unfold MessageProcessor.nextTx
      split
      · simp only; omega
      · rename_i c cs hcs
        split
        · have := incCnt_lt i.txCntAck
          have := (hq.2 c (by rw [hcs]; simp)).2
          simp only; omega
        · simp only; omega

theorem accepts_digital {t : ModuleType} {m : Module} (hg : IsCreated t m) {n : Nat}
    (hd : digitalOutputs m = some n) {v : ChannelValue} (h : Accepts t v) : IsBitOrDisabled v := by
  cases t <;> cases m <;> simp only [IsCreated] at hg <;>
    first
      | exact h.symm
      | cases hd

theorem accepts_analog {t : ModuleType} {m : Module} (hg : IsCreated t m)
    {ps : List (AnalogUIRange × DataFormat)} (hd : analogOutputs m = some ps) {v : ChannelValue}
    (h : Accepts t v) : v = .disabled ∨ ∃ x, v = .decimal32 x := by
  cases t <;> cases m <;> simp only [IsCreated] at hg <;>
    first
      | exact h
      | cases hd

theorem mem_mapIdx_getD {w : Nat → Option ChannelValue} {vs : List ChannelValue} {v : ChannelValue}
    (h : v ∈ vs.mapIdx fun k v => (w k).getD v) :
    (∃ k, k < vs.length ∧ w k = some v) ∨ ∃ k, vs[k]? = some v ∧ w k = none := by
  obtain ⟨k, hk⟩ := List.mem_iff_getElem?.1 h
  rw [List.getElem?_mapIdx] at hk
  cases hv : vs[k]? with
  | none => rw [hv] at hk; cases hk
  | some v' =>
    rw [hv] at hk
    cases hw : w k with
    | none => rw [hw] at hk; cases hk; exact .inr ⟨k, hv, hw⟩
    | some x =>
      rw [hw] at hk
      cases hk
      exact .inl ⟨k, (List.getElem?_eq_some_iff.1 hv).1, hw⟩

/-- The values of a module that is not serial, with pending values of the right kind put in, can be
encoded. -/
theorem plain_encode_total {t : ModuleType} {par : List Word} {m : Module}
    (hc : Module.create t par = .ok m) (hs : ¬ IsSerial m) (hn : m.outputByteCount ≠ 0)
    {raw : List Word} (hl : raw.length = rawWords m.outputByteCount) {vs : List ChannelValue}
    (hv : m.processOutputData raw = .ok vs) {w : Nat → Option ChannelValue}
    (hw : ∀ k v, w k = some v → Accepts t v)
    (hp : t = .UR20_2FCNT_100 → ∀ (k : Nat) (hi lo : Word), k < 2 → w k = none →
      raw[2 * k]? = some hi → raw[2 * k + 1]? = some lo →
      hi.toNat * 65536 + lo.toNat ≤ 0x7FFFFF) :
    ∃ d, m.processOutputValues (vs.mapIdx fun k v => (w k).getD v) = .ok d := by
  have hg := create_good hc
  cases ha : analogOutputs m with
  | some ps =>
    refine ((C66_accepts t par m hc ps ha _).1).2 ⟨?_, fun v hm => ?_⟩
    · rw [List.length_mapIdx]
      rw [Module.processOutputData_length m raw vs hv]
      cases m <;> first | rfl | cases ha
    · rcases mem_mapIdx_getD hm with ⟨k, -, h⟩ | ⟨k, h, -⟩
      · exact accepts_analog hg ha (hw k v h)
      · have h4 : raw.length = 4 := by
          rw [hl, (analogOutputs_length hc ha).2]; decide
        rw [analogOutputs_decode hc ha raw h4] at hv
        cases hv
        obtain ⟨x, y, -, -, rfl⟩ := List.getElem?_zipWith_eq_some.1 h
        unfold channelValue decimalOrDisabled
        split
        · exact .inr ⟨_, rfl⟩
        · exact .inl rfl
  | none =>
    cases hd : digitalOutputs m with
    | some n =>
      obtain ⟨-, -, h1, h2⟩ := digitalOutputs_spec m n hd
      have hl1 : raw.length = 1 := by
        rw [hl, digitalOutputs_bytes hd]; split <;> decide
      rw [h1, if_neg (by omega), idx_of_lt (by omega)] at hv
      cases hv
      rw [h2, if_neg (by rw [List.length_mapIdx, bitValues_length]; simp)]
      obtain ⟨d, h3, -⟩ := encodeBits_ok 0 0#16
        ((bitValues n raw[0]).mapIdx fun k v => (w k).getD v) (fun v hm => by
          rcases mem_mapIdx_getD hm with ⟨k, -, h⟩ | ⟨k, h, -⟩
          · exact accepts_digital hg hd (hw k v h)
          · unfold bitValues at h
            rw [List.getElem?_map] at h
            cases hr : (List.range n)[k]? with
            | none => rw [hr] at h; cases h
            | some i => rw [hr] at h; cases h; exact .inl ⟨_, rfl⟩)
      rw [h3]
      exact ⟨_, rfl⟩
    | none =>
      cases m with
      | fcnt m =>
        have ht : t = .UR20_2FCNT_100 := by
          cases t <;> simp only [IsCreated] at hg; rfl
        subst ht
        have hm2 : m.chParams.length = 2 := hg
        obtain ⟨a, b, c, d, e, f, rfl⟩ := length_six
          (hl.trans (by decide : rawWords 12 = 6))
        rw [fcnt_decode] at hv
        cases hv
        simp only [List.mapIdx_cons, List.mapIdx_nil]
        obtain ⟨x, hx⟩ : ∃ x, counterWords ((w 0).getD
            (.fcntOut ⟨(a.toNat * 65536 + b.toNat) * 1000, commandOf e⟩)) = some x := by
          apply counterWords_some
          cases h0 : w 0 with
          | some v => exact hw 0 v h0
          | none =>
            have := hp rfl 0 a b (by omega) h0 rfl rfl
            exact .inr ⟨_, rfl, (Nat.mul_le_mul_right 1000 this).trans (by norm_num)⟩
        obtain ⟨y, hy⟩ : ∃ x, counterWords ((w (0 + 1)).getD
            (.fcntOut ⟨(c.toNat * 65536 + d.toNat) * 1000, commandOf f⟩)) = some x := by
          apply counterWords_some
          cases h0 : w (0 + 1) with
          | some v => exact hw (0 + 1) v h0
          | none =>
            have := hp rfl (0 + 1) c d (by omega) h0 rfl rfl
            exact .inr ⟨_, rfl, (Nat.mul_le_mul_right 1000 this).trans (by norm_num)⟩
        rw [fcnt_encode m hm2, hx, hy]
        exact ⟨_, rfl⟩
      | com m => exact absurd ⟨m, rfl⟩ hs
      | dout m => rcases m with ⟨v, ps⟩; cases v <;> cases hd
      | do16 => cases hd
      | ro m => cases hd
      | ao m => cases ha
      | aoDiag m => cases ha
      | di m => exact absurd rfl hn
      | rtd m => exact absurd rfl hn
      | tc m => exact absurd rfl hn
      | sil => exact absurd rfl hn
      | ai m => exact absurd rfl hn
      | aiDiag m => exact absurd rfl hn
      | aiI m => exact absurd rfl hn

theorem digital_accepts {t : ModuleType} {m : Module} (hg : IsCreated t m) {n : Nat}
    (hd : digitalOutputs m = some n) {v : ChannelValue} (h : IsBitOrDisabled v) : Accepts t v := by
  cases t <;> cases m <;> simp only [IsCreated] at hg <;>
    first
      | exact h.symm
      | cases hd

theorem analog_accepts {t : ModuleType} {m : Module} (hg : IsCreated t m)
    {ps : List (AnalogUIRange × DataFormat)} (hd : analogOutputs m = some ps) {v : ChannelValue}
    (h : v = .disabled ∨ ∃ x, v = .decimal32 x) : Accepts t v := by
  cases t <;> cases m <;> simp only [IsCreated] at hg <;>
    first
      | exact h
      | cases hd

theorem counterWords_accepts {v : ChannelValue} {a : Word × Word × Word}
    (h : counterWords v = some a) : Accepts .UR20_2FCNT_100 v := by
  cases v with
  | disabled => exact .inl rfl
  | fcntOut x =>
    simp only [counterWords] at h
    split at h
    · exact .inr ⟨x, rfl, by assumption⟩
    · cases h
  | _ => cases h

theorem getElem?_mapIdx_getD {w : Nat → Option ChannelValue} {vs : List ChannelValue} {k : Nat}
    {v : ChannelValue} (hk : k < vs.length) (hw : w k = some v) :
    v ∈ vs.mapIdx fun k v => (w k).getD v := by
  refine List.mem_iff_getElem?.2 ⟨k, ?_⟩
  rw [List.getElem?_mapIdx, List.getElem?_eq_getElem hk]
  simp [hw]

/-- If the values of a module that is not serial can be encoded, the pending values are of the right
kind and counter channels without a pending value have a valid preset. -/
theorem plain_encode_conv {t : ModuleType} {par : List Word} {m : Module}
    (hc : Module.create t par = .ok m) (hs : ¬ IsSerial m) (hn : m.outputByteCount ≠ 0)
    {raw : List Word} (hl : raw.length = rawWords m.outputByteCount) {vs : List ChannelValue}
    (hv : m.processOutputData raw = .ok vs) {w : Nat → Option ChannelValue} {d : List Word}
    (hd : m.processOutputValues (vs.mapIdx fun k v => (w k).getD v) = .ok d) :
    (∀ k v, k < m.moduleType.channelCount → w k = some v → Accepts t v) ∧
    (t = .UR20_2FCNT_100 → ∀ (k : Nat) (hi lo : Word), k < 2 → w k = none →
      raw[2 * k]? = some hi → raw[2 * k + 1]? = some lo →
      hi.toNat * 65536 + lo.toNat ≤ 0x7FFFFF) := by
  have hg := create_good hc
  have hvl := Module.processOutputData_length m raw vs hv
  cases ha : analogOutputs m with
  | some ps =>
    refine ⟨fun k v hk hw => analog_accepts hg ha ?_, fun ht => ?_⟩
    · exact (((C66_accepts t par m hc ps ha _).1).1 ⟨d, hd⟩).2 v
        (getElem?_mapIdx_getD (by omega) hw)
    · subst ht
      cases m <;> first | exact hg.elim | cases ha
  | none =>
    cases hdo : digitalOutputs m with
    | some n =>
      obtain ⟨-, -, h1, h2⟩ := digitalOutputs_spec m n hdo
      refine ⟨fun k v hk hw => digital_accepts hg hdo ?_, fun ht => ?_⟩
      · have hall : ∀ v ∈ vs.mapIdx fun k v => (w k).getD v, IsBitOrDisabled v := by
          by_contra hall
          rw [h2, encodeBits_err 0 0#16 _ hall] at hd
          split at hd <;> cases hd
        exact hall v (getElem?_mapIdx_getD (by omega) hw)
      · subst ht
        cases m <;> first | exact hg.elim | cases hdo
    | none =>
      cases m with
      | fcnt m =>
        have ht : t = .UR20_2FCNT_100 := by
          cases t <;> simp only [IsCreated] at hg; rfl
        subst ht
        have hm2 : m.chParams.length = 2 := hg
        obtain ⟨a, b, c, d', e, f, rfl⟩ := length_six
          (hl.trans (by decide : rawWords 12 = 6))
        rw [fcnt_decode] at hv
        cases hv
        simp only [List.mapIdx_cons, List.mapIdx_nil] at hd
        rw [fcnt_encode m hm2] at hd
        split at hd
        swap
        · cases hd
        rename_i x y hx hy
        have hax := counterWords_accepts hx
        have hay := counterWords_accepts hy
        constructor
        · intro k v hk hw
          change k < 2 at hk
          have hk' : k = 0 ∨ k = 1 := by omega
          rcases hk' with rfl | rfl
          · rw [hw] at hax; exact hax
          · rw [show w (0 + 1) = some v from hw] at hay; exact hay
        · intro _ k hi lo hk hw e1 e2
          have key : ∀ (u v : Word) cmd, Accepts .UR20_2FCNT_100
              (.fcntOut ⟨(u.toNat * 65536 + v.toNat) * 1000, cmd⟩) →
              u.toNat * 65536 + v.toNat ≤ 0x7FFFFF := by
            intro u v cmd h
            rcases h with h | ⟨z, h, h'⟩
            · cases h
            · cases h
              apply Nat.le_of_mul_le_mul_right _ (show 0 < 1000 by omega)
              exact h'.trans (by norm_num)
          have hk' : k = 0 ∨ k = 1 := by omega
          rcases hk' with rfl | rfl
          · cases e1
            cases e2
            rw [hw] at hax
            exact key _ _ _ hax
          · cases e1
            cases e2
            rw [show w (0 + 1) = none from hw] at hay
            exact key _ _ _ hay
      | com m => exact absurd ⟨m, rfl⟩ hs
      | dout m => rcases m with ⟨v, ps⟩; cases v <;> cases hdo
      | do16 => cases hdo
      | ro m => cases hdo
      | ao m => cases ha
      | aoDiag m => cases ha
      | di m => exact absurd rfl hn
      | rtd m => exact absurd rfl hn
      | tc m => exact absurd rfl hn
      | sil => exact absurd rfl hn
      | ai m => exact absurd rfl hn
      | aiDiag m => exact absurd rfl hn
      | aiI m => exact absurd rfl hn

end Ur20
