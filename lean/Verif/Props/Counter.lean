import Verif.Lemmas.Basic
import Verif.Lemmas.Bits
import Verif.Model.Coupler

/-! # The frequency counter: C46, C47, C48 -/

namespace Ur20

open Fcnt

theorem wide_toNat (hi lo : Word) : (wide hi lo).toNat = hi.toNat * 65536 + lo.toNat := by
  have h1 := hi.isLt
  have h2 := lo.isLt
  unfold wide
  rw [BitVec.toNat_or, BitVec.toNat_shiftLeft, BitVec.toNat_setWidth, BitVec.toNat_setWidth,
    Nat.mod_eq_of_lt (show hi.toNat < 2 ^ 32 by omega),
    Nat.mod_eq_of_lt (show lo.toNat < 2 ^ 32 by omega), Nat.shiftLeft_eq,
    Nat.mod_eq_of_lt (show hi.toNat * 2 ^ 16 < 2 ^ 32 by omega), ← Nat.shiftLeft_eq,
    ← Nat.shiftLeft_add_eq_or_of_lt h2, Nat.shiftLeft_eq]

/-- The input image of a counter module: for each channel the period and the count, most
significant word first, then one status word per channel. -/
theorem C46_decode (m : Fcnt.Mod) (hm : m.chParams.length = 2) (data : List Word) :
    (data.length ≠ 10 → (Module.fcnt m).processInputData data = .err .bufferLength) ∧
    ∀ p0h p0l c0h c0l p1h p1l c1h c1l s0 s1,
      data = [p0h, p0l, c0h, c0l, p1h, p1l, c1h, c1l, s0, s1] →
      ∃ v0 v1, (Module.fcnt m).processInputData data = .ok [.fcntIn v0, .fcntIn v1] ∧
        v0.count.toNat = c0h.toNat * 65536 + c0l.toNat ∧
        v1.count.toNat = c1h.toNat * 65536 + c1l.toNat ∧
        v0.active = s0.getLsbD 8 ∧ v1.active = s1.getLsbD 8 ∧
        v0.duration = (if 0x07FFFFFF ≤ p0h.toNat * 65536 + p0l.toNat then none
          else some ((p0h.toNat * 65536 + p0l.toNat) * 125)) ∧
        v1.duration = (if 0x07FFFFFF ≤ p1h.toNat * 65536 + p1l.toNat then none
          else some ((p1h.toNat * 65536 + p1l.toNat) * 125)) := by
  constructor
  · intro h
    simp only [Module.processInputData, Fcnt.Mod.processInputData]
    rw [if_pos h]
  · rintro p0h p0l c0h c0l p1h p1l c1h c1l s0 s1 rfl
    simp only [Module.processInputData, Fcnt.Mod.processInputData]
    rw [if_neg (by simp), if_neg (by simpa using hm)]
    refine ⟨_, _, rfl, wide_toNat _ _, wide_toNat _ _, ?_, ?_, ?_, ?_⟩
    · simp [testBit16_eq]
    · simp [testBit16_eq]
    · simp only [wide_toNat, maxMeasurementPeriod, ge_iff_le]
    · simp only [wide_toNat, maxMeasurementPeriod, ge_iff_le]

example : (Module.fcnt ⟨[⟨.us5⟩, ⟨.us5⟩]⟩).processInputData
    [0#16, 8#16, 0#16, 2#16, 0x07FF#16, 0xFFFF#16, 1#16, 0#16, 0x100#16, 0#16] =
    .ok [.fcntIn ⟨some 1000, 2#32, true⟩, .fcntIn ⟨none, 0x10000#32, false⟩] := by decide

/-! ### Encoding -/

/-- The words of a number of microseconds. -/
def microHi (us : Nat) : Word := BitVec.ofNat 16 (us / 65536)
def microLo (us : Nat) : Word := BitVec.ofNat 16 us

/-- The control word of a command. -/
def controlWord : Option Command → Word
  | some .start => 0x0100#16
  | some .stop => 0x0200#16
  | none => 0#16

theorem micros_eq (d : Nat) :
    (BitVec.ofNat 32 (d / 1000000000) * 1000000#32 + BitVec.ofNat 32 (d % 1000000000 / 1000)) =
      BitVec.ofNat 32 (d / 1000) := by
  apply BitVec.eq_of_toNat_eq
  rw [BitVec.toNat_add, BitVec.toNat_mul]
  simp only [BitVec.toNat_ofNat]
  omega

theorem micros_split (us : Nat) :
    ((BitVec.ofNat 32 us &&& 0xFFFF0000#32) >>> 16).setWidth 16 = microHi us ∧
    (BitVec.ofNat 32 us &&& 0x0000FFFF#32).setWidth 16 = microLo us := by
  constructor
  · apply BitVec.eq_of_getLsbD_eq
    intro i hi
    have hm : ∀ i : Nat, i < 16 → (0xFFFF0000#32).getLsbD (16 + i) = true := by decide
    rw [BitVec.getLsbD_setWidth, BitVec.getLsbD_ushiftRight, BitVec.getLsbD_and, hm i hi]
    simp only [microHi, BitVec.getLsbD_ofNat, hi, decide_true, Bool.true_and, Bool.and_true,
      show 16 + i < 32 by omega]
    rw [Nat.testBit_div_two_pow (n := 16)]
    congr 1
    omega
  · apply BitVec.eq_of_getLsbD_eq
    intro i hi
    have hm : ∀ i : Nat, i < 16 → (0x0000FFFF#32).getLsbD i = true := by decide
    rw [BitVec.getLsbD_setWidth, BitVec.getLsbD_and, hm i hi]
    simp only [microLo, BitVec.getLsbD_ofNat, hi, decide_true, Bool.true_and, Bool.and_true,
      show i < 32 by omega]

theorem wide_micro (us : Nat) (h : us < 2 ^ 32) : (wide (microHi us) (microLo us)).toNat = us := by
  rw [wide_toNat]
  simp only [microHi, microLo, BitVec.toNat_ofNat]
  omega

theorem encode_first (v : FcntOut) (h : v.duration ≤ 8388607000) :
    encodeChannel 0 (.fcntOut v) (List.replicate 6 0#16) =
      .ok [microHi (v.duration / 1000), microLo (v.duration / 1000), 0#16, 0#16,
        controlWord v.command, 0#16] := by
  unfold encodeChannel
  simp only
  rw [if_neg (by simpa [maxMeasurementDuration] using h), micros_eq]
  obtain ⟨h1, h2⟩ := micros_split (v.duration / 1000)
  rw [h1, h2]
  obtain ⟨d, c⟩ := v
  cases c with
  | none => rfl
  | some c => cases c <;> rfl

theorem encode_second (v : FcntOut) (h : v.duration ≤ 8388607000) (a b c : Word) :
    encodeChannel 1 (.fcntOut v) [a, b, 0#16, 0#16, c, 0#16] =
      .ok [a, b, microHi (v.duration / 1000), microLo (v.duration / 1000), c,
        controlWord v.command] := by
  unfold encodeChannel
  simp only
  rw [if_neg (by simpa [maxMeasurementDuration] using h), micros_eq]
  obtain ⟨h1, h2⟩ := micros_split (v.duration / 1000)
  rw [h1, h2]
  obtain ⟨d, cc⟩ := v
  cases cc with
  | none => rfl
  | some x => cases x <;> rfl

theorem encode_too_long (i : Nat) (v : FcntOut) (h : 8388607000 < v.duration) (out : List Word) :
    encodeChannel i (.fcntOut v) out = .err .channelValue := by
  unfold encodeChannel
  simp only
  rw [if_pos (by simpa [maxMeasurementDuration] using h)]

theorem decode_command (a : Option Command) :
    (if testBit16 (controlWord a) 8 = true then some Command.start
      else if testBit16 (controlWord a) 9 = true then some Command.stop else none) = a := by
  cases a with
  | none => decide
  | some c => cases c <;> decide

/-- C47: two counter values are encoded exactly if both durations are at most 8.388607 s, else the
error is `ChannelValue`. The encoding has the preset in microseconds, most significant word first,
for both channels, then a control word for each channel with bit 8 for start and bit 9 for stop.
Decoding the encoded words returns the commands and the durations truncated to microseconds.
Durations are in nanoseconds. -/
theorem C47_round_trip (m : Fcnt.Mod) (hm : m.chParams.length = 2) (v0 v1 : FcntOut) :
    ((v0.duration ≤ 8388607000 ∧ v1.duration ≤ 8388607000) →
      ∃ h0 l0 h1 l1 c0 c1,
        (Module.fcnt m).processOutputValues [.fcntOut v0, .fcntOut v1] =
          .ok [h0, l0, h1, l1, c0, c1] ∧
        h0.toNat * 65536 + l0.toNat = v0.duration / 1000 ∧
        h1.toNat * 65536 + l1.toNat = v1.duration / 1000 ∧
        c0 = controlWord v0.command ∧ c1 = controlWord v1.command ∧
        (Module.fcnt m).processOutputData [h0, l0, h1, l1, c0, c1] =
          .ok [.fcntOut ⟨v0.duration / 1000 * 1000, v0.command⟩,
            .fcntOut ⟨v1.duration / 1000 * 1000, v1.command⟩]) ∧
    ((8388607000 < v0.duration ∨ 8388607000 < v1.duration) →
      (Module.fcnt m).processOutputValues [.fcntOut v0, .fcntOut v1] = .err .channelValue) := by
  have hu : (Module.fcnt m).processOutputValues [.fcntOut v0, .fcntOut v1] =
      encodeLoop 0 (List.replicate 6 0#16) [.fcntOut v0, .fcntOut v1] := by
    simp only [Module.processOutputValues, Fcnt.Mod.processOutputValues]
    have hc : ModuleType.UR20_2FCNT_100.channelCount = 2 := rfl
    rw [hc, if_neg (by simp), if_neg (by simpa using hm)]
  rw [hu]
  constructor
  · rintro ⟨ha, hb⟩
    refine ⟨microHi (v0.duration / 1000), microLo (v0.duration / 1000), microHi (v1.duration / 1000),
      microLo (v1.duration / 1000), controlWord v0.command, controlWord v1.command, ?_, ?_, ?_, rfl,
      rfl, ?_⟩
    · unfold encodeLoop
      rw [encode_first v0 ha, Res.bind_ok]
      unfold encodeLoop
      rw [encode_second v1 hb]
      rfl
    · rw [← wide_toNat, wide_micro _ (by omega)]
    · rw [← wide_toNat, wide_micro _ (by omega)]
    · simp only [Module.processOutputData, Fcnt.Mod.processOutputData]
      rw [if_neg (by simp)]
      simp only [List.range, List.range.loop, mapRes_cons, mapRes_nil, outputChannel, Res.bind_eq,
        Res.bind_ok, Res.pure_eq, Nat.zero_mul, Nat.one_mul, idx_cons_zero, idx_cons_succ, decode_command,
        wide_micro _ (show v0.duration / 1000 < 2 ^ 32 by omega),
        wide_micro _ (show v1.duration / 1000 < 2 ^ 32 by omega)]
  · intro h
    unfold encodeLoop
    by_cases ha : v0.duration ≤ 8388607000
    · rw [encode_first v0 ha, Res.bind_ok]
      unfold encodeLoop
      rw [encode_too_long 1 v1 (by omega)]
      rfl
    · rw [encode_too_long 0 v0 (by omega)]
      rfl

example : (Module.fcnt ⟨[⟨.us5⟩, ⟨.us5⟩]⟩).processOutputValues
    [.fcntOut ⟨1234567, some .stop⟩, .fcntOut ⟨8388607000, some .start⟩] =
    .ok [0#16, 1234#16, 0x007F#16, 0xFFFF#16, 0x200#16, 0x100#16] := by decide

/-! ### C48 -/

/-- C48 as listed. -/
def C48_statement : Prop :=
  ∀ (m : Fcnt.Mod) (ws : List Word), m.chParams.length = 2 → ws.length = 6 →
    ∃ vs ws', (Module.fcnt m).processOutputData ws = .ok vs ∧
      (Module.fcnt m).processOutputValues vs = .ok ws'

/-- C48 is false: a preset above 8.388607 s is decoded, but cannot be encoded. -/
theorem C48_statement_false : ¬ C48_statement := by
  intro h
  obtain ⟨vs, ws', h1, h2⟩ := h ⟨[⟨.us5⟩, ⟨.us5⟩]⟩ [0x80#16, 0#16, 0#16, 0#16, 0#16, 0#16] rfl rfl
  have e1 : (Module.fcnt ⟨[⟨.us5⟩, ⟨.us5⟩]⟩).processOutputData
      [0x80#16, 0#16, 0#16, 0#16, 0#16, 0#16] =
      .ok [.fcntOut ⟨8388608000, none⟩, .fcntOut ⟨0, none⟩] := by decide
  rw [e1] at h1
  cases h1
  revert h2
  rw [((C47_round_trip _ rfl _ _).2 (.inl (by decide)))]
  simp

/-- C48 for the images whose presets are at most `0x7FFFFF` microseconds, and only for them: decoding
and encoding succeeds, keeps the presets, and keeps the command bits, except that with both bits set
only start remains; all other control bits are cleared. -/
theorem C48_cycle_partial (m : Fcnt.Mod) (hm : m.chParams.length = 2) (h0 l0 h1 l1 c0 c1 : Word) :
    ∃ vs, (Module.fcnt m).processOutputData [h0, l0, h1, l1, c0, c1] = .ok vs ∧
      ((h0.toNat * 65536 + l0.toNat ≤ 0x7FFFFF ∧ h1.toNat * 65536 + l1.toNat ≤ 0x7FFFFF) →
        ∃ c0' c1', (Module.fcnt m).processOutputValues vs = .ok [h0, l0, h1, l1, c0', c1'] ∧
          c0' = (if c0.getLsbD 8 then 0x100#16 else if c0.getLsbD 9 then 0x200#16 else 0#16) ∧
          c1' = (if c1.getLsbD 8 then 0x100#16 else if c1.getLsbD 9 then 0x200#16 else 0#16)) ∧
      ((0x7FFFFF < h0.toNat * 65536 + l0.toNat ∨ 0x7FFFFF < h1.toNat * 65536 + l1.toNat) →
        (Module.fcnt m).processOutputValues vs = .err .channelValue) := by
  have hcmd : ∀ c : Word, controlWord (if testBit16 c 8 = true then some Command.start
      else if testBit16 c 9 = true then some Command.stop else none) =
      (if c.getLsbD 8 then 0x100#16 else if c.getLsbD 9 then 0x200#16 else 0#16) := by
    intro c
    rw [testBit16_eq c 8 (by omega), testBit16_eq c 9 (by omega)]
    cases c.getLsbD 8 <;> cases c.getLsbD 9 <;> rfl
  refine ⟨[.fcntOut ⟨(wide h0 l0).toNat * 1000, if testBit16 c0 8 = true then some Command.start
      else if testBit16 c0 9 = true then some Command.stop else none⟩,
    .fcntOut ⟨(wide h1 l1).toNat * 1000, if testBit16 c1 8 = true then some Command.start
      else if testBit16 c1 9 = true then some Command.stop else none⟩], rfl, ?_, ?_⟩
  · rintro ⟨ha, hb⟩
    rw [← wide_toNat] at ha hb
    obtain ⟨a, b, c, d, e, f, g1, g2, g3, g4, g5, -⟩ :=
      (C47_round_trip m hm ⟨(wide h0 l0).toNat * 1000, if testBit16 c0 8 = true then some Command.start
        else if testBit16 c0 9 = true then some Command.stop else none⟩
        ⟨(wide h1 l1).toNat * 1000, if testBit16 c1 8 = true then some Command.start
        else if testBit16 c1 9 = true then some Command.stop else none⟩).1
        ⟨by simp only; omega, by simp only; omega⟩
    simp only at g2 g3 g4 g5
    rw [Nat.mul_div_cancel _ (by omega), wide_toNat] at g2 g3
    have e1 : a = h0 ∧ b = l0 := by
      have := a.isLt; have := b.isLt; have := h0.isLt; have := l0.isLt
      exact ⟨BitVec.eq_of_toNat_eq (by omega), BitVec.eq_of_toNat_eq (by omega)⟩
    have e2 : c = h1 ∧ d = l1 := by
      have := c.isLt; have := d.isLt; have := h1.isLt; have := l1.isLt
      exact ⟨BitVec.eq_of_toNat_eq (by omega), BitVec.eq_of_toNat_eq (by omega)⟩
    obtain ⟨rfl, rfl⟩ := e1
    obtain ⟨rfl, rfl⟩ := e2
    exact ⟨e, f, g1, by rw [g4, hcmd], by rw [g5, hcmd]⟩
  · intro h
    rw [← wide_toNat, ← wide_toNat] at h
    exact (C47_round_trip m hm _ _).2 (by simp only; omega)

end Ur20
