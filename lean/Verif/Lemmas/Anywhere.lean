import Verif.Lemmas.Decode
import Verif.Props.Serial

/-! # Modules at any byte of an image -/

namespace Ur20

open Spec Coupler Com

/-- Registers of a module that starts at a register, or has just one byte, hold all its bytes. -/
theorem hasRegisters_iff_covers {img : List Word} {pos bytes : Nat}
    (he : bytes % 2 = 0 ∨ bytes = 1) (h : pos % 16 = 0 ∨ bytes = 1) :
    HasRegisters img pos bytes ↔ Covers img pos bytes := by
  unfold HasRegisters Covers
  rcases h with h | rfl
  · rcases he with he | rfl
    · constructor
      · rintro ⟨h1, h2, h3⟩; exact ⟨h1, .inl h, by omega⟩
      · rintro ⟨h1, h2, h3⟩; exact ⟨h1, by omega, by omega⟩
    · constructor
      · rintro ⟨h1, h2, h3⟩; exact ⟨h1, .inl h, by omega⟩
      · rintro ⟨h1, h2, h3⟩; exact ⟨h1, by omega, by omega⟩
  · constructor
    · rintro ⟨h1, h2, h3⟩; exact ⟨h1, by omega, by omega⟩
    · rintro ⟨h1, h2, h3⟩; exact ⟨h1, by omega, by omega⟩

theorem word_bytes (w : Word) :
    (w.extractLsb' 8 8).toNat * 256 + (w.extractLsb' 0 8).toNat = w.toNat := by
  simp only [BitVec.extractLsb'_toNat, Nat.shiftRight_eq_div_pow]
  have := w.isLt
  omega

/-- The preset of a counter channel in the registers cut out for the module. -/
theorem presetAt_raw {oc : Bool} {off addr : Word} {data raw : List Word}
    (h : prepareRawDataToProcess oc off addr 12 data = .ok raw)
    (ha : addr.toNat * 16 ≤ off.toNat) {ch : Nat} (hch : ch < 2) {hi lo : Word}
    (h1 : raw[2 * ch]? = some hi) (h2 : raw[2 * ch + 1]? = some lo) :
    presetAt data ((off.toNat - addr.toNat * 16) / 8 + 4 * ch) =
      some (hi.toNat * 65536 + lo.toNat) := by
  have hw : rawWords 12 = 6 := by decide
  have hk : ∀ k, k < 4 → byteAt data ((off.toNat - addr.toNat * 16) / 8 + 4 * ch + k) =
      byteAt raw (4 * ch + k) := fun k hk => by
    rw [prepareRaw_bytes h ha (4 * ch + k) (by rw [hw]; omega), Nat.add_assoc]
  have e0 := hk 0 (by omega)
  have e1 := hk 1 (by omega)
  have e2 := hk 2 (by omega)
  have e3 := hk 3 (by omega)
  have b0 : byteAt raw (4 * ch + 0) = some (hi.extractLsb' 0 8) := by
    unfold byteAt
    rw [show (4 * ch + 0) / 2 = 2 * ch by omega, show (4 * ch + 0) % 2 = 0 by omega, h1]; rfl
  have b1 : byteAt raw (4 * ch + 1) = some (hi.extractLsb' 8 8) := by
    unfold byteAt
    rw [show (4 * ch + 1) / 2 = 2 * ch by omega, show (4 * ch + 1) % 2 = 1 by omega, h1]; rfl
  have b2 : byteAt raw (4 * ch + 2) = some (lo.extractLsb' 0 8) := by
    unfold byteAt
    rw [show (4 * ch + 2) / 2 = 2 * ch + 1 by omega, show (4 * ch + 2) % 2 = 0 by omega, h2]; rfl
  have b3 : byteAt raw (4 * ch + 3) = some (lo.extractLsb' 8 8) := by
    unfold byteAt
    rw [show (4 * ch + 3) / 2 = 2 * ch + 1 by omega, show (4 * ch + 3) % 2 = 1 by omega, h2]; rfl
  rw [b0, Nat.add_zero] at e0
  rw [b1] at e1
  rw [b2] at e2
  rw [b3] at e3
  unfold presetAt
  simp only [e0, e1, e2, e3, word_bytes]

/-- The preset in two whole registers. -/
theorem presetAt_registers {img : List Word} {k us : Nat} :
    presetAt img (2 * k) = some us ↔ ∃ hi lo : Word, img[k]? = some hi ∧ img[k + 1]? = some lo ∧
      us = hi.toNat * 65536 + lo.toNat := by
  unfold presetAt byteAt
  rw [show 2 * k / 2 = k by omega, show (2 * k + 1) / 2 = k by omega,
    show (2 * k + 2) / 2 = k + 1 by omega, show (2 * k + 3) / 2 = k + 1 by omega,
    show 2 * k % 2 = 0 by omega, show (2 * k + 1) % 2 = 1 by omega,
    show (2 * k + 2) % 2 = 0 by omega, show (2 * k + 3) % 2 = 1 by omega]
  cases h1 : img[k]? with
  | none => simp
  | some hi =>
    cases h2 : img[k + 1]? with
    | none => simp
    | some lo =>
      simp only [Option.map_some, Nat.mul_zero, Nat.mul_one, word_bytes, Option.some.injEq]
      constructor
      · rintro rfl; exact ⟨hi, lo, rfl, rfl, rfl⟩
      · rintro ⟨_, _, rfl, rfl, rfl⟩; rfl

/-- What a serial module decodes from an input image, wherever its frame is. -/
theorem serial_input_any {oc : Bool} {pi : List Word} {cm : Com.Mod} {oi : Word}
    {out : Option Word} {vs : List ChannelValue}
    (h : moduleInput oc pi (.com cm) ⟨some oi, out⟩ = .ok vs) :
    ∃ i, vs = [.comRsIn i] ∧ i.rxCnt < 4 := by
  unfold moduleInput at h
  simp only [Res.bind_eq, Res.bind_eq_ok] at h
  obtain ⟨raw, h1, h2⟩ := h
  simp only [Module.processInputData, Com.Mod.processInputData, Res.bind_eq, Res.bind_eq_ok,
    Res.pure_eq, Res.ok.injEq] at h2
  obtain ⟨i, h3, h4⟩ := h2
  exact ⟨i, h4.symm, ((C21_counters _).1 i h3).1⟩

/-- What a serial module decodes from an output image, wherever its frame is. -/
theorem serial_output_any {oc : Bool} {po : List Word} {cm : Com.Mod} {oo : Word}
    {inp : Option Word} {vs : List ChannelValue}
    (h : moduleOutput oc po (.com cm) ⟨inp, some oo⟩ = .ok vs) :
    ∃ f, vs = [.comRsOut f] ∧ f.txCnt < 4 ∧ f.rxCntAck < 4 ∧
      f.data.length ≤ cm.processDataLen.userDataLen ∧
      (outputBase ≤ oo.toNat → ∃ b, byteAt po (outByte oo) = some b ∧
        f.txCnt = b.toNat / 8 % 4) := by
  unfold moduleOutput at h
  simp only [Res.bind_eq, Res.bind_eq_ok] at h
  obtain ⟨raw, h1, h2⟩ := h
  have ha : addrPackedProcessOutputData.toNat * 16 = outputBase := by decide
  simp only [Module.processOutputData, Com.Mod.processOutputData, Res.bind_eq, Res.bind_eq_ok,
    Res.pure_eq, Res.ok.injEq] at h2
  obtain ⟨f, h3, h4⟩ := h2
  obtain ⟨a, b, d⟩ := (C21_counters _).2 f h3
  have hl := (prepareRaw_ok h1).1
  have hb : (Module.com cm).outputByteCount = cm.processDataLen.byteCount := rfl
  have he := byteCount_even cm.processDataLen
  have h8 : 8 ≤ cm.processDataLen.byteCount := by cases cm.processDataLen <;> decide
  rw [u16ToU8_length, hl, hb, he] at d
  refine ⟨f, h4.symm, a, b, by rw [byteCount_eq] at d; omega, fun hbase => ?_⟩
  have h5 := prepareRaw_bytes h1 (by rw [ha]; exact hbase) 0 (by rw [hb, he]; omega)
  rw [ha, Nat.add_zero, byteAt_eq] at h5
  match hraw : u16ToU8 raw with
  | [] =>
    have := congrArg List.length hraw
    rw [u16ToU8_length, hl, hb, he, List.length_nil] at this
    omega
  | [_] =>
    have := congrArg List.length hraw
    rw [u16ToU8_length, hl, hb, he, List.length_singleton] at this
    omega
  | s :: n :: rest =>
    rw [hraw] at h5 h3
    rw [rsOutFromBytes_cons] at h3
    refine ⟨s, h5.symm, ?_⟩
    split at h3
    · cases h3
    · cases h3
      rfl

end Ur20
