import Verif.Lemmas.Image

/-! Cutting the registers of a module out of a process image. -/

namespace Ur20

open Spec

theorem shiftData_spec (d : List Word) (h : d ≠ []) :
    ∃ raw, shiftData d = .ok raw ∧ raw.length = d.length ∧
      (∀ k, k + 1 < 2 * d.length → byteAt raw k = byteAt d (k + 1)) ∧
      byteAt raw (2 * d.length - 1) = some 0#8 := by
  unfold shiftData
  cases hu : u16ToU8 d with
  | nil =>
    have := u16ToU8_length d
    rw [hu] at this
    simp only [List.length_nil] at this
    exact absurd (List.length_eq_zero_iff.1 (show d.length = 0 by omega)) h
  | cons b bs =>
    have hl := u16ToU8_length d
    rw [hu, List.length_cons] at hl
    have hr : u16ToU8 (u8ToU16 (bs ++ [0#8])) = bs ++ [0#8] :=
      u16ToU8_u8ToU16 _ (by simp only [List.length_append, List.length_singleton]; omega)
    refine ⟨_, rfl, ?_, fun k hk => ?_, ?_⟩
    · rw [u8ToU16_length]
      simp only [List.length_append, List.length_singleton]
      omega
    · rw [byteAt_eq, byteAt_eq, hr, hu, List.getElem?_append_left (by omega),
        List.getElem?_cons_succ]
    · rw [byteAt_eq, hr, List.getElem?_append_right (by omega),
        show 2 * d.length - 1 - bs.length = 0 by omega]
      rfl

theorem byteAt_drop (d : List Word) (s k : Nat) : byteAt (d.drop s) k = byteAt d (2 * s + k) := by
  unfold byteAt
  rw [List.getElem?_drop, show s + k / 2 = (2 * s + k) / 2 by omega,
    show k % 2 = (2 * s + k) % 2 by omega]

theorem byteAt_take (d : List Word) (n k : Nat) (h : k < 2 * n) :
    byteAt (d.take n) k = byteAt d k := by
  unfold byteAt
  rw [List.getElem?_take_of_lt (by omega)]

/-- Number of registers the coupler cuts out for a module of `bc` bytes. -/
def rawWords (bc : Nat) : Nat := if bc / 2 = 0 then 1 else bc / 2

theorem rawWords_pos (bc : Nat) : 0 < rawWords bc := by
  unfold rawWords; split <;> omega

/-- The register at which the coupler starts to cut. -/
def rawStart (off addr : Word) : Nat := ((toRegisterAddress off).1 - addr).toNat

theorem rawStart_eq (off addr : Word) (h : addr.toNat * 16 ≤ off.toNat) :
    rawStart off addr = (off.toNat - addr.toNat * 16) / 16 := by
  unfold rawStart
  have hr := reg_toNat off
  rw [BitVec.toNat_sub_of_le (by rw [BitVec.le_def]; omega), hr]
  omega

theorem prepareRaw_unfold (oc : Bool) (off addr : Word) (bc : Nat) (data : List Word) :
    prepareRawDataToProcess oc off addr bc data =
      if oc && decide (off.toNat / 16 < addr.toNat) then .panic
      else if rawStart off addr + rawWords bc > data.length then .err .bufferLength
      else if off.toNat % 16 = 0 then
        .ok ((data.drop (rawStart off addr)).take (rawWords bc))
      else if off.toNat % 16 = 8 then
        shiftData ((data.drop (rawStart off addr)).take (rawWords bc))
      else .err .moduleOffset := by
  have hr := reg_toNat off
  have hb := bit_eq off
  unfold prepareRawDataToProcess rawStart rawWords
  generalize toRegisterAddress off = r at hr hb
  obtain ⟨start, bit⟩ := r
  simp only at hr hb
  simp only [hr]
  generalize (if bc / 2 = 0 then 1 else bc / 2) = n
  split
  · rfl
  · split
    · rfl
    · split
      · rename_i h
        rw [if_pos hb.symm]
      · rename_i h
        rw [if_neg (by omega), if_pos hb.symm]
      · rename_i h0 h8
        rw [if_neg (fun h => h0 (by omega)), if_neg (fun h => h8 (by omega))]

theorem prepareRaw_ne_panic (oc : Bool) (off addr : Word) (bc : Nat) (data : List Word)
    (h : oc = true → addr.toNat * 16 ≤ off.toNat) :
    prepareRawDataToProcess oc off addr bc data ≠ .panic := by
  rw [prepareRaw_unfold]
  split
  · rename_i hp
    simp only [Bool.and_eq_true, decide_eq_true_eq] at hp
    have := h hp.1
    omega
  · split
    · simp
    · rename_i hl
      split
      · simp
      · split
        · have hw := rawWords_pos bc
          obtain ⟨raw, hr, -⟩ := shiftData_spec
            ((data.drop (rawStart off addr)).take (rawWords bc)) (by
              intro he
              have := congrArg List.length he
              simp only [List.length_take, List.length_drop, List.length_nil] at this
              omega)
          rw [hr]; simp
        · simp

/-- What the coupler passes to a module: the bytes from the offset on, except that at a high byte
the last byte is missing and replaced by zero. -/
theorem prepareRaw_ok {oc : Bool} {off addr : Word} {bc : Nat} {data raw : List Word}
    (h : prepareRawDataToProcess oc off addr bc data = .ok raw) :
    raw.length = rawWords bc ∧ rawStart off addr + rawWords bc ≤ data.length ∧
      ((off.toNat % 16 = 0 ∧
        ∀ k, k < 2 * rawWords bc → byteAt raw k = byteAt data (2 * rawStart off addr + k)) ∨
       (off.toNat % 16 = 8 ∧
        (∀ k, k + 1 < 2 * rawWords bc →
          byteAt raw k = byteAt data (2 * rawStart off addr + 1 + k)) ∧
        byteAt raw (2 * rawWords bc - 1) = some 0#8)) := by
  rw [prepareRaw_unfold] at h
  split at h
  · cases h
  · split at h
    · cases h
    · rename_i hl
      have hlen : ((data.drop (rawStart off addr)).take (rawWords bc)).length = rawWords bc := by
        rw [List.length_take, List.length_drop]
        omega
      split at h
      · rename_i h0
        cases h
        refine ⟨hlen, by omega, .inl ⟨h0, fun k hk => ?_⟩⟩
        rw [byteAt_take _ _ _ hk, byteAt_drop]
      · split at h
        · rename_i h0 h8
          have hw := rawWords_pos bc
          obtain ⟨raw', hr, h1, h2, h3⟩ := shiftData_spec
            ((data.drop (rawStart off addr)).take (rawWords bc)) (by
              intro he
              rw [he, List.length_nil] at hlen
              omega)
          rw [hr] at h
          cases h
          rw [hlen] at h1 h2 h3
          refine ⟨h1, by omega, .inr ⟨h8, fun k hk => ?_, h3⟩⟩
          rw [h2 k hk, byteAt_take _ _ _ hk, byteAt_drop]
          congr 1
          omega
        · cases h

/-- The same with positions computed from the offset. -/
theorem prepareRaw_bytes {oc : Bool} {off addr : Word} {bc : Nat} {data raw : List Word}
    (h : prepareRawDataToProcess oc off addr bc data = .ok raw)
    (ha : addr.toNat * 16 ≤ off.toNat) (k : Nat) (hk : k < 2 * rawWords bc - off.toNat % 16 / 8) :
    byteAt raw k = byteAt data ((off.toNat - addr.toNat * 16) / 8 + k) := by
  have hs := rawStart_eq off addr ha
  obtain ⟨-, -, ⟨h0, hb⟩ | ⟨h8, hb, -⟩⟩ := prepareRaw_ok h
  · rw [hb k (by omega), hs]
    congr 1
    omega
  · rw [hb k (by omega), hs]
    congr 1
    omega

end Ur20
