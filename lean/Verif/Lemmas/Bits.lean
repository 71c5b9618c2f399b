import Verif.Model.Coupler
import Verif.Lemmas.Basic

/-! Bit level lemmas about words, bytes and addresses. -/

set_option linter.unusedSimpArgs false

namespace Ur20

theorem reg_eq (a : Word) : (toRegisterAddress a).1 = a >>> 4 := by
  unfold toRegisterAddress
  ext i hi
  simp only [BitVec.getElem_ushiftRight, BitVec.getLsbD_and]
  have : ∀ i : Fin 16, (0xFFF0#16).getLsbD (4 + i.val) = decide (4 + i.val < 16) := by decide
  have := this ⟨i, hi⟩
  simp only at this
  rw [this]
  by_cases h : 4 + i < 16
  · simp [h]
  · simp [h, BitVec.getLsbD_of_ge a (4 + i) (by omega)]

theorem reg_toNat (a : Word) : (toRegisterAddress a).1.toNat = a.toNat / 16 := by
  rw [reg_eq]; simp [Nat.shiftRight_eq_div_pow]

theorem bit_eq (a : Word) : (toRegisterAddress a).2 = a.toNat % 16 := by
  unfold toRegisterAddress
  simp only [BitVec.toNat_and]
  exact Nat.and_two_pow_sub_one_eq_mod a.toNat 4

theorem toBitAddress_toNat (r : Word) (b : Nat) (hr : r.toNat < 0x1000) (hb : b < 16) :
    (toBitAddress r b).toNat = r.toNat * 16 + b := by
  unfold toBitAddress
  have h1 : (r <<< 4).toNat = r.toNat * 2 ^ 4 := by
    rw [BitVec.toNat_shiftLeft, Nat.shiftLeft_eq, Nat.mod_eq_of_lt]; omega
  rw [BitVec.toNat_or, h1, BitVec.toNat_ofNat, Nat.mod_eq_of_lt (by omega : b < 2 ^ 16),
    Nat.mul_comm, ← Nat.two_pow_add_eq_or_of_lt (by omega : b < 2 ^ 4)]

/-! ### Single bits -/

theorem testBit16_eq (w : Word) (i : Nat) (h : i < 16) : testBit16 w i = w.getLsbD i := by
  have key : (w &&& bitMask16 i) = if w.getLsbD i then bitMask16 i else 0#16 := by
    ext j hj
    have hm : (bitMask16 i)[j] = decide (j = i) := by
      rw [← BitVec.getLsbD_eq_getElem, bitMask16, BitVec.getLsbD_ofNat, Nat.testBit_two_pow]
      simp [hj, eq_comm]
    rw [BitVec.getElem_and, hm]
    by_cases hij : j = i
    · subst hij
      cases hw : w.getLsbD j <;> simp_all [BitVec.getLsbD_eq_getElem]
    · cases hw : w.getLsbD i <;> simp_all
  unfold testBit16
  rw [key]
  cases w.getLsbD i with
  | false => rfl
  | true =>
    have : ∀ i : Fin 16, (bitMask16 i.val != 0) = true := by decide
    exact this ⟨i, h⟩

theorem getLsbD_setBit16 (w : Word) (i j : Nat) (h : j < 16) :
    (setBit16 w i).getLsbD j = (w.getLsbD j || decide (j = i)) := by
  unfold setBit16 bitMask16
  rw [BitVec.getLsbD_or, BitVec.getLsbD_ofNat, Nat.testBit_two_pow]
  simp [h, eq_comm]

theorem testBit_eq (b : Byte) (i : Nat) (h : i < 8) : testBit b i = b.getLsbD i := by
  unfold testBit
  rw [testBit16_eq _ _ (by omega), BitVec.getLsbD_setWidth]
  simp [show i < 16 by omega]

/-! ### Words and bytes -/

theorem getLsbD_loByte (w : Word) (i : Nat) :
    (loByte w).getLsbD i = (decide (i < 8) && w.getLsbD i) := by
  unfold loByte
  rw [BitVec.getLsbD_setWidth, BitVec.getLsbD_and]
  by_cases h : i < 8
  · have : ∀ i : Fin 8, (0xff#16).getLsbD i.val = true := by decide
    have := this ⟨i, h⟩
    simp only at this
    simp [h, this]
  · simp [h]

theorem getLsbD_hiByte (w : Word) (i : Nat) :
    (hiByte w).getLsbD i = (decide (i < 8) && w.getLsbD (8 + i)) := by
  unfold hiByte
  rw [BitVec.getLsbD_setWidth, BitVec.getLsbD_ushiftRight]

theorem getLsbD_leWord (lo hi : Byte) (i : Nat) :
    (leWord lo hi).getLsbD i =
      if i < 8 then lo.getLsbD i else (decide (i < 16) && hi.getLsbD (i - 8)) := by
  unfold leWord
  rw [BitVec.getLsbD_or, BitVec.getLsbD_shiftLeft, BitVec.getLsbD_setWidth,
    BitVec.getLsbD_setWidth]
  by_cases h : i < 8
  · simp [h, show i < 16 by omega]
  · by_cases h2 : i < 16
    · simp [h, h2, BitVec.getLsbD_of_ge lo i (by omega), show i - 8 < 16 by omega]
    · simp [h, h2]

@[simp] theorem loByte_leWord (lo hi : Byte) : loByte (leWord lo hi) = lo := by
  apply BitVec.eq_of_getLsbD_eq
  intro i hi'
  rw [getLsbD_loByte, getLsbD_leWord]
  simp only [hi', decide_true, Bool.true_and, if_true]

@[simp] theorem hiByte_leWord (lo hi : Byte) : hiByte (leWord lo hi) = hi := by
  apply BitVec.eq_of_getLsbD_eq
  intro i hi'
  rw [getLsbD_hiByte, getLsbD_leWord]
  simp only [hi', decide_true, Bool.true_and, show ¬ 8 + i < 8 by omega, if_false,
    show 8 + i < 16 by omega, show 8 + i - 8 = i by omega]

@[simp] theorem leWord_lo_hi (w : Word) : leWord (loByte w) (hiByte w) = w := by
  apply BitVec.eq_of_getLsbD_eq
  intro i hi
  rw [getLsbD_leWord, getLsbD_loByte, getLsbD_hiByte]
  by_cases h : i < 8
  · simp [h]
  · simp [h, hi, show i - 8 < 8 by omega, show 8 + (i - 8) = i by omega]

theorem loByte_toNat (w : Word) : (loByte w).toNat = w.toNat % 256 := by
  unfold loByte
  rw [BitVec.toNat_setWidth, BitVec.toNat_and]
  have : w.toNat &&& (0xff#16).toNat = w.toNat % 2 ^ 8 := Nat.and_two_pow_sub_one_eq_mod w.toNat 8
  rw [this]; omega

theorem hiByte_toNat (w : Word) : (hiByte w).toNat = w.toNat / 256 := by
  unfold hiByte
  rw [BitVec.toNat_setWidth, BitVec.toNat_ushiftRight, Nat.shiftRight_eq_div_pow]
  have := w.isLt
  omega

theorem leWord_toNat (lo hi : Byte) : (leWord lo hi).toNat = hi.toNat * 256 + lo.toNat := by
  have h1 := loByte_toNat (leWord lo hi)
  have h2 := hiByte_toNat (leWord lo hi)
  simp at h1 h2
  omega

theorem u16ToU8_length (ws : List Word) : (u16ToU8 ws).length = 2 * ws.length := by
  induction ws with
  | nil => rfl
  | cons w ws ih => simp [u16ToU8, ih]; omega

theorem u8ToU16_u16ToU8 (ws : List Word) : u8ToU16 (u16ToU8 ws) = ws := by
  induction ws with
  | nil => rfl
  | cons w ws ih => simp [u16ToU8, u8ToU16, ih]

theorem u8ToU16_length (bs : List Byte) : (u8ToU16 bs).length = (bs.length + 1) / 2 := by
  fun_induction u8ToU16 bs with
  | case1 => rfl
  | case2 => simp
  | case3 b c bs ih => simp [ih]; omega

theorem u16ToU8_u8ToU16 (bs : List Byte) (h : bs.length % 2 = 0) : u16ToU8 (u8ToU16 bs) = bs := by
  fun_induction u8ToU16 bs with
  | case1 => rfl
  | case2 => simp at h
  | case3 b c bs ih =>
    simp only [u16ToU8, loByte_leWord, hiByte_leWord]
    rw [ih]; simp at h; omega

theorem u16ToU8_append (a b : List Word) : u16ToU8 (a ++ b) = u16ToU8 a ++ u16ToU8 b := by
  induction a with
  | nil => rfl
  | cons w ws ih => simp [u16ToU8, ih]

end Ur20
