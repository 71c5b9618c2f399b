import Verif.Source.Error
import Verif.Source.Util
import Verif.Lemmas.Basic
import Verif.Model.ErrorText
import Mathlib.Tactic.Linarith

/-!
Lemmas about the operators that the translated source refers to, and the equality of the
translation of `src/error.rs`, `src/lib.rs` and `src/util.rs` with the model.
-/

namespace Ur20.Src

/-! ## Operators -/

theorem capture_bind_release {α β : Type} (x : Res α) (f : α → Res β) :
    (r_capture x).bind (fun r => (r_release r).bind f) = x.bind f := by
  cases x <;> rfl

@[simp] theorem index_eq {α : Type} (l : List α) (i : Nat) : r_index l i = idx l i := rfl

@[simp] theorem to_vec_eq {α : Type} (l : List α) : r_to_vec l = l := rfl

@[simp] theorem add_nat (oc : Bool) (a b : Nat) : r_add oc a b = .ok (a + b) := rfl
@[simp] theorem mul_nat (oc : Bool) (a b : Nat) : r_mul oc a b = .ok (a * b) := rfl
theorem sub_nat (oc : Bool) {a b : Nat} (h : b ≤ a) : r_sub oc a b = .ok (a - b) := by
  simp [r_sub, Arith.sub, h]
theorem div_nat (oc : Bool) (a : Nat) {b : Nat} (h : b ≠ 0) : r_div oc a b = .ok (a / b) := by
  simp [r_div, Arith.div, h]
theorem rem_nat (oc : Bool) (a : Nat) {b : Nat} (h : b ≠ 0) : r_rem oc a b = .ok (a % b) := by
  simp [r_rem, Arith.rem, h]
@[simp] theorem add_f32 (oc : Bool) (a b : F32) : r_add oc a b = .ok (a + b) := rfl
@[simp] theorem sub_f32 (oc : Bool) (a b : F32) : r_sub oc a b = .ok (a - b) := rfl
@[simp] theorem mul_f32 (oc : Bool) (a b : F32) : r_mul oc a b = .ok (a * b) := rfl
@[simp] theorem div_f32 (oc : Bool) (a b : F32) : r_div oc a b = .ok (a / b) := rfl

@[simp] theorem iter_nil {α : Type} : r_iter ([] : List α) = [] := rfl
@[simp] theorem iter_cons {α : Type} (a : α) (l : List α) : r_iter (a :: l) = .ok a :: r_iter l := rfl

theorem collect_map_iter {α β : Type} (l : List α) (f : α → Res β) :
    r_collect (r_map (r_iter l) f) = mapRes f l := by
  induction l with
  | nil => rfl
  | cons a l ih =>
    simp only [r_iter, List.map_cons, r_map, r_collect, Res.bind_ok, mapRes_cons] at ih ⊢
    rw [ih]

theorem range_eq (n : Nat) : r_range 0 n = r_iter (List.range n) := by
  simp [r_range, r_iter, List.range_eq_range']

theorem collect_map_range {β : Type} (n : Nat) (f : Nat → Res β) :
    r_collect (r_map (r_range 0 n) f) = mapRes f (List.range n) := by
  rw [range_eq, collect_map_iter]

theorem collect_iter {α : Type} (l : List α) : r_collect (r_iter l) = .ok l := by
  induction l with
  | nil => rfl
  | cons a l ih => simp only [iter_cons, r_collect, Res.bind_ok, ih]

theorem enumerateFrom_iter {α : Type} (l : List α) (n : Nat) :
    enumerateFrom n (r_iter l) = r_iter ((l.zipIdx n).map fun p => (p.2, p.1)) := by
  induction l generalizing n with
  | nil => rfl
  | cons a l ih => simp [enumerateFrom, ih]

theorem enumerate_iter {α : Type} (l : List α) :
    r_enumerate (r_iter l) = r_iter (l.zipIdx.map fun p => (p.2, p.1)) := enumerateFrom_iter l 0

theorem map_iter_ok {α β : Type} (l : List α) (f : α → β) :
    r_map (r_iter l) (fun a => .ok (f a)) = r_iter (l.map f) := by
  simp [r_map, r_iter]

theorem zip_iter {α β : Type} (l : List α) (m : List β) :
    r_zip (r_iter l) (r_iter m) = r_iter (l.zip m) := by
  induction l generalizing m with
  | nil => simp [r_zip, r_iter]
  | cons a l ih =>
    cases m with
    | nil => simp [r_zip, r_iter]
    | cons b m => simpa [r_zip] using ih m

theorem take_iter {α : Type} (l : List α) (n : Nat) : r_take (r_iter l) n = r_iter (l.take n) := by
  simp [r_take, r_iter]

section loop
variable {m : Type → Type} [Monad m] {α σ : Type}
@[simp] theorem loop_nil (s : σ) (f : σ → α → m σ) : r_loop [] s f = pure s := rfl
@[simp] theorem loop_cons (a : α) (l : List α) (s : σ) (f : σ → α → m σ) :
    r_loop (a :: l) s f = f s a >>= fun s => r_loop l s f := rfl
end loop

/-! ## `src/error.rs` -/

theorem error_fmt_eq (oc : Bool) (e : Error) : error.Error.fmt oc e = .ok e.display := by
  cases e <;> rfl

theorem error_description_eq (oc : Bool) (e : Error) :
    error.Error.description oc e = .ok e.description := by
  cases e <;> rfl

/-! ## `src/lib.rs` -/

theorem factor_eq (oc : Bool) (d : DataFormat) : lib.DataFormat.factor oc d = .ok d.factor := by
  cases d <;> rfl

theorem channel_count_eq (oc : Bool) (m : ModuleType) :
    lib.ModuleType.channel_count oc m = .ok m.channelCount := by
  cases m <;> rfl

theorem category_eq (oc : Bool) (m : ModuleType) :
    lib.ModuleCategory.from_ModuleType oc m = .ok m.category := by
  cases m <;> rfl

/-! ## `src/util.rs` -/

theorem bit_mask_eq (oc : Bool) {n : Nat} (h : n < 64) : util.bit_mask oc n = .ok (2 ^ n) := by
  have h1 : n % 64 = n := Nat.mod_eq_of_lt h
  have h2 : (2 : Nat) ^ n < 2 ^ 64 := Nat.pow_lt_pow_right (by omega) h
  simp only [util.bit_mask, r_shl, Shift.shl]
  rw [if_neg (by omega), h1, Nat.one_shiftLeft, Nat.mod_eq_of_lt h2]

theorem set_bit_eq (oc : Bool) (v : Byte) {n : Nat} (h : n < 64) :
    util.set_bit oc v n = .ok (setBit v n) := by
  simp only [util.set_bit, bit_mask_eq oc h, Res.bind_eq, Res.bind_ok, Res.pure_eq]; rfl

theorem set_bit_16_eq (oc : Bool) (v : Word) {n : Nat} (h : n < 64) :
    util.set_bit_16 oc v n = .ok (setBit16 v n) := by
  simp only [util.set_bit_16, bit_mask_eq oc h, Res.bind_eq, Res.bind_ok, Res.pure_eq]; rfl

theorem test_bit_16_eq (oc : Bool) (v : Word) {n : Nat} (h : n < 64) :
    util.test_bit_16 oc v n = .ok (testBit16 v n) := by
  simp only [util.test_bit_16, bit_mask_eq oc h, Res.bind_eq, Res.bind_ok, Res.pure_eq]; rfl

theorem test_bit_eq (oc : Bool) (v : Byte) {n : Nat} (h : n < 64) :
    util.test_bit oc v n = .ok (testBit v n) := by
  simp only [util.test_bit, test_bit_16_eq oc _ h]; rfl

theorem loByte_eq (w : Word) : (r_to_le_bytes w).1 = loByte w := by
  simp only [r_to_le_bytes, loByte]
  apply BitVec.eq_of_toNat_eq
  have : ∀ n : Nat, n &&& 255 = n % 256 := fun n => Nat.and_two_pow_sub_one_eq_mod n 8
  simp [this]

theorem u16_to_u8_eq (oc : Bool) (ws : List Word) : util.u16_to_u8 oc ws = .ok (u16ToU8 ws) := by
  simp only [util.u16_to_u8, mul_nat, Res.bind_eq, Res.bind_ok, Res.pure_eq, write_u16_into,
    List.length_replicate, if_true]
  congr 1
  induction ws with
  | nil => rfl
  | cons w ws ih =>
    rw [List.flatMap_cons, ih, loByte_eq]
    rfl

theorem pairs_eq : ∀ (bs : List Byte), bs.length % 2 = 0 → pairs bs = u8ToU16 bs
  | [], _ => rfl
  | [_], h => by simp at h
  | b :: c :: bs, h => by
    simp only [pairs, u8ToU16, leWord]
    rw [pairs_eq bs (by simp only [List.length_cons] at h; omega), BitVec.or_comm]

theorem u8ToU16_pad : ∀ (bs : List Byte), bs.length % 2 = 1 → u8ToU16 (bs ++ [0#8]) = u8ToU16 bs
  | [], h => by simp at h
  | [_], _ => rfl
  | b :: c :: bs, h => by
    simp only [List.cons_append, u8ToU16]
    rw [u8ToU16_pad bs (by simp only [List.length_cons] at h; omega)]

theorem u8_to_u16_eq (oc : Bool) (bs : List Byte) : util.u8_to_u16 oc bs = .ok (u8ToU16 bs) := by
  simp only [util.u8_to_u16, List.nil_append, Res.bind_eq, rem_nat oc _ (by decide : (2 : Nat) ≠ 0),
    div_nat oc _ (by decide : (2 : Nat) ≠ 0), Res.bind_ok, add_nat, Res.pure_eq]
  by_cases h : bs.length % 2 = 0
  · simp only [h, bne_self_eq_false, Bool.false_eq_true, if_false, Res.bind_ok, read_u16_into,
      List.length_replicate]
    rw [if_pos (by omega), pairs_eq bs h]; rfl
  · have h' : bs.length % 2 = 1 := by omega
    simp only [h', show ((1 : Nat) != 0) = true from rfl, if_true, Res.bind_ok, read_u16_into,
      List.length_replicate, List.length_append, List.length_singleton]
    rw [if_pos (by omega), pairs_eq _ (by simp only [List.length_append, List.length_singleton]; omega)]
    simp only [Res.bind_ok]
    exact congrArg Res.ok (u8ToU16_pad bs h')

theorem shift_data_eq (oc : Bool) (ws : List Word) : util.shift_data oc ws = shiftData ws := by
  simp only [util.shift_data, u16_to_u8_eq, u8_to_u16_eq, Res.bind_eq, Res.bind_ok,
    r_slice_from, shiftData]
  cases u16ToU8 ws with
  | nil => rfl
  | cons b bs => simp

@[simp] theorem word_i16_f32 (w : Word) : (r_from (r_as w : I16) : F32) = wordToF32 w := by
  simp only [r_from, r_as, Cast.cast, wordToF32]
@[simp] theorem f32_i16_word (v : F32) : (r_as (r_as v : I16) : Word) = f32ToWord v := by
  simp only [r_as, Cast.cast, f32ToWord]

theorem analog_ui_value_to_u16_eq (oc : Bool) (v : F32) (r : AnalogUIRange) (d : DataFormat) :
    util.analog_ui_value_to_u16 oc v r d = .ok (analogUiValueToU16 v r d) := by
  cases r <;> simp [util.analog_ui_value_to_u16, factor_eq, analogUiValueToU16]

theorem u16_to_analog_ui_value_eq (oc : Bool) (w : Word) (r : AnalogUIRange) (d : DataFormat) :
    util.u16_to_analog_ui_value oc w r d = .ok (u16ToAnalogUiValue w r d) := by
  cases r <;> simp [util.u16_to_analog_ui_value, factor_eq, u16ToAnalogUiValue]

theorem word_u32_f32 (w : Word) : (r_as (r_from w : BitVec 32) : F32) = F32.lit (w.toNat : Rat) := by
  have : (w.setWidth 32).toNat = w.toNat := by
    simp only [BitVec.toNat_setWidth]
    exact Nat.mod_eq_of_lt (Nat.lt_trans w.isLt (by decide))
  simp only [r_as, r_from, Cast.cast, this]

theorem u16_to_rtd_value_eq (oc : Bool) (w : Word) (r : RtdRange) :
    util.u16_to_rtd_value oc w r = .ok (u16ToRtdValue w r) := by
  cases r <;> simp [util.u16_to_rtd_value, u16ToRtdValue, word_u32_f32, rtdResistance]

end Ur20.Src
