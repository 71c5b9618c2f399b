import Verif.Source.Lib

/-!
# `src/util.rs`, translated

Generated by `tools/rust2lean.py` from the source. Do not edit.
-/

set_option linter.unusedVariables false

namespace Ur20.Src.util

/-- `bit_mask`, `src/util.rs:22-24`. -/
def bit_mask (oc : Bool) (bit : Nat) :
    Res Nat := do
  let t1 ← r_shl oc 1 bit
  pure t1

/-- `set_bit`, `src/util.rs:4-7`. -/
def set_bit (oc : Bool) (val : Byte) (bit_nr : Nat) :
    Res Byte := do
  let t1 ← bit_mask oc bit_nr
  let val := val ||| (r_as t1 : Byte)
  pure val

/-- `set_bit_16`, `src/util.rs:9-12`. -/
def set_bit_16 (oc : Bool) (val : Word) (bit_nr : Nat) :
    Res Word := do
  let t1 ← bit_mask oc bit_nr
  let val := val ||| (r_as t1 : Word)
  pure val

/-- `test_bit_16`, `src/util.rs:18-20`. -/
def test_bit_16 (oc : Bool) (val : Word) (bit_nr : Nat) :
    Res Bool := do
  let t1 ← bit_mask oc bit_nr
  pure ((val &&& (r_as t1 : Word)) != 0)

/-- `test_bit`, `src/util.rs:14-16`. -/
def test_bit (oc : Bool) (val : Byte) (bit_nr : Nat) :
    Res Bool := do
  let t1 ← test_bit_16 oc (r_from val : Word) bit_nr
  pure t1

/-- `u16_to_u8`, `src/util.rs:26-30`. -/
def u16_to_u8 (oc : Bool) (words : List Word) :
    Res (List Byte) := do
  let t1 ← r_mul oc 2 words.length
  let bytes : List Byte := List.replicate t1 0
  let t2 ← write_u16_into words bytes
  let bytes := t2
  pure bytes

/-- `u8_to_u16`, `src/util.rs:32-44`. -/
def u8_to_u16 (oc : Bool) (bytes : List Byte) :
    Res (List Word) := do
  let src : List Byte := []
  let src := src ++ bytes
  let cnt := src.length
  let t1 ← r_rem oc cnt 2
  let (cnt, src) ← (if t1 != 0 then
        (do
          let t2 ← r_add oc cnt 1
          let cnt := t2
          let src := src ++ [0]
          pure (cnt, src))
      else
        (pure (cnt, src)))
  let t3 ← r_div oc cnt 2
  let cnt := t3
  let words : List Word := List.replicate cnt 0
  let t4 ← read_u16_into src words
  let words := t4
  pure words

/-- `shift_data`, `src/util.rs:46-53`. -/
def shift_data (oc : Bool) (data : List Word) :
    Res (List Word) := do
  let t1 ← u16_to_u8 oc data
  let buf := t1
  let t2 ← r_slice_from buf 1
  let buf := t2
  let shifted : List Byte := []
  let shifted := shifted ++ buf
  let shifted := shifted ++ [0]
  let t3 ← u8_to_u16 oc shifted
  pure t3

/-- `analog_ui_value_to_u16`, `src/util.rs:55-69`. -/
def analog_ui_value_to_u16 (oc : Bool) (v : F32) (range : AnalogUIRange) (format : DataFormat) :
    Res Word := do
  let t1 ← lib.DataFormat.factor oc format
  let factor := t1
  let v ← (match range with
      | AnalogUIRange.mA0To20 =>
        (do
          let t2 ← r_mul oc factor v
          let t3 ← r_div oc t2 (F32.lit 20)
          pure t3)
      | AnalogUIRange.mA4To20 =>
        (do
          let t4 ← r_sub oc v (F32.lit 4)
          let t5 ← r_mul oc factor t4
          let t6 ← r_div oc t5 (F32.lit 16)
          pure t6)
      | AnalogUIRange.V0To10 | AnalogUIRange.VMinus10To10 =>
        (do
          let t7 ← r_mul oc factor v
          let t8 ← r_div oc t7 (F32.lit 10)
          pure t8)
      | AnalogUIRange.V0To5 | AnalogUIRange.VMinus5To5 =>
        (do
          let t9 ← r_mul oc factor v
          let t10 ← r_div oc t9 (F32.lit 5)
          pure t10)
      | AnalogUIRange.V1To5 =>
        (do
          let t11 ← r_sub oc v (F32.lit 1)
          let t12 ← r_mul oc factor t11
          let t13 ← r_div oc t12 (F32.lit 4)
          pure t13)
      | AnalogUIRange.V2To10 =>
        (do
          let t14 ← r_sub oc v (F32.lit 2)
          let t15 ← r_mul oc factor t14
          let t16 ← r_div oc t15 (F32.lit 8)
          pure t16)
      | AnalogUIRange.Disabled =>
        (pure (F32.lit 0)))
  pure (r_as (r_as v : I16) : Word)

/-- `u16_to_analog_ui_value`, `src/util.rs:71-89`. -/
def u16_to_analog_ui_value (oc : Bool) (data : Word) (range : AnalogUIRange) (format : DataFormat) :
    Res (Option F32) := do
  let t1 ← lib.DataFormat.factor oc format
  let factor := t1
  let data := (r_from (r_as data : I16) : F32)
  (match range with
  | AnalogUIRange.mA0To20 =>
    (do
      let t2 ← r_mul oc data (F32.lit 20)
      let t3 ← r_div oc t2 factor
      pure (some t3))
  | AnalogUIRange.mA4To20 =>
    (do
      let t4 ← r_mul oc data (F32.lit 16)
      let t5 ← r_div oc t4 factor
      let t6 ← r_add oc t5 (F32.lit 4)
      pure (some t6))
  | AnalogUIRange.V0To10 | AnalogUIRange.VMinus10To10 =>
    (do
      let t7 ← r_mul oc data (F32.lit 10)
      let t8 ← r_div oc t7 factor
      pure (some t8))
  | AnalogUIRange.V0To5 | AnalogUIRange.VMinus5To5 =>
    (do
      let t9 ← r_mul oc data (F32.lit 5)
      let t10 ← r_div oc t9 factor
      pure (some t10))
  | AnalogUIRange.V1To5 =>
    (do
      let t11 ← r_mul oc data (F32.lit 4)
      let t12 ← r_div oc t11 factor
      let t13 ← r_add oc t12 (F32.lit 1)
      pure (some t13))
  | AnalogUIRange.V2To10 =>
    (do
      let t14 ← r_mul oc data (F32.lit 8)
      let t15 ← r_div oc t14 factor
      let t16 ← r_add oc t15 (F32.lit 2)
      pure (some t16))
  | AnalogUIRange.Disabled =>
    (pure none))

/-- `u16_to_rtd_value`, `src/util.rs:91-117`. -/
def u16_to_rtd_value (oc : Bool) (data : Word) (range : RtdRange) :
    Res (Option F32) := do
  (match range with
  | RtdRange.PT100 | RtdRange.PT200 | RtdRange.PT500 | RtdRange.PT1000 | RtdRange.NI100 | RtdRange.NI120 | RtdRange.NI200 | RtdRange.NI500 | RtdRange.NI1000 | RtdRange.Cu10 =>
    (do
      let t1 ← r_div oc (r_from (r_as data : I16) : F32) (F32.lit 10)
      pure (some t1))
  | RtdRange.R40 | RtdRange.R80 | RtdRange.R150 | RtdRange.R300 | RtdRange.R500 | RtdRange.R1000 | RtdRange.R2000 | RtdRange.R4000 =>
    (do
      let n ← (match range with
          | RtdRange.R40 =>
            (pure (F32.lit 40))
          | RtdRange.R80 =>
            (pure (F32.lit 80))
          | RtdRange.R150 =>
            (pure (F32.lit 150))
          | RtdRange.R300 =>
            (pure (F32.lit 300))
          | RtdRange.R500 =>
            (pure (F32.lit 500))
          | RtdRange.R1000 =>
            (pure (F32.lit 1000))
          | RtdRange.R2000 =>
            (pure (F32.lit 2000))
          | RtdRange.R4000 =>
            (pure (F32.lit 4000))
          | _ =>
            (Res.panic))
      let t2 ← r_mul oc n (r_as (r_from data : BitVec 32) : F32)
      let t3 ← r_div oc t2 (F32.lit 27648)
      let d := t3
      pure (some d))
  | RtdRange.Disabled =>
    (pure none))

end Ur20.Src.util
