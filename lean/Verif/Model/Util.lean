import Verif.Model.Outcome

/-!
# Bit and byte helpers (`src/util.rs:1-53`)
-/

namespace Ur20

/-- `bit_mask(bit) as u16`, `src/util.rs:22-24`. `1usize << bit` truncated to 16 bits.
Simplification: a shift by 64 or more (overflow panic in debug builds) is not modelled;
every call in the crate passes a bit number below 16. -/
def bitMask16 (bit : Nat) : Word := BitVec.ofNat 16 (2 ^ bit)

/-- `bit_mask(bit) as u8`, `src/util.rs:22-24`; same simplification. -/
def bitMask8 (bit : Nat) : Byte := BitVec.ofNat 8 (2 ^ bit)

/-- `set_bit`, `src/util.rs:4-7`. -/
def setBit (val : Byte) (bitNr : Nat) : Byte := val ||| bitMask8 bitNr

/-- `set_bit_16`, `src/util.rs:9-12`. -/
def setBit16 (val : Word) (bitNr : Nat) : Word := val ||| bitMask16 bitNr

/-- `test_bit_16`, `src/util.rs:18-20`. -/
def testBit16 (val : Word) (bitNr : Nat) : Bool := (val &&& bitMask16 bitNr) != 0

/-- `test_bit`, `src/util.rs:14-16`. -/
def testBit (val : Byte) (bitNr : Nat) : Bool := testBit16 (val.setWidth 16) bitNr

/-- Low byte of a word, `(w & 0xff) as u8`. -/
def loByte (w : Word) : Byte := (w &&& 0xff#16).setWidth 8

/-- High byte of a word, `(w >> 8) as u8`. -/
def hiByte (w : Word) : Byte := (w >>> 8).setWidth 8

/-- `LittleEndian::read_u16` of two bytes (crate `byteorder`). -/
def leWord (lo hi : Byte) : Word := (hi.setWidth 16 <<< 8) ||| lo.setWidth 16

/-- `u16_to_u8`, `src/util.rs:26-30`. -/
def u16ToU8 : List Word → List Byte
  | [] => []
  | w :: ws => loByte w :: hiByte w :: u16ToU8 ws

/-- `u8_to_u16`, `src/util.rs:32-44`: an odd number of bytes is padded with a zero byte. -/
def u8ToU16 : List Byte → List Word
  | [] => []
  | [b] => [leWord b 0#8]
  | b :: c :: bs => leWord b c :: u8ToU16 bs

/-- `shift_data`, `src/util.rs:46-53`. `&buf[1..]` panics on an empty buffer. -/
def shiftData (data : List Word) : Res (List Word) :=
  match u16ToU8 data with
  | [] => .panic
  | _ :: buf => .ok (u8ToU16 (buf ++ [0#8]))

end Ur20
