import Verif.Model.Outcome

/-!
# IEEE-754 single precision numbers

Model of Rust's `f32` as far as the crate uses it. A finite number is represented by its exact
rational value; every arithmetic operation is the exact rational operation followed by one
rounding (round to nearest, ties to even, gradual underflow, overflow to infinity), which is
what IEEE-754 and Rust prescribe. Simplifications: `+0.0` and `-0.0` are identified (the crate
never divides by a negative zero and never prints or compares bit patterns), and all NaNs are
identified; C94 proves that the computations of the crate on bit patterns have the same results. `Verif/Lemmas/F32.lean` proves that `F32.round` returns a representable number, that
it is a nearest one, and that it is the identity on representable numbers.
-/

namespace Ur20

/-- A single precision float: NaN, an infinity or a finite value. -/
inductive F32 where
  | nan
  | inf (neg : Bool)
  | fin (q : Rat)
  deriving DecidableEq, Repr

/-- `2 ^ z` as a rational number. -/
def pow2 : Int → Rat
  | .ofNat n => ((2 ^ n : Nat) : Rat)
  | .negSucc n => mkRat 1 (2 ^ (n + 1))

/-- Absolute value. -/
def ratAbs (q : Rat) : Rat := if q < 0 then -q else q

/-- `⌊log₂ |q|⌋` for `q ≠ 0`: the binary exponent of `q`. -/
def ilog2 (q : Rat) : Int :=
  let e : Int := (Nat.log2 q.num.natAbs : Int) - (Nat.log2 q.den : Int)
  if pow2 e ≤ ratAbs q then e else e - 1

/-- Nearest integer, ties to even. -/
def roundEven (q : Rat) : Int :=
  let f := q.floor
  let r := q - f
  if r < 1 / 2 then f
  else if 1 / 2 < r then f + 1
  else if f % 2 = 0 then f
  else f + 1

namespace F32

/-- Exponent of the unit in the last place used for `q ≠ 0`: 24 bit significands, and no unit
below `2 ^ -149`. -/
def ulpExp (q : Rat) : Int := max (ilog2 q - 23) (-149)

/-- Rounding without the overflow check. -/
def roundQ (q : Rat) : Rat :=
  if q = 0 then 0
  else (roundEven (q * pow2 (-ulpExp q)) : Rat) * pow2 (ulpExp q)

/-- IEEE-754 binary32 rounding of an exact value. -/
def round (q : Rat) : F32 :=
  let r := roundQ q
  if pow2 128 ≤ ratAbs r then inf (decide (q < 0)) else fin r

/-- `+`. -/
def add : F32 → F32 → F32
  | nan, _ => nan
  | _, nan => nan
  | inf a, inf b => if a = b then inf a else nan
  | inf a, fin _ => inf a
  | fin _, inf b => inf b
  | fin x, fin y => round (x + y)

/-- `-x`. -/
def neg : F32 → F32
  | nan => nan
  | inf a => inf !a
  | fin x => fin (-x)

/-- `-`. -/
def sub (x y : F32) : F32 := add x (neg y)

/-- `*`. -/
def mul : F32 → F32 → F32
  | nan, _ => nan
  | _, nan => nan
  | inf a, inf b => inf (a != b)
  | inf a, fin y => if y = 0 then nan else inf (a != decide (y < 0))
  | fin x, inf b => if x = 0 then nan else inf (decide (x < 0) != b)
  | fin x, fin y => round (x * y)

/-- `/`. A zero divisor counts as positive zero. -/
def div : F32 → F32 → F32
  | nan, _ => nan
  | _, nan => nan
  | inf _, inf _ => nan
  | inf a, fin y => inf (a != decide (y < 0))
  | fin _, inf _ => fin 0
  | fin x, fin y =>
    if y = 0 then (if x = 0 then nan else inf (decide (x < 0)))
    else round (x / y)

instance : Add F32 := ⟨add⟩
instance : Sub F32 := ⟨sub⟩
instance : Mul F32 := ⟨mul⟩
instance : Div F32 := ⟨div⟩

/-- A float literal, or the conversion of an integer to `f32` (`f32::from(i16)`,
`f32::from(u16)`, `n as f32`): the nearest representable number. -/
def lit (q : Rat) : F32 := round q

/-- Truncation towards zero. -/
def truncQ (q : Rat) : Int := if q < 0 then -(-q).floor else q.floor

/-- Saturation to the range of `i16`. -/
def clampI16 (z : Int) : Int := if z < -32768 then -32768 else if 32767 < z then 32767 else z

/-- `v as i16`: truncates towards zero, saturates, and maps NaN to 0. -/
def toI16 : F32 → Int
  | nan => 0
  | inf true => -32768
  | inf false => 32767
  | fin q => clampI16 (truncQ q)

end F32

end Ur20
