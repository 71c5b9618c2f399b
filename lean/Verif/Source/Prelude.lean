import Verif.Model.Imperative
import Verif.Model.Defaults

/-!
# The parts of Rust that the translated source uses

`tools/rust2lean.py` translates the source of the crate to the modules of this directory. This file
gives the meaning of the operators and of the functions of `std`, `num_traits` and `byteorder` that
the translation refers to. Names start with `r_`. `oc` tells whether overflow checks are on.

`usize` is taken as an unbounded number: `+` and `*` on it do not overflow. `-` and `<<` on it are
checked (or wrap) as for 64 bits.
-/

namespace Ur20.Src

/-- `HashMap`. -/
abbrev HMap (α β : Type) := Imp.HMap α β

/-- `HashMap::new`. -/
def HMap.new {α β : Type} : HMap α β := []

/-- `HashMap::get` (and `get_mut`). -/
def r_get {α β : Type} [DecidableEq α] (h : HMap α β) (k : α) : Option β := Imp.HMap.get h k

/-- `HashMap::insert`. -/
def r_insert {α β : Type} [DecidableEq α] (h : HMap α β) (k : α) (v : β) : HMap α β :=
  Imp.HMap.insert h k v

/-- `HashMap::remove`. -/
def r_remove {α β : Type} [DecidableEq α] (h : HMap α β) (k : α) : HMap α β :=
  Imp.HMap.remove h k

/-- `std::time::Duration`, in nanoseconds. -/
abbrev Duration := Nat

/-- `i16`: its 16 bits. -/
structure I16 where
  bits : BitVec 16
  deriving DecidableEq, Repr

instance (n : Nat) : OfNat I16 n := ⟨⟨BitVec.ofNat 16 n⟩⟩
instance : Neg I16 := ⟨fun a => ⟨-a.bits⟩⟩

/-- A `Result` that is kept in a variable: panics happen when it is computed. -/
def r_capture {α : Type} : Res α → Res (Except Error α)
  | .ok a => .ok (.ok a)
  | .err e => .ok (.error e)
  | .panic => .panic

/-- `r?` for a `Result` that was kept in a variable. -/
def r_release {α : Type} : Except Error α → Res α
  | .ok a => .ok a
  | .error e => .err e

/-! ## Methods with `&mut self` that return a `Result` -/

/-- The outcome of a method with `&mut self`: a failure comes with the state reached. -/
inductive Ex (σ α : Type) where
  | ok (a : α)
  | err (e : Error) (s : σ)
  | panic (s : σ)

namespace Ex

/-- Sequential composition. -/
def bind {σ α β : Type} : Ex σ α → (α → Ex σ β) → Ex σ β
  | ok a, f => f a
  | err e s, _ => err e s
  | panic s, _ => panic s

instance {σ : Type} : Monad (Ex σ) where
  pure := ok
  bind := bind

/-- An expression that is evaluated in state `s`. -/
def «at» {σ α : Type} (s : σ) : Res α → Ex σ α
  | .ok a => .ok a
  | .err e => .err e s
  | .panic => .panic s

end Ex

/-! ## Slices -/

/-- `l[i]`. -/
def r_index {α : Type} (l : List α) (i : Nat) : Res α := idx l i

/-- `l[i] = a`. -/
def r_set {α : Type} (l : List α) (i : Nat) (a : α) : Res (List α) :=
  if i < l.length then .ok (l.set i a) else .panic

/-- `&l[a..b]`. -/
def r_slice {α : Type} (l : List α) (a b : Nat) : Res (List α) :=
  if a ≤ b ∧ b ≤ l.length then .ok ((l.take b).drop a) else .panic

/-- `&l[a..]`. -/
def r_slice_from {α : Type} (l : List α) (a : Nat) : Res (List α) :=
  if a ≤ l.length then .ok (l.drop a) else .panic

/-- `to_vec`. -/
def r_to_vec {α : Type} (l : List α) : List α := l

/-- `Vec<T>::try_into::<[T; n]>().expect(..)`. -/
def r_to_array {α : Type} (n : Nat) (l : List α) : Res (List α) :=
  if l.length = n then .ok l else .panic

/-! ## Iterators -/

/-- An iterator: the items that are left, each with the computation that `next` runs for it. -/
abbrev Iter (α : Type) := List (Res α)

/-- `iter`. -/
def r_iter {α : Type} (l : List α) : Iter α := l.map Res.ok

/-- `a..b`. -/
def r_range (a b : Nat) : Iter Nat := (List.range' a (b - a)).map Res.ok

/-- `map`: the closure runs when the item is asked for. -/
def r_map {α β : Type} (it : Iter α) (f : α → Res β) : Iter β := it.map fun x => x.bind f

/-- The items with their numbers, starting at `n`. -/
def enumerateFrom {α : Type} (n : Nat) : Iter α → Iter (Nat × α)
  | [] => []
  | x :: it => x.map (fun a => (n, a)) :: enumerateFrom (n + 1) it

/-- `enumerate`. -/
def r_enumerate {α : Type} (it : Iter α) : Iter (Nat × α) := enumerateFrom 0 it

/-- `zip`. -/
def r_zip {α β : Type} (a : Iter α) (b : Iter β) : Iter (α × β) :=
  List.zipWith (fun x y => x.bind fun a => y.bind fun b => .ok (a, b)) a b

/-- `take`. -/
def r_take {α : Type} (it : Iter α) (n : Nat) : Iter α := it.take n

/-- `collect` to a vector, or to a `Result` of a vector: runs the iterator up to the first
failure. -/
def r_collect {α : Type} : Iter α → Res (List α)
  | [] => .ok []
  | x :: it => x.bind fun a => (r_collect it).bind fun l => .ok (a :: l)

/-- `fold`. -/
def r_fold {α β : Type} (it : Iter α) (init : β) (f : β → α → Res β) : Res β :=
  match it with
  | [] => .ok init
  | x :: it => x.bind fun a => (f init a).bind fun b => r_fold it b f

/-- `for a in items { .. }` with the assigned variables as state. -/
def r_loop {m : Type → Type} [Monad m] {α σ : Type} (items : List α) (s : σ)
    (f : σ → α → m σ) : m σ :=
  match items with
  | [] => pure s
  | a :: items => f s a >>= fun s => r_loop items s f

/-- The chunks of a slice, with `fuel` chunks at most. -/
def chunksFrom {α : Type} (n : Nat) : Nat → List α → List (List α)
  | 0, _ => []
  | fuel + 1, l => if l.isEmpty then [] else l.take n :: chunksFrom n fuel (l.drop n)

/-- `chunks(n)`: panics for 0. -/
def r_chunks {α : Type} (l : List α) (n : Nat) : Res (List (List α)) :=
  if n = 0 then .panic else .ok (chunksFrom n l.length l)

/-- `chunks_exact(n)` for a constant `n > 0`: without the last chunk if it is shorter. -/
def r_chunks_exact {α : Type} (l : List α) (n : Nat) : Iter (List α) :=
  ((chunksFrom n l.length l).filter fun c => decide (c.length = n)).map Res.ok

/-- `Option::map`. -/
def r_opt_map {α β : Type} (o : Option α) (f : α → Res β) : Res (Option β) :=
  match o with
  | none => .ok none
  | some a => (f a).bind fun b => .ok (some b)

/-! ## Arithmetic -/

/-- The arithmetic operators of a type of numbers. -/
class Arith (α : Type) where
  add : Bool → α → α → Res α
  sub : Bool → α → α → Res α
  mul : Bool → α → α → Res α
  div : Bool → α → α → Res α
  rem : Bool → α → α → Res α

/-- An integer operation whose exact result is `z`: `r` if `z` is representable or overflow is not
checked. -/
def checked {n : Nat} (oc : Bool) (z : Int) (r : BitVec n) : Res (BitVec n) :=
  if oc ∧ ¬(0 ≤ z ∧ z < 2 ^ n) then .panic else .ok r

instance {n : Nat} : Arith (BitVec n) where
  add oc a b := checked oc (a.toNat + b.toNat) (a + b)
  sub oc a b := checked oc (a.toNat - b.toNat) (a - b)
  mul oc a b := checked oc (a.toNat * b.toNat) (a * b)
  div _ a b := if b = 0 then .panic else .ok (a / b)
  rem _ a b := if b = 0 then .panic else .ok (a % b)

instance : Arith Nat where
  add _ a b := .ok (a + b)
  sub oc a b := if b ≤ a then .ok (a - b) else if oc then .panic else .ok (a + 2 ^ 64 - b)
  mul _ a b := .ok (a * b)
  div _ a b := if b = 0 then .panic else .ok (a / b)
  rem _ a b := if b = 0 then .panic else .ok (a % b)

instance : Arith F32 where
  add _ a b := .ok (a + b)
  sub _ a b := .ok (a - b)
  mul _ a b := .ok (a * b)
  div _ a b := .ok (a / b)
  rem _ _ _ := .panic

/-- `a + b`. -/
def r_add {α : Type} [Arith α] (oc : Bool) (a b : α) : Res α := Arith.add oc a b
/-- `a - b`. -/
def r_sub {α : Type} [Arith α] (oc : Bool) (a b : α) : Res α := Arith.sub oc a b
/-- `a * b`. -/
def r_mul {α : Type} [Arith α] (oc : Bool) (a b : α) : Res α := Arith.mul oc a b
/-- `a / b`. -/
def r_div {α : Type} [Arith α] (oc : Bool) (a b : α) : Res α := Arith.div oc a b
/-- `a % b`. -/
def r_rem {α : Type} [Arith α] (oc : Bool) (a b : α) : Res α := Arith.rem oc a b

/-- The shift operators of a type of integers. -/
class Shift (α : Type) where
  shl : Bool → α → Nat → Res α
  shr : Bool → α → Nat → Res α

instance {n : Nat} : Shift (BitVec n) where
  shl oc a b := if oc ∧ n ≤ b then .panic else .ok (a <<< (b % n))
  shr oc a b := if oc ∧ n ≤ b then .panic else .ok (a >>> (b % n))

instance : Shift Nat where
  shl oc a b := if oc ∧ 64 ≤ b then .panic else .ok (a <<< (b % 64) % 2 ^ 64)
  shr oc a b := if oc ∧ 64 ≤ b then .panic else .ok (a >>> (b % 64))

/-- `a << b`. -/
def r_shl {α : Type} [Shift α] (oc : Bool) (a : α) (b : Nat) : Res α := Shift.shl oc a b
/-- `a >> b`. -/
def r_shr {α : Type} [Shift α] (oc : Bool) (a : α) (b : Nat) : Res α := Shift.shr oc a b

/-- `usize::div_ceil`. -/
def r_div_ceil (a b : Nat) : Nat := if a % b = 0 then a / b else a / b + 1

/-! ## Conversions -/

/-- `a as T`. -/
class Cast (α β : Type) where
  cast : α → β

instance {n m : Nat} : Cast (BitVec n) (BitVec m) := ⟨fun a => a.setWidth m⟩
instance {n : Nat} : Cast Nat (BitVec n) := ⟨fun a => BitVec.ofNat n a⟩
instance {n : Nat} : Cast (BitVec n) Nat := ⟨fun a => a.toNat⟩
instance : Cast Word I16 := ⟨fun a => ⟨a⟩⟩
instance : Cast I16 Word := ⟨fun a => a.bits⟩
instance : Cast F32 I16 := ⟨fun a => ⟨BitVec.ofInt 16 a.toI16⟩⟩
instance : Cast I16 F32 := ⟨fun a => F32.lit (a.bits.toInt : Rat)⟩
instance {n : Nat} : Cast (BitVec n) F32 := ⟨fun a => F32.lit (a.toNat : Rat)⟩
instance : Cast Nat F32 := ⟨fun a => F32.lit (a : Rat)⟩
instance : Cast Byte Char := ⟨fun a => Char.ofNat a.toNat⟩

/-- `a as T`. -/
def r_as {α β : Type} [Cast α β] (a : α) : β := Cast.cast a

/-- `T::from(a)` for numbers: the value does not change. -/
def r_from {α β : Type} [Cast α β] (a : α) : β := Cast.cast a

/-- `num_traits::FromPrimitive`. -/
class FromPrimitive (α : Type) where
  from_u16 : Word → Option α

/-- `num_traits::ToPrimitive`. -/
class ToPrimitive (α : Type) where
  to_u16 : α → Option Word

/-- The variant with discriminant `n`. -/
def lookup_code {α : Type} (n : Word) : List (Nat × α) → Option α
  | [] => none
  | (k, a) :: l => if n.toNat = k then some a else lookup_code n l

/-- `f32::to_le_bytes` is not used; `u16::to_le_bytes`. -/
def r_to_le_bytes (w : Word) : Byte × Byte := (w.setWidth 8, (w >>> 8).setWidth 8)

/-- `LittleEndian::write_u16_into`: panics if the lengths do not fit. -/
def write_u16_into (src : List Word) (dst : List Byte) : Res (List Byte) :=
  if dst.length = 2 * src.length then
    .ok (src.flatMap fun w => [(r_to_le_bytes w).1, (r_to_le_bytes w).2])
  else .panic

/-- Two bytes to a word, low byte first. -/
def pairs : List Byte → List Word
  | lo :: hi :: l => (lo.setWidth 16 ||| hi.setWidth 16 <<< 8) :: pairs l
  | _ => []

/-- `LittleEndian::read_u16_into`: panics if the lengths do not fit. -/
def read_u16_into (src : List Byte) (dst : List Word) : Res (List Word) :=
  if src.length = 2 * dst.length then .ok (pairs src) else .panic

/-! ## `Duration` -/

/-- `Duration::new(secs, nanos)`. -/
def r_duration (secs nanos : Nat) : Duration := secs * 1000000000 + nanos
/-- `Duration::from_nanos`. -/
def r_from_nanos (n : BitVec 64) : Duration := n.toNat
/-- `as_secs`, a `u64`. -/
def r_as_secs (d : Duration) : BitVec 64 := BitVec.ofNat 64 (d / 1000000000)
/-- `subsec_nanos`, a `u32`. -/
def r_subsec_nanos (d : Duration) : BitVec 32 := BitVec.ofNat 32 (d % 1000000000)
/-- `subsec_micros`, a `u32`. -/
def r_subsec_micros (d : Duration) : BitVec 32 := BitVec.ofNat 32 (d % 1000000000 / 1000)

/-! ## Strings -/

/-- `to_uppercase`; `up` is the mapping of Unicode. -/
def r_to_uppercase (up : Char → List Char) (s : String) : String := String.ofList (s.toList.flatMap up)

/-- `replace(c, t)`. -/
def r_replace (s : String) (c : Char) (t : String) : String :=
  String.ofList (s.toList.flatMap fun x => if x = c then t.toList else [x])

/-! ## Traits -/

/-- A module as a trait object (`dyn ProcessModbusTcpData`): its methods. -/
structure Dyn where
  module_type : Res ModuleType
  process_input_byte_count : Res Nat
  process_output_byte_count : Res Nat
  process_input_data : List Word → Res (List ChannelValue)
  process_output_data : List Word → Res (List ChannelValue)
  process_output_values : List ChannelValue → Res (List Word)

/-- `Box::new(m)` as a trait object. -/
class ToDyn (α : Type) where
  toDyn : Bool → α → Dyn

/-- The loop of `Write::write_all`: calls `write` with what is left until nothing is left. -/
def writeAllFrom {σ : Type} (write : σ → List Byte → Res (σ × Nat)) :
    Nat → σ → List Byte → Res σ
  | 0, s, buf => if buf.isEmpty then .ok s else .panic
  | fuel + 1, s, buf =>
    if buf.isEmpty then .ok s
    else (write s buf).bind fun r =>
      if r.2 = 0 then .err (.io "failed to write whole buffer")
      else if r.2 ≤ buf.length then writeAllFrom write fuel r.1 (buf.drop r.2)
      else .panic

/-- `Write::write_all`. -/
def r_write_all {σ : Type} (write : σ → List Byte → Res (σ × Nat)) (s : σ) (buf : List Byte) :
    Res σ := writeAllFrom write (buf.length + 1) s buf

end Ur20.Src
