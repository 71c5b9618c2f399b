/-!
# Outcomes of Rust functions

`Result<T, Error>` values and panics. Models `src/error.rs` and the parts of `std` that
the crate's functions rely on: slice indexing and collecting an iterator of results.
-/

namespace Ur20

/-- A Modbus register, `u16` (`ur20_fbc_mod_tcp.rs:10`). -/
abbrev Word := BitVec 16

/-- A byte, `u8`. -/
abbrev Byte := BitVec 8

/-- `src/error.rs:5-17`. -/
inductive Error where
  | unknownModule
  | unknownCategory
  | bufferLength
  | sequenceNumber
  | dataLength
  | registerCount
  | channelParameter
  | channelValue
  | moduleOffset
  | address
  | io (msg : String)
  deriving DecidableEq, Repr

/-- Outcome of a Rust function of type `Result<α, Error>` (`src/lib.rs:74`), with panics made
explicit. Functions that cannot fail are modelled by plain Lean functions. -/
inductive Res (α : Type) where
  | ok (a : α)
  | err (e : Error)
  | panic
  deriving DecidableEq, Repr

namespace Res

/-- The `?` operator. -/
def bind {α β : Type} : Res α → (α → Res β) → Res β
  | ok a, f => f a
  | err e, _ => err e
  | panic, _ => panic

/-- Apply a function to a successful outcome. -/
def map {α β : Type} (f : α → β) : Res α → Res β
  | ok a => ok (f a)
  | err e => err e
  | panic => panic

instance : Monad Res where
  pure := ok
  bind := bind

/-- `Option::ok_or(e)?`. -/
def ofOption {α : Type} (e : Error) : Option α → Res α
  | some a => ok a
  | none => err e

end Res

/-- Slice and `Vec` indexing `l[i]`: panics when out of bounds. -/
def idx {α : Type} (l : List α) (i : Nat) : Res α :=
  match l[i]? with
  | some a => .ok a
  | none => .panic

/-- `iter.map(f).collect::<Result<Vec<_>>>()`: evaluates in order and stops at the first error
(or panic). -/
def mapRes {α β : Type} (f : α → Res β) : List α → Res (List β)
  | [] => .ok []
  | a :: l => (f a).bind fun b => (mapRes f l).bind fun bs => .ok (b :: bs)

end Ur20
