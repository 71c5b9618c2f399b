import Verif.Model.Defaults

/-!
# The unit tests of the repository, run on the model

The files in this directory transcribe the `#[cfg(test)]` modules of `/repo/src`: one `example`
per Rust test, with the same data and the same assertions, evaluated on the model. They are tests
of the model and not proofs of any property; no claim rests on them. They show that the model
returns what the authors' own tests expect of the code. `is_ok()` and `is_err()` become `isOk`
and `isErr`, neither of which holds of a panic, and `x.unwrap()` compared with a value becomes
`x = .ok value`.
-/

namespace Ur20

/-- `Result::is_ok`. -/
def Res.isOk {α : Type} : Res α → Bool
  | .ok _ => true
  | _ => false

/-- `Result::is_err`; a panic is not an error. -/
def Res.isErr {α : Type} : Res α → Bool
  | .err _ => true
  | _ => false

/-- `x.unwrap()[i]`: nothing if `x` is not `Ok` or the index is out of bounds. -/
def Res.at? {α : Type} (x : Res (List α)) (i : Nat) : Option α :=
  match x with
  | .ok l => l[i]?
  | _ => none

/-- `x.unwrap()`. -/
def Res.get? {α : Type} : Res α → Option α
  | .ok a => some a
  | _ => none

/-- `[w; n]`. -/
abbrev words (n : Nat) : List Word := List.replicate n 0#16

/-- `b"…"`: the bytes of an ASCII string. -/
def ascii (s : String) : List Byte := s.toList.map fun c => BitVec.ofNat 8 c.toNat

end Ur20
