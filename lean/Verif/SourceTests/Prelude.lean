import Verif.Source.Prelude

/-!
# The parts of Rust that only the translated unit tests use
-/

namespace Ur20.Src

/-- `assert!(b)`. -/
def r_assert (b : Bool) : Res Unit := if b then .ok () else .panic

/-- `Result::unwrap`. -/
def r_unwrap {α : Type} : Res α → Res α
  | .ok a => .ok a
  | _ => .panic

/-- `Result::err` and `Option::unwrap`. -/
def r_unwrap_err {α : Type} : Res α → Res Error
  | .err e => .ok e
  | _ => .panic

/-- `Option::unwrap`. -/
def r_unwrap_opt {α : Type} : Option α → Res α
  | some a => .ok a
  | none => .panic

/-- `Result::is_ok`. -/
def r_is_ok {α : Type} : Res α → Res Bool
  | .ok _ => .ok true
  | .err _ => .ok false
  | .panic => .panic

/-- `Result::is_err`. -/
def r_is_err {α : Type} : Res α → Res Bool
  | .ok _ => .ok false
  | .err _ => .ok true
  | .panic => .panic

/-- `unwrap` of the result of a method with `&mut self`. -/
def r_ex_unwrap {σ α : Type} : Ex σ (σ × α) → Res (σ × α)
  | .ok r => .ok r
  | _ => .panic

/-- `is_err` of the result of a method with `&mut self`. -/
def r_ex_is_err {σ α : Type} : Ex σ (σ × α) → Res (σ × Bool)
  | .ok r => .ok (r.1, false)
  | .err _ s => .ok (s, true)
  | .panic _ => .panic

/-- `f32::abs`. -/
def r_abs : F32 → F32
  | .fin q => .fin (if q < 0 then -q else q)
  | .inf _ => .inf false
  | .nan => .nan

/-- `a < b` for floats. -/
def r_f32_lt : F32 → F32 → Bool
  | .fin a, .fin b => decide (a < b)
  | .fin _, .inf neg => !neg
  | .inf neg, .fin _ => neg
  | .inf a, .inf b => a && !b
  | _, _ => false

instance : LT F32 := ⟨fun a b => r_f32_lt a b = true⟩
instance : LE F32 := ⟨fun a b => r_f32_lt a b = true ∨ a = b ∧ a ≠ .nan⟩
instance (a b : F32) : Decidable (a < b) := inferInstanceAs (Decidable (r_f32_lt a b = true))
instance (a b : F32) : Decidable (a ≤ b) :=
  inferInstanceAs (Decidable (r_f32_lt a b = true ∨ a = b ∧ a ≠ .nan))

/-- `Duration::from_micros`. -/
def r_from_micros (n : Nat) : Duration := n * 1000

/-- The upper case letters of ASCII. -/
def r_ascii_upper (c : Char) : List Char := [c.toUpper]

/-- An order of the entries of a hash map. -/
def r_any_order {α β : Type} (h : HMap α β) : List (α × β) := h

end Ur20.Src
