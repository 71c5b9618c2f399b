import Verif.Spec.Trace
import Verif.Source.Ur20_fbc_mod_tcp

/-!
# Specification: what an application sees of the translated source

The same observations as in `Spec/Trace.lean`, made of the translation of the source to Lean
(`Verif/Source`, written by `tools/rust2lean.py`).
-/

namespace Ur20.Spec

open Ur20.Src

/-- The state after a method with `&mut self`, and its result. -/
def Src.outcome {σ α : Type} : Ex σ (σ × α) → σ × Res α
  | .ok (s, a) => (s, .ok a)
  | .err e s => (s, .err e)
  | .panic s => (s, .panic)

/-- The values that `inputs()` or `outputs()` return. -/
def Src.shown : Res (List (List ChannelValue)) → List (List ChannelValue)
  | .ok l => l
  | _ => []

/-- A call of the translated source. `reader(n)` and `writer(n)` (`src/ur20_fbc_mod_tcp.rs:230-241`)
give access to the processor of module `n` if there is one. `fill` is what the buffer of a `read`
holds before. -/
def Src.call (oc : Bool) (c : Ur20.Src.ur20_fbc_mod_tcp.Coupler) (ord : Imp.Orders) (fill : Nat → Byte) :
    COp → Src.ur20_fbc_mod_tcp.Coupler × Ret
  | .setOutput a v =>
    let r := Src.outcome (ur20_fbc_mod_tcp.Coupler.set_output oc c a v)
    (r.1, .setOutput r.2)
  | .next i o =>
    let r := Src.outcome (ur20_fbc_mod_tcp.Coupler.next oc c i o ord.inOrd ord.outOrd)
    (r.1, .next r.2)
  | .read n len => match r_get c.processors n with
    | none => (c, .read (.ok none))
    | some p => match ur20_1com_232_485_422.MessageProcessor.read oc p
        ((List.range len).map fill) with
      | .ok (p, buf, k) =>
        ({ c with processors := r_insert c.processors n p }, .read (.ok (some (buf.take k))))
      | .err e => (c, .read (.err e))
      | .panic => (c, .read .panic)
  | .write n buf => match r_get c.processors n with
    | none => (c, .write none)
    | some p => match ur20_1com_232_485_422.MessageProcessor.write oc p buf with
      | .ok (p, k) => ({ c with processors := r_insert c.processors n p }, .write (some k))
      | .err _ => (c, .write none)
      | .panic => (c, .write none)

/-- What is seen of a history of calls of the translated source, where call number `k` iterates over
hash maps in the order `ord k` and reads into a buffer that holds `fill k`. -/
def Src.trace (oc : Bool) (ord : Nat → Imp.Orders) (fill : Nat → Nat → Byte) (k : Nat)
    (c : Ur20.Src.ur20_fbc_mod_tcp.Coupler) : List COp → List Seen
  | [] => []
  | op :: ops =>
    let r := Src.call oc c (ord k) (fill k) op
    if r.2.panicked then [⟨r.2, [], []⟩]
    else ⟨r.2, Src.shown (ur20_fbc_mod_tcp.Coupler.inputs oc r.1), Src.shown (ur20_fbc_mod_tcp.Coupler.outputs oc r.1)⟩ ::
      Src.trace oc ord fill (k + 1) r.1 ops

end Ur20.Spec
