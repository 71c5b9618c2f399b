import Verif.Spec.Source
import Verif.Spec.Setup
import Verif.Spec.Loop
import Verif.Spec.Account

/-!
# Specification: an application that uses the translated source

Setting up a coupler, calling it and running it in a loop, with the functions of the translated
source only (`Verif/Source`).
-/

namespace Ur20.Spec

open Ur20.Src

/-- The set-up of a station with `n` modules, as in `Spec.setup`, with the translated functions. -/
def Src.setup (oc : Bool) (mem : Nat → Word) (n : Nat) :
    Res Ur20.Src.ur20_fbc_mod_tcp.Coupler := do
  let types ← ur20_fbc_mod_tcp.module_list_from_registers oc
    (readRegisters mem ur20_fbc_mod_tcp.ADDR_CURRENT_MODULE_LIST.toNat (2 * n))
  let windows ← ur20_fbc_mod_tcp.param_addresses_and_register_counts oc types
  ur20_fbc_mod_tcp.Coupler.new oc
    { modules := types
      offsets := readRegisters mem ur20_fbc_mod_tcp.ADDR_MODULE_OFFSETS.toNat (2 * n)
      params := windows.map fun w => readRegisters mem w.1.toNat w.2.toNat }

/-- `c` is the state of a coupler made from `cfg` after the calls `ops`, none of which panicked. The
orders of iteration over hash maps and the buffers of reads are arbitrary. -/
inductive Src.Reaches (oc : Bool) (cfg : CouplerConfig) :
    List COp → Ur20.Src.ur20_fbc_mod_tcp.Coupler → Prop
  | new {c} (h : ur20_fbc_mod_tcp.Coupler.new oc cfg = .ok c) : Src.Reaches oc cfg [] c
  | call {ops c} (h : Src.Reaches oc cfg ops c) (ord : Imp.Orders) (fill : Nat → Byte) (op : COp)
      (hp : (Src.call oc c ord fill op).2.panicked = false) :
      Src.Reaches oc cfg (ops ++ [op]) (Src.call oc c ord fill op).1

/-- The state after the calls `ops`; call number `k` iterates over hash maps in the order `ord k` and
reads into a buffer that holds `fill k`. -/
def Src.calls (oc : Bool) (ord : Nat → Imp.Orders) (fill : Nat → Nat → Byte) (k : Nat)
    (c : Ur20.Src.ur20_fbc_mod_tcp.Coupler) : List COp → Ur20.Src.ur20_fbc_mod_tcp.Coupler
  | [] => c
  | op :: ops => Src.calls oc ord fill (k + 1) (Src.call oc c (ord k) (fill k) op).1 ops

/-- A loop that gives every cycle the output image the cycle before returned, as in
`Spec.closedLoop`: the state and the output image at the end, if all cycles succeed. -/
def Src.closedLoop (oc : Bool) (ord : Nat → Imp.Orders) (fill : Nat → Nat → Byte) (k : Nat)
    (c : Ur20.Src.ur20_fbc_mod_tcp.Coupler) (po : List Word) :
    List (List COp × List Word) → Option (Ur20.Src.ur20_fbc_mod_tcp.Coupler × List Word)
  | [] => some (c, po)
  | (calls, pi) :: rounds =>
    let k' := k + calls.length
    match ur20_fbc_mod_tcp.Coupler.next oc (Src.calls oc ord fill k c calls) pi po
        (ord k').inOrd (ord k').outOrd with
    | .ok (c', img) => Src.closedLoop oc ord fill (k' + 1) c' img rounds
    | _ => none

/-- The bytes that a call reads from `reader(j)`. -/
def readOf (j : Nat) : COp → Ret → List Byte
  | .read n _, .read (.ok (some b)) => if n = j then b else []
  | _, _ => []

/-- The bytes that the reads from `reader(j)` returned, of the calls and what was seen of them. -/
def readIn (j : Nat) : List COp → List Seen → List Byte
  | op :: ops, s :: tr => readOf j op s.result ++ readIn j ops tr
  | _, _ => []

/-- The data of the segment that a call starts. -/
def sentOf (outF : List Word → Option RsOut) : COp → Ret → List Byte
  | .next _ po, .next r => startedBy outF po r
  | _, _ => []

/-- The data of the segments that the cycles started, of the calls and what was seen of them. -/
def sentIn (outF : List Word → Option RsOut) : List COp → List Seen → List Byte
  | op :: ops, s :: tr => sentOf outF op s.result ++ sentIn outF ops tr
  | _, _ => []

/-- The cycles whose images can be decoded returned an image. -/
def DecodedReturned (cfg : CouplerConfig) : List COp → List Seen → Prop
  | op :: ops, s :: tr =>
    (∀ pi po, op = .next pi po → Decodable cfg pi po → ∃ img, s.result = .next (.ok img)) ∧
    DecodedReturned cfg ops tr
  | _, _ => True

end Ur20.Spec
