import Verif.Spec.LateWireDrop
import Verif.Spec.LateSource

/-!
# Specification: the two stations of `Spec/LateWireDrop.lean` with couplers of the translated source
-/

namespace Ur20.Spec.Src

open Ur20.Src

/-- The two stations; the fields are those of `Spec.LateWire` and `Spec.LateOut`. -/
structure LateWire where
  /-- the coupler of the first application -/
  c : ur20_fbc_mod_tcp.Coupler
  /-- its calls that count -/
  calls : List COp
  /-- the image of the outputs it keeps, with the calls it stands for -/
  kept : List COp × List Word
  /-- images on their way to the first device, oldest first -/
  outs : List (List COp × List Word)
  /-- the image the first device has -/
  out : List COp × List Word
  /-- the coupler of the second application -/
  d : ur20_fbc_mod_tcp.Coupler
  /-- images of the inputs on their way to the second application, oldest first -/
  ins : List Sampled
  /-- the image of the inputs the second application has -/
  inp : Option Sampled
  /-- the image of the inputs used last since the second application was started -/
  seen : Option Sampled

/-- One step of the schedule. -/
inductive WireEv where
  /-- a call of the first application that is not a cycle -/
  | call (op : COp)
  /-- a cycle of the first application that succeeds, with this image of the inputs -/
  | cycle (pi : List Word)
  /-- a cycle of the first application that fails, with any images -/
  | failing (pi po : List Word)
  /-- the first application sends the last returned image again -/
  | again
  /-- the oldest image on the way to the first device arrives -/
  | deliver
  /-- the `n`-th image on the way to the first device is lost -/
  | loseOut (n : Nat)
  /-- the first application restarts -/
  | restart
  /-- a call of the second application that is not a cycle -/
  | call' (op : COp)
  /-- the second device sends this image of its inputs -/
  | sample (pi : List Word)
  /-- the oldest image of the inputs on the way arrives -/
  | arrive
  /-- the `n`-th image of the inputs on the way is lost -/
  | loseIn (n : Nat)
  /-- a cycle of the second application, with this image of the outputs -/
  | cycle' (po : List Word)
  /-- the second application restarts -/
  | restart'

namespace LateWire

open Classical in
/-- The effect of one step, as in `Spec/LateWireDrop.lean`; `c` and `d` are new couplers. A call iterates
over hash maps in the order `ord` and reads into a buffer that holds `fill`. -/
noncomputable def step (oc : Bool) (cfg cfg' : CouplerConfig) (wired : List Word → List Word → Bool)
    (ord : Imp.Orders) (fill : Nat → Byte) (c d : ur20_fbc_mod_tcp.Coupler) (s : Src.LateWire) :
    WireEv → Src.LateWire
  | .call op => match op with
    | .next _ _ => s
    | op => { s with c := (Src.call oc s.c ord fill op).1, calls := s.calls ++ [op] }
  | .cycle pi => match Src.call oc s.c ord fill (.next pi s.kept.2) with
    | (c', .next (.ok img)) =>
      { s with c := c', kept := (s.calls, img), outs := s.outs ++ [(s.calls, img)] }
    | _ => s
  | .failing pi po => match Src.call oc s.c ord fill (.next pi po) with
    | (c', .next (.err _)) =>
      { s with c := c', calls := if Decodable cfg pi po then s.kept.1 else s.calls }
    | _ => s
  | .again => { s with outs := s.outs ++ [s.kept] }
  | .deliver => match s.outs with
    | o :: outs => { s with out := o, outs := outs }
    | [] => s
  | .loseOut n => { s with outs := s.outs.eraseIdx n }
  | .restart => { s with c := c, calls := s.out.1, kept := s.out, outs := [] }
  | .call' op => match op with
    | .next _ _ => s
    | op => { s with d := (Src.call oc s.d ord fill op).1 }
  | .sample pi =>
    if wired s.out.2 pi then { s with ins := s.ins ++ [⟨s.out.1, s.out.2, pi⟩] } else s
  | .arrive => match s.ins with
    | x :: ins => { s with inp := some x, ins := ins }
    | [] => s
  | .loseIn n => { s with ins := s.ins.eraseIdx n }
  | .cycle' po => match s.inp with
    | some x => match Src.call oc s.d ord fill (.next x.pi po) with
      | (d', .next (.ok _)) => { s with d := d', seen := some x }
      | (d', .next (.err _)) =>
        { s with d := d', seen := if InputsPresent cfg' x.pi then some x else s.seen }
      | _ => s
    | none => s
  | .restart' => { s with d := d, ins := [], inp := none, seen := none }

/-- A whole schedule; step number `k` uses `ord k` and `fill k`. -/
noncomputable def run (oc : Bool) (cfg cfg' : CouplerConfig) (wired : List Word → List Word → Bool)
    (ord : Nat → Imp.Orders) (fill : Nat → Nat → Byte) (c d : ur20_fbc_mod_tcp.Coupler) :
    Nat → Src.LateWire → List WireEv → Src.LateWire
  | _, s, [] => s
  | k, s, e :: evs =>
    run oc cfg cfg' wired ord fill c d (k + 1) (s.step oc cfg cfg' wired (ord k) (fill k) c d e) evs

/-- Two new couplers; the first application has just read the image of its device. -/
def start (c d : ur20_fbc_mod_tcp.Coupler) (img : List Word) : Src.LateWire :=
  ⟨c, [], ([], img), [], ([], img), d, [], none, none⟩

/-- Without overflow checks the output images of failing cycles of the first application that cannot be
decoded have at most 63488 registers. -/
def SmallImages (oc : Bool) (cfg : CouplerConfig) (evs : List WireEv) : Prop :=
  ∀ pi po, .failing pi po ∈ evs → ¬ Decodable cfg pi po → oc = false → po.length ≤ 0xF800

end LateWire

end Ur20.Spec.Src
