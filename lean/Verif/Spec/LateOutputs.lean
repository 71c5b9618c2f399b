import Verif.Spec.Loop
import Verif.Spec.Histories

/-!
# Specification: output values with late and lost images

An application keeps the image returned by the last cycle and uses it for the next one. The images it
sends to the device are on the way for any time and may get lost, but do not overtake each other. Every
image is recorded together with the calls that were made before its cycle.
-/

namespace Ur20.Spec

/-- A coupler, the images and the calls made before the cycle each of them comes from. -/
structure LateOut where
  /-- the coupler -/
  c : Coupler
  /-- the calls made so far, without those of which nothing has arrived before a restart -/
  calls : List COp
  /-- the image the last cycle returned -/
  kept : List COp × List Word
  /-- images on their way to the device, oldest first -/
  outs : List (List COp × List Word)
  /-- the image the device has -/
  out : List COp × List Word

/-- One step of the schedule. -/
inductive LateOutEv where
  /-- a call that is not a cycle -/
  | call (op : COp)
  /-- a cycle with this image of the inputs; the returned image is sent -/
  | cycle (pi : List Word)
  /-- a cycle that fails, with any images -/
  | failing (pi po : List Word)
  /-- the application sends the last returned image again -/
  | again
  /-- the oldest image that is on the way arrives -/
  | deliver
  /-- the `n`-th image on the way is lost -/
  | lose (n : Nat)
  /-- the application restarts: what is on the way is lost, and it begins with a new coupler and the
  image of the device -/
  | restart (c : Coupler)

namespace LateOut

/-- The effect of one step; steps that are not enabled have no effect. A cycle is enabled if it
succeeds, a failing cycle if it fails. -/
def step (oc : Bool) (s : LateOut) : LateOutEv → LateOut
  | .call op => match op with
    | .next _ _ => s
    | op => { s with c := op.apply oc s.c, calls := s.calls ++ [op] }
  | .cycle pi => match s.c.next oc pi s.kept.2 with
    | (c', .ok img) => { s with c := c', kept := (s.calls, img), outs := s.outs ++ [(s.calls, img)] }
    | _ => s
  | .failing pi po => match s.c.next oc pi po with
    | (c', .err _) => { s with c := c' }
    | _ => s
  | .again => { s with outs := s.outs ++ [s.kept] }
  | .deliver => match s.outs with
    | o :: outs => { s with out := o, outs := outs }
    | [] => s
  | .lose n => { s with outs := s.outs.eraseIdx n }
  | .restart c => { c := c, calls := s.out.1, kept := s.out, outs := [], out := s.out }

/-- A whole schedule. -/
def run (oc : Bool) (s : LateOut) (evs : List LateOutEv) : LateOut := evs.foldl (step oc) s

/-- A new coupler; the application has just read the image of the device. -/
def start (c : Coupler) (img : List Word) : LateOut := ⟨c, [], ([], img), [], ([], img)⟩

/-- If a cycle fails then because its images cannot be decoded, and a restart makes a new coupler with
the same configuration. (Without overflow checks the output images that cannot be decoded have at most
63488 registers.) -/
def Admissible (oc : Bool) (cfg : CouplerConfig) : LateOutEv → Prop
  | .failing pi po => ¬ Decodable cfg pi po ∧ (oc = false → po.length ≤ 0xF800)
  | .restart c => Coupler.new cfg = .ok c
  | _ => True

end LateOut

end Ur20.Spec
