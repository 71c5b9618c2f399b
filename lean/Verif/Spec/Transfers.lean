import Verif.Spec.Loop

/-!
# Specification: output values when images get lost on the way to the device

An application that calls `next` in a loop and sends the returned image to the device. The transfer
may fail, in which case the device keeps its outputs. For the next cycle the application either reads
the output image back from the device or uses the last image that `next` returned.
-/

namespace Ur20.Spec

/-- A round of the loop: the calls before the cycle, the input image of the cycle, and whether the
returned image arrives at the device. -/
structure Transfer where
  calls : List COp
  input : List Word
  arrives : Bool

/-- The loop from a coupler, the last returned image and the image the device has on. With `readBack`
the application reads the output image of every cycle from the device. If a cycle fails there is no
result. -/
def transfers (oc readBack : Bool) (c : Coupler) (last device : List Word) :
    List Transfer → Option (Coupler × List Word × List Word)
  | [] => some (c, last, device)
  | r :: rounds =>
    match (runC oc c r.calls).next oc r.input (if readBack then device else last) with
    | (c', .ok img) => transfers oc readBack c' img (if r.arrives then img else device) rounds
    | _ => none

/-- The value of the last `set_output` to an address in some rounds. -/
def lastSetInRounds (a : Address) (rounds : List Transfer) : Option ChannelValue :=
  lastSet a (rounds.flatMap (·.calls))

end Ur20.Spec
