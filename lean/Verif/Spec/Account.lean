import Verif.Spec.Histories

/-!
# Specification: the bytes of one serial module of a coupler

What the cycles of a history bring to module `j`, what the calls of the history read from it, write
to it and send. Nothing is assumed of the device: the images are any lists of registers.
-/

namespace Ur20.Spec

open Com

open Classical in
/-- The bytes that arrive at a serial module whose input frame is given by `inF`. `n` cycles with
decodable images happened before and `last` is the number of the last frame taken. The first two
such cycles initialise the module. After them a frame with data is taken unless it has the number of
the last frame taken. -/
noncomputable def arrived (cfg : CouplerConfig) (inF : List Word → Option RsIn) (n : Nat)
    (last : Option Nat) : List COp → List Byte
  | [] => []
  | .next pi po :: ops =>
    if Decodable cfg pi po then
      match inF pi with
      | some i =>
        if 2 ≤ n ∧ i.dataAvailable ∧ last ≠ some i.rxCnt then
          i.data ++ arrived cfg inF (n + 1) (some i.rxCnt) ops
        else arrived cfg inF (n + 1) last ops
      | none => arrived cfg inF n last ops
    else arrived cfg inF n last ops
  | _ :: ops => arrived cfg inF n last ops

/-- The bytes that the reads from `reader(j)` return in a history. -/
def readFrom (oc : Bool) (j : Nat) (c : Coupler) : List COp → List Byte
  | [] => []
  | op :: ops =>
    (match op with
      | .read n k => if n = j then (match c.read n k with
          | .ok (_, some b) => b
          | _ => []) else []
      | _ => []) ++ readFrom oc j (op.apply oc c) ops

/-- The bytes of a value set for a serial channel. -/
def bytesOf : Option ChannelValue → List Byte
  | some (.bytes b) => b
  | _ => []

open Classical in
/-- The bytes given to module `j` in a history: those written to `writer(j)`, and those set for its
channel with `set_output`, of which the last ones before each cycle with decodable images count.
`w` is the value set and not yet taken. -/
noncomputable def given (cfg : CouplerConfig) (j : Nat) : Option ChannelValue → List COp → List Byte
  | _, [] => []
  | w, .write n b :: ops => (if n = j then b else []) ++ given cfg j w ops
  | w, .setOutput a v :: ops => given cfg j (if a = ⟨j, 0⟩ then some v else w) ops
  | w, .next pi po :: ops =>
    if Decodable cfg pi po then
      bytesOf w ++ given cfg j none ops
    else given cfg j w ops
  | w, .read _ _ :: ops => given cfg j w ops

/-- The data of the segment that a cycle starts: the returned image has another segment number than
the given one. -/
def startedBy (outF : List Word → Option RsOut) (po : List Word) : Res (List Word) → List Byte
  | .ok img => match outF po, outF img with
    | some o, some o' => if o'.txCnt ≠ o.txCnt then o'.data else []
    | _, _ => []
  | _ => []

/-- The data of the segments that the cycles of a history start. -/
def sentBy (oc : Bool) (outF : List Word → Option RsOut) (c : Coupler) : List COp → List Byte
  | [] => []
  | op :: ops =>
    (match op with
      | .next pi po => startedBy outF po (c.next oc pi po).2
      | _ => []) ++ sentBy oc outF (op.apply oc c) ops

/-- The cycles of a history whose images can be decoded return an image. -/
def DecodedReturn (oc : Bool) (cfg : CouplerConfig) : Coupler → List COp → Prop
  | _, [] => True
  | c, op :: ops =>
    (∀ pi po, op = .next pi po → Decodable cfg pi po → ∃ img, (c.next oc pi po).2 = .ok img) ∧
    DecodedReturn oc cfg (op.apply oc c) ops

end Ur20.Spec
