import Verif.Spec.Source

/-!
# Specification: programs that use the crate

A program makes couplers and message processors and calls them, in any order and number, and decides
what to do next by all the answers it has got. It is run with the model and with the translated
source. A coupler whose call panics is gone; the program goes on with the others.
-/

namespace Ur20.Spec

open Com

/-- One action of a program. Couplers and processors have numbers; making one again replaces it. -/
inductive Act where
  | newCoupler (k : Nat) (cfg : CouplerConfig)
  /-- a call of coupler `k`; `inputs()` and `outputs()` are looked at after it -/
  | call (k : Nat) (op : COp)
  | newProcessor (k : Nat) (len : ProcessDataLength)
  | next (k : Nat) (input : RsIn) (output : RsOut)
  | read (k : Nat) (buf : List Byte)
  | write (k : Nat) (buf : List Byte)

/-- What a program gets. -/
inductive Answer where
  | made (r : Res Unit)
  | called (s : Seen)
  | output (o : RsOut)
  /-- the buffer after a read and the number of bytes read -/
  | filled (buf : List Byte) (n : Nat)
  | written (n : Nat)
  | panicked
  /-- there is no such coupler or processor -/
  | absent
  deriving DecidableEq

/-- A run of `n` actions: the state and the answers so far. `act k` is what action number `k` does. -/
def transcript {σ : Type} (act : Nat → σ → Act → σ × Answer) (s0 : σ) (prog : List Answer → Act) :
    Nat → σ × List Answer
  | 0 => (s0, [])
  | n + 1 =>
    let t := transcript act s0 prog n
    let r := act n t.1 (prog t.2)
    (r.1, t.2 ++ [r.2])

/-- The answers to a given list of actions, the first of which is action number `k`. -/
def answers {σ : Type} (act : Nat → σ → Act → σ × Answer) : Nat → σ → List Act → List Answer
  | _, _, [] => []
  | k, s, a :: as => (act k s a).2 :: answers act (k + 1) (act k s a).1 as

/-- The coupler or processor an action is about. -/
inductive Obj where
  | coupler (k : Nat)
  | processor (k : Nat)
  deriving DecidableEq

def Act.obj : Act → Obj
  | .newCoupler k _ | .call k _ => .coupler k
  | .newProcessor k _ | .next k _ _ | .read k _ | .write k _ => .processor k

/-- The answers to the actions that are about `x`. -/
def answersAbout (x : Obj) (as : List Act) (rs : List Answer) : List Answer :=
  ((as.zip rs).filter fun p => p.1.obj = x).map (·.2)

/-- The couplers and processors of a program. -/
structure Objects (γ : Type) where
  couplers : Nat → Option γ
  processors : Nat → Option MessageProcessor

/-- A program starts with nothing. -/
def Objects.none {γ : Type} : Objects γ := ⟨fun _ => .none, fun _ => .none⟩

def Objects.setCoupler {γ : Type} (s : Objects γ) (k : Nat) (c : Option γ) : Objects γ :=
  { s with couplers := fun i => if i = k then c else s.couplers i }

def Objects.setProcessor {γ : Type} (s : Objects γ) (k : Nat) (p : Option MessageProcessor) :
    Objects γ :=
  { s with processors := fun i => if i = k then p else s.processors i }

/-- An action with the model. -/
def act (oc : Bool) (s : Objects Coupler) : Act → Objects Coupler × Answer
  | .newCoupler k cfg => match Coupler.new cfg with
    | .ok c => (s.setCoupler k (some c), .made (.ok ()))
    | .err e => (s, .made (.err e))
    | .panic => (s, .made .panic)
  | .call k op => match s.couplers k with
    | none => (s, .absent)
    | some c =>
      let r := call oc c op
      if r.2.panicked then (s.setCoupler k none, .panicked)
      else (s.setCoupler k (some r.1), .called ⟨r.2, r.1.inputs, r.1.outputs⟩)
  | .newProcessor k len => (s.setProcessor k (some (MessageProcessor.new len)), .made (.ok ()))
  | .next k i o => match s.processors k with
    | none => (s, .absent)
    | some p => (s.setProcessor k (some (p.next i o).1), .output (p.next i o).2)
  | .read k buf => match s.processors k with
    | none => (s, .absent)
    | some p => match p.read buf.length with
      | .ok (p', b) =>
        (s.setProcessor k (some p'), .filled (b ++ buf.drop b.length) b.length)
      | _ => (s.setProcessor k none, .panicked)
  | .write k buf => match s.processors k with
    | none => (s, .absent)
    | some p => (s.setProcessor k (some (p.write buf).1), .written (p.write buf).2)

open Ur20.Src in
/-- An action with the translated source. Hash maps are iterated in the order `ord`, and the reads
through a coupler are into a buffer that holds `fill`. -/
def Src.act (oc : Bool) (ord : Imp.Orders) (fill : Nat → Byte)
    (s : Objects Ur20.Src.ur20_fbc_mod_tcp.Coupler) :
    Act → Objects Ur20.Src.ur20_fbc_mod_tcp.Coupler × Answer
  | .newCoupler k cfg => match ur20_fbc_mod_tcp.Coupler.new oc cfg with
    | .ok c => (s.setCoupler k (some c), .made (.ok ()))
    | .err e => (s, .made (.err e))
    | .panic => (s, .made .panic)
  | .call k op => match s.couplers k with
    | none => (s, .absent)
    | some c =>
      let r := Src.call oc c ord fill op
      if r.2.panicked then (s.setCoupler k none, .panicked)
      else (s.setCoupler k (some r.1), .called ⟨r.2,
        Src.shown (ur20_fbc_mod_tcp.Coupler.inputs oc r.1),
        Src.shown (ur20_fbc_mod_tcp.Coupler.outputs oc r.1)⟩)
  | .newProcessor k len => match ur20_1com_232_485_422.MessageProcessor.new oc len with
    | .ok p => (s.setProcessor k (some p), .made (.ok ()))
    | .err e => (s, .made (.err e))
    | .panic => (s, .made .panic)
  | .next k i o => match s.processors k with
    | none => (s, .absent)
    | some p => match ur20_1com_232_485_422.MessageProcessor.next oc p i o with
      | .ok (p', out) => (s.setProcessor k (some p'), .output out)
      | _ => (s.setProcessor k none, .panicked)
  | .read k buf => match s.processors k with
    | none => (s, .absent)
    | some p => match ur20_1com_232_485_422.MessageProcessor.read oc p buf with
      | .ok (p', buf', n) => (s.setProcessor k (some p'), .filled buf' n)
      | _ => (s.setProcessor k none, .panicked)
  | .write k buf => match s.processors k with
    | none => (s, .absent)
    | some p => match ur20_1com_232_485_422.MessageProcessor.write oc p buf with
      | .ok (p', n) => (s.setProcessor k (some p'), .written n)
      | _ => (s.setProcessor k none, .panicked)

end Ur20.Spec
