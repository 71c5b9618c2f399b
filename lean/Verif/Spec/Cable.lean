import Verif.Spec.Network

/-!
# Specification: a cable between two serial modules

Two couplers with serial devices as in `Spec.Net`. The device of a module of the first and the device
of a module of the second are connected by a cable: each presents what the other has taken over, in
segments of any size. All else is as before: any number of further devices, calls, cycles that fail,
images that are lost and crashes, in any order.
-/

namespace Ur20.Spec

/-- The two configurations, their wirings and the two connected modules. -/
structure Cable where
  cfgA : CouplerConfig
  wA : Wiring
  jA : Nat
  cfgB : CouplerConfig
  wB : Wiring
  jB : Nat

/-- Two couplers with their devices, and how much of what the connected devices have taken over has
been presented on the other side. -/
structure Link where
  a : Net
  b : Net
  /-- number of bytes that the second device has presented -/
  ab : Nat
  /-- number of bytes that the first device has presented -/
  ba : Nat

/-- One step of a schedule. -/
inductive LEv where
  /-- a step of the first coupler, its application or its devices -/
  | a (e : NEv)
  /-- a step of the second coupler, its application or its devices -/
  | b (e : NEv)
  /-- the second device presents the next bytes, at most `n`, if its last segment has been
  acknowledged -/
  | ab (n : Nat)
  /-- the first device presents the next bytes, at most `n`, if its last segment has been
  acknowledged -/
  | ba (n : Nat)

/-- The device of module `j` presents something. -/
def NEv.Presents (j : Nat) : NEv → Bool
  | .post i _ => i == j
  | _ => false

namespace Link

/-- The bytes on their way from the first device to the second. -/
def onCable (k : Cable) (s : Link) : List Byte := (s.a.line k.jA).received.drop s.ab

/-- The bytes on their way from the second device to the first. -/
def onCableBack (k : Cable) (s : Link) : List Byte := (s.b.line k.jB).received.drop s.ba

/-- The effect of one step. The connected devices present nothing but what comes over the cable; a
segment is presented if the device begins a new one. -/
noncomputable def step (oc : Bool) (k : Cable) (s : Link) : LEv → Link
  | .a e =>
    if e.Presents k.jA then s else { s with a := s.a.step oc k.cfgA k.wA e }
  | .b e =>
    if e.Presents k.jB then s else { s with b := s.b.step oc k.cfgB k.wB e }
  | .ab n =>
    let seg := (s.onCable k).take n
    let b' := s.b.step oc k.cfgB k.wB (.post k.jB seg)
    if (b'.line k.jB).rxCnt = (s.b.line k.jB).rxCnt then s
    else { s with b := b', ab := s.ab + seg.length }
  | .ba n =>
    let seg := (s.onCableBack k).take n
    let a' := s.a.step oc k.cfgA k.wA (.post k.jA seg)
    if (a'.line k.jA).rxCnt = (s.a.line k.jA).rxCnt then s
    else { s with a := a', ba := s.ba + seg.length }

/-- A whole schedule. -/
noncomputable def run (oc : Bool) (k : Cable) (s : Link) (evs : List LEv) : Link :=
  evs.foldl (step oc k) s

/-- New couplers, and a silent cable. -/
structure Initial (k : Cable) (s : Link) : Prop where
  a : s.a.Initial k.cfgA k.wA
  b : s.b.Initial k.cfgB k.wB
  jA : k.jA ∈ k.wA.modules
  jB : k.jB ∈ k.wB.modules
  silent : s.ab = 0 ∧ s.ba = 0 ∧ (s.a.line k.jA).avail = false ∧ (s.b.line k.jB).avail = false

/-- The segment the second device presents, as long as no cycle of the initialised module has seen
it. -/
def presented (k : Cable) (s : Link) : List Byte :=
  if (s.b.line k.jB).avail = true ∧ (s.b.line k.jB).fresh = true then (s.b.line k.jB).rxData else []

/-- On the side of the first coupler nothing is lost: no image, no crash, and cycles only fail
because their images cannot be decoded. The second device only presents segments to an initialised
module. -/
def Careful (oc : Bool) (k : Cable) : Link → List LEv → Prop
  | _, [] => True
  | s, e :: evs => (match e with
      | .a (.failing pi) => ¬ Decodable k.cfgA pi s.a.out
      | .a .lost => False
      | .a .crash => False
      | .ab _ => 2 ≤ s.b.cycles
      | _ => True) ∧ Careful oc k (s.step oc k e) evs

/-- Rounds of the first coupler: a complete cycle, and then every device of it looks at the image. -/
def roundsEvs (k : Cable) (pis : List (List Word)) : List LEv :=
  pis.flatMap fun pi => ([NEv.start pi, .finish] ++ k.wA.modules.map NEv.take).map LEv.a

/-- The second device presents the next bytes, and there is a complete cycle of the second
coupler. -/
noncomputable def relay (oc : Bool) (k : Cable) (s : Link) (r : Nat × List Word) : Link :=
  s.run oc k [.ab r.1, .b (.start r.2), .b .finish]

/-- Several such cycles. -/
noncomputable def relays (oc : Bool) (k : Cable) (s : Link) (rs : List (Nat × List Word)) : Link :=
  rs.foldl (relay oc k) s

/-- The input image of each of these cycles is complete and carries the frames of all devices. -/
def GoodRelays (oc : Bool) (k : Cable) : Link → List (Nat × List Word) → Prop
  | _, [] => True
  | s, r :: rs => InputsReady k.cfgB r.2 ∧ (s.step oc k (.ab r.1)).b.Shows k.wB r.2 ∧
    GoodRelays oc k (s.relay oc k r) rs

/-- The second device sees its last segment acknowledged. -/
def Acknowledged (k : Cable) (s : Link) : Prop :=
  ∃ f, outFrame (k.wB.wire k.jB).len (k.wB.wire k.jB).oo s.b.out = some f ∧
    f.rxCntAck = (s.b.line k.jB).rxCnt

end Link

/-- Only values the modules accept are written to modules that are not serial, on both sides. -/
def AcceptedValuesL (k : Cable) (evs : List LEv) : Prop :=
  (∀ a v, LEv.a (.other (.setOutput a v)) ∈ evs → ∀ t, k.cfgA.modules[a.module]? = some t →
    Accepts t v) ∧
  (∀ a v, LEv.b (.other (.setOutput a v)) ∈ evs → ∀ t, k.cfgB.modules[a.module]? = some t →
    Accepts t v)

/-- The second application does not crash. -/
def SecondLives (evs : List LEv) : Prop := ∀ e ∈ evs, e ≠ .b .crash

/-! The two sides exchanged. -/

def Cable.swap (k : Cable) : Cable := ⟨k.cfgB, k.wB, k.jB, k.cfgA, k.wA, k.jA⟩

def Link.swap (s : Link) : Link := ⟨s.b, s.a, s.ba, s.ab⟩

def LEv.swap : LEv → LEv
  | .a e => .b e
  | .b e => .a e
  | .ab n => .ba n
  | .ba n => .ab n

end Ur20.Spec
