import Verif.Spec.LatePlant

/-!
# Specification: a cable between two serial modules with late and lost images

Two couplers as in `Spec/LatePlant.lean`, each with its own application and its own connection, on
which images are late or get lost. The two devices are connected by a cable: each presents what the
other has taken over, in segments of any size.
-/

namespace Ur20.Spec

/-- One side: the configuration, the number of the serial module, its mode and its offsets. -/
structure LateSide where
  cfg : CouplerConfig
  j : Nat
  len : ProcessDataLength
  oi : Word
  oo : Word

/-- The two sides. -/
structure LateCable where
  a : LateSide
  b : LateSide

/-- Both couplers with their devices, and how much of what the devices have taken over has been
presented on the other side. -/
structure LateLink where
  a : LatePlant
  b : LatePlant
  /-- number of bytes that the second device has presented -/
  ab : Nat
  /-- number of bytes that the first device has presented -/
  ba : Nat

/-- One step of a schedule. -/
inductive LateLinkEv where
  /-- a step of the first coupler, its application, its connection or its device -/
  | a (e : LatePlantEv)
  /-- the same on the second side -/
  | b (e : LatePlantEv)
  /-- the second device presents the next bytes, at most `n`, if its last segment has been
  acknowledged -/
  | ab (n : Nat)
  /-- the first device presents the next bytes, at most `n`, if its last segment has been
  acknowledged -/
  | ba (n : Nat)

/-- The device presents something. -/
def LatePlantEv.Posts : LatePlantEv → Bool
  | .post _ => true
  | _ => false

/-- A step of one side. -/
def LateSide.step (oc : Bool) (k : LateSide) (s : LatePlant) (e : LatePlantEv) : LatePlant :=
  s.step oc k.j k.len k.oi k.oo e

namespace LateLink

/-- The bytes on their way from the first device to the second. -/
def onCable (s : LateLink) : List Byte := s.a.received.drop s.ab

/-- The bytes on their way from the second device to the first. -/
def onCableBack (s : LateLink) : List Byte := s.b.received.drop s.ba

/-- The effect of one step. The devices present nothing but what comes over the cable. -/
def step (oc : Bool) (k : LateCable) (s : LateLink) : LateLinkEv → LateLink
  | .a e => if e.Posts then s else { s with a := k.a.step oc s.a e }
  | .b e => if e.Posts then s else { s with b := k.b.step oc s.b e }
  | .ab n =>
    let seg := s.onCable.take n
    let b' := k.b.step oc s.b (.post seg)
    if b'.shown.length = s.b.shown.length then s else { s with b := b', ab := s.ab + seg.length }
  | .ba n =>
    let seg := s.onCableBack.take n
    let a' := k.a.step oc s.a (.post seg)
    if a'.shown.length = s.a.shown.length then s else { s with a := a', ba := s.ba + seg.length }

/-- A whole schedule. -/
def run (oc : Bool) (k : LateCable) (s : LateLink) (evs : List LateLinkEv) : LateLink :=
  evs.foldl (step oc k) s

/-- New couplers and a silent cable. -/
structure Initial (k : LateCable) (s : LateLink) : Prop where
  a : s.a.Initial k.a.cfg k.a.j k.a.len k.a.oi k.a.oo
  b : s.b.Initial k.b.cfg k.b.j k.b.len k.b.oi k.b.oo
  silent : s.ab = 0 ∧ s.ba = 0 ∧ s.a.shown = [[]] ∧ s.b.shown = [[]]

/-- If a cycle of the schedule fails then because its images cannot be decoded. -/
def OnlyUndecodable (oc : Bool) (k : LateCable) (evs : List LateLinkEv) : Prop :=
  (∀ pi po, .a (.failing pi po) ∈ evs → ¬ Decodable k.a.cfg pi po ∧ (oc = false → po.length ≤ 0xF800)) ∧
  (∀ pi po, .b (.failing pi po) ∈ evs → ¬ Decodable k.b.cfg pi po ∧ (oc = false → po.length ≤ 0xF800))

/-- The second device presents segments to an initialised module only. -/
def Careful (oc : Bool) (k : LateCable) : LateLink → List LateLinkEv → Prop
  | _, [] => True
  | s, e :: evs => (match e with
      | .ab _ => 2 ≤ s.b.cycles
      | _ => True) ∧ Careful oc k (s.step oc k e) evs

/-- The second device presents the next bytes, and there is a round of the second coupler without
losses and delays. -/
def relay (r : Nat × List Word) : List LateLinkEv :=
  .ab r.1 :: [LatePlantEv.sample r.2, .arrive, .cycle, .deliver, .take].map .b

/-- The input image of each of these rounds carries the frame of the second device, and the cycle
succeeds. -/
def GoodRelays (oc : Bool) (k : LateCable) : LateLink → List (Nat × List Word) → Prop
  | _, [] => True
  | s, r :: rs =>
    LatePlant.GoodRounds oc k.b.j k.b.len k.b.oi k.b.oo (s.step oc k (.ab r.1)).b [r.2] ∧
      GoodRelays oc k (s.run oc k (relay r)) rs

end LateLink

/-! The two sides exchanged. -/

def LateCable.swap (k : LateCable) : LateCable := ⟨k.b, k.a⟩

def LateLink.swap (s : LateLink) : LateLink := ⟨s.b, s.a, s.ba, s.ab⟩

def LateLinkEv.swap : LateLinkEv → LateLinkEv
  | .a e => .b e
  | .b e => .a e
  | .ab n => .ba n
  | .ba n => .ab n

end Ur20.Spec
