import Verif.Props.CableProgress
import Verif.Props.Alone
import Verif.Props.AnalogHeld
import Verif.Props.Visible
import Verif.Props.Edited
import Verif.Props.LateCable
import Verif.Instances.Cycles

/-!
Concrete cases for the theorems about delivery (C90, C92, C95, C115) and for C105, C108, C112 and C116.
-/

namespace Ur20.Instances
open Spec Com Coupler
open scoped List

/-- C90: the application crashes after two cycles, starts again and writes seven bytes, which arrive in
five rounds. -/
example : ∃ pis : List (List Word), pis.length = 5 ∧
    let r := exPlant.urun true exCfg 3 .EightBytes 0x0010#16 0x8010#16 ((exBefore.take 4).map .ev)
    let a := r.urun true exCfg 3 .EightBytes 0x0010#16 0x8010#16
      [.crash, .ev (.write [1#8, 2#8, 3#8, 4#8, 5#8, 6#8, 7#8])]
    (a.rounds true 3 .EightBytes 0x0010#16 0x8010#16 pis).received =
      r.received ++ [1#8, 2#8, 3#8, 4#8, 5#8, 6#8, 7#8] := by
  refine ⟨[[0#16, 0#16, 0#16, 0#16, 0#16], [0#16, 0#16, 0#16, 0#16, 0#16],
    [0#16, 0#16, 0#16, 0#16, 0#16], [0#16, 0x0020#16, 0#16, 0#16, 0#16],
    [0#16, 0x0040#16, 0#16, 0#16, 0#16]], rfl, ?_⟩
  refine C90_after_crash true exCfg 3 .EightBytes _ _ exPlant exPlant_initial
    ((exBefore.take 4).map .ev) [1#8, 2#8, 3#8, 4#8, 5#8, 6#8, 7#8] ?_ _ ?_ ?_
  · rw [show (exPlant.urun true exCfg 3 .EightBytes 0x0010#16 0x8010#16
      ((exBefore.take 4).map .ev)).out = exImage by decide +kernel]
    exact exImage_ready
  · simp only [Plant.urun, List.foldl_cons, List.foldl_nil, Plant.ustep, exCfg_new]
    exact ⟨exInput_ready _ (by simp), ⟨_, rfl, by decide +kernel⟩, exInput_ready _ (by simp),
      ⟨_, rfl, by decide +kernel⟩, exInput_ready _ (by simp), ⟨_, rfl, by decide +kernel⟩,
      exInput_ready _ (by simp), ⟨_, rfl, by decide +kernel⟩,
      exInput_ready _ (by simp), ⟨_, rfl, by decide +kernel⟩, trivial⟩
  · simp only [Plant.urun, List.foldl_cons, List.foldl_nil, Plant.ustep, exCfg_new]
    decide +kernel

/-- C92: bytes written and bytes given to `set_output` arrive in three rounds. -/
example : ∃ pis : List (List Word), pis.length = 3 ∧
    ((Sending.run true exCfg 3 .EightBytes 0x0010#16 0x8010#16 ⟨exPlant, none⟩
      exSends).plant.rounds true 3 .EightBytes 0x0010#16 0x8010#16 pis).received =
      [1#8, 7#8, 8#8] := by
  refine ⟨[[0#16, 0#16, 0#16, 0#16, 0#16], [0#16, 0x0020#16, 0#16, 0#16, 0#16],
    [0#16, 0x0040#16, 0#16, 0#16, 0#16]], rfl, ?_⟩
  have := C92_delivered true exCfg 3 .EightBytes _ _ exPlant exPlant_initial
    exSends.dropLast (fun a v h => by simp [exSends] at h) [7#8, 8#8] (by decide +kernel)
    (by
      rw [show (Sending.run true exCfg 3 .EightBytes 0x0010#16 0x8010#16 ⟨exPlant, none⟩
        exSends.dropLast).plant.out = exImage by decide +kernel]
      exact exImage_ready)
    (by decide +kernel)
    [[0#16, 0#16, 0#16, 0#16, 0#16], [0#16, 0x0020#16, 0#16, 0#16, 0#16],
      [0#16, 0x0040#16, 0#16, 0#16, 0#16]]
    ⟨exInput_ready _ (by simp), ⟨_, rfl, by decide +kernel⟩, exInput_ready _ (by simp),
      ⟨_, rfl, by decide +kernel⟩, exInput_ready _ (by simp), ⟨_, rfl, by decide +kernel⟩, trivial⟩
    (by decide +kernel)
  exact this.trans (by decide +kernel)

/-- C95: both devices get everything in three rounds. -/
example : ∀ j ∈ exWires.modules, ((exDuoNet.rounds true exDuo exWires exDuoInputs).line j).received =
    (exDuoNet.line j).received ++ exDuoNet.inFlight exWires j ++ exDuoNet.queued j ++
      sentBytes (exDuoNet.line j).waiting :=
  C95_delivered true exDuo exWires exNet exNet_initial exDuoEvs exDuoEvs_calm.2.2
    exDuoNet_good.1 exDuoNet_good.2.1 exDuoNet_good.2.2.1.ge exDuoInputs exDuoNet_good.2.2.2.1
    (by decide +kernel)

/-- C115: the seven bytes arrive at the other coupler. -/
example : ((exLink2.relays true exCable exRelays).b.line exCable.jB).delivered ++
    (exLink2.relays true exCable exRelays).b.buffered exCable.jB =
      (exLink1.a.line exCable.jA).written ++ sentBytes (exLink1.a.line exCable.jA).waiting := by
  have h := C115_arrives true exCable exLink exLink_initial exLinkEvs
    exLinkEvs_ok.1 exLinkEvs_ok.2.1 exLinkEvs_ok.2.2
  have h1 : exLink.run true exCable exLinkEvs = exLink1 := rfl
  dsimp only at h
  rw [h1] at h
  have h := h exLink1_good.2.2.1 exLink1_ready.1 exLink1_good.2.2.2.1.ge exLink1_good.2.2.2.2.1
    exLink1_ready.2 exLink1_good.2.2.2.2.2.1.ge exLink1_good.2.2.2.2.2.2 exLinkInputs exLink1_good.1
    (by decide +kernel)
  have h2 : exLink1.run true exCable (Link.roundsEvs exCable exLinkInputs) = exLink2 := rfl
  rw [h2] at h
  exact h exRelays exLink2_good.1 (by rw [exLink2_good.2]; decide)

/-- C105: another substitute value makes no difference. -/
example : SameWork (.ao ⟨List.replicate 4 ⟨.S7, .V0To10, .fin 0⟩⟩)
    (.ao ⟨List.replicate 4 ⟨.S7, .V0To10, .fin 5⟩⟩) := C105_module _ _ rfl

/-- A coupler with just one digital output module, in the low byte of the register … -/
def exLone : Place := ⟨.UR20_8DO_P, List.replicate 8 0, 0x8000#16, 0xFFFF#16⟩

def exLoneCoupler : Coupler :=
  initial exLone.config [.dout ⟨.UR20_8DO_P, List.replicate 8 ⟨false⟩⟩]

theorem exLone_new : Coupler.new exLone.config = .ok exLoneCoupler := by rw [new_eq]; rfl

theorem exLone_disjoint : DisjointOutputs exLone.config := by
  refine disjointOutputs_of ?_
  intro k k' t par o i t' par' o' i' q h h' _ _ _ _ _ _
  obtain ⟨h, -⟩ := List.getElem?_eq_some_iff.1 h.1
  obtain ⟨h', -⟩ := List.getElem?_eq_some_iff.1 h'.1
  simp only [exLone, Place.config, List.length_singleton] at h h'
  omega

/-- C108: … and in the high byte as second module of the example coupler. -/
example : moduleSeen true 1 exPlace (initial exCfg exModules) exOther =
    moduleSeen false 0 exLone exLoneCoupler
      [.setOutput ⟨0, 1⟩ (.bit true), .next [] [0x0005#16]] := by
  refine C108_elsewhere true false exCfg exLone.config _ exLoneCoupler exCfg_new exLone_new
    1 0 (exCfg_disjoint 1) (exLone_disjoint 0) .UR20_8DO_P (List.replicate 8 0) 0x8008#16 0xFFFF#16 0x8000#16
    0xFFFF#16 (fun _ => .inr rfl) ⟨.rfl, fun _ => .inl rfl⟩ ⟨by decide, fun _ => .inr rfl⟩
    ⟨rfl, rfl, rfl, rfl⟩ ⟨rfl, rfl, rfl, rfl⟩ exOther _ ?_ ?_ ?_
  · refine ⟨?_, ?_, ?_, ?_, trivial⟩ <;> intro pi po h <;> cases h
    exact ⟨_, rfl⟩
  · refine ⟨?_, ?_, trivial⟩ <;> intro pi po h <;> cases h
    exact ok_of_isOk (by decide +kernel)
  · simp [viewOf, exOther, COp.view, -List.reduceReplicate]
    exact ⟨by simp [Place.inBytes, noOffset], by simp [Place.outBytes, noOffset, region, outByte,
      outputBase, outputBytes, byteAt]⟩

/-- C112: a value is set, the application starts again twice. -/
example : ∃ (c : Coupler) (device : List Word),
    restarts true exAoCfg (initial exAoCfg exAoModules) [3#16, 45#16, 90#16, 0xABCD#16, 0#16]
      [.round ⟨[.setOutput ⟨1, 0⟩ (.decimal32 (.fin (4110 / 1024)))], [], true⟩, .crash [],
       .round ⟨[], [], true⟩, .crash [], .round ⟨[], [], true⟩] = some (c, device) ∧
    ∃ (w : Word) (e : ℤ), device[1]? = some w ∧ |w.toInt - e| ≤ 5 := by
  have h : (restarts true exAoCfg (initial exAoCfg exAoModules) [3#16, 45#16, 90#16, 0xABCD#16, 0#16]
      [.round ⟨[.setOutput ⟨1, 0⟩ (.decimal32 (.fin (4110 / 1024)))], [], true⟩, .crash [],
       .round ⟨[], [], true⟩, .crash [], .round ⟨[], [], true⟩]).isSome = true := by
    decide +kernel
  obtain ⟨⟨c, device⟩, h⟩ := Option.isSome_iff_exists.1 h
  obtain ⟨w, e, h1, -, h2⟩ := (C112_analog true exAoCfg _ exAoCfg_new
    1 (exAoCfg_disjoint 1) .UR20_4AO_UI_16 _ _ _ ⟨rfl, rfl, rfl, rfl⟩ (by decide) (by decide) 0 (by decide)
    .mA0To20 .S7 ⟨⟨_, rfl, rfl⟩, _, rfl, rfl⟩ (by decide) _ (by
      intro r hr op hop
      simp only [List.mem_cons, List.not_mem_nil, or_false] at hr
      rcases hr with hr | hr | hr | hr | hr <;> cases hr <;> simp at hop
      subst hop; trivial) _ c device h 45#16 rfl).1 _ rfl
  exact ⟨c, device, h, w, e, h1, h2⟩

/-- C116: if the second channel of the thermometer shows the same for two images, its registers are the
same. -/
example (c c1 c2 : Coupler) (pi pi' img img' : List Word)
    (h0 : Coupler.new exVisible = .ok c) (h1 : c.next true pi [] = (c1, .ok img))
    (h2 : c.next true pi' [] = (c2, .ok img')) (vs vs' : List ChannelValue) (v : ChannelValue)
    (hv : c1.inputs[0]? = some vs) (hv' : c2.inputs[0]? = some vs') (hs : vs[1]? = some v)
    (hs' : vs'[1]? = some v) : SameInput .UR20_4AI_RTD_DIAG pi pi' 0 1 :=
  C116_visible true exVisible c c ⟨c, [], h0, rfl⟩ ⟨c, [], h0, rfl⟩ pi [] img c1 h1 pi' [] img' c2 h2 0
    .UR20_4AI_RTD_DIAG _ _ _ ⟨rfl, rfl, rfl, rfl⟩ (by decide) (by decide) (.inl rfl) 1 (by decide)
    (by
      rintro ⟨w, h1, h2⟩
      cases h1
      exact absurd (show (10#16).toNat = code RtdRange.Disabled from h2) (by decide))
    vs vs' v hv hv' hs hs'

end Ur20.Instances
